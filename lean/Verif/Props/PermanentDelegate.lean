import Verif.Props.HistoryExample
/-!
# A permanent delegate on the unwrapped mint (C42), as part of a history

A concrete history with a Token-2022 mint that has a permanent delegate.  As long as the delegate does
not act, the theorems of Props/History.lean apply; when it takes tokens out of the escrow, the supply is
no longer backed.
-/

namespace TokenWrap.Example.Hist.PD

open TokenWrap.Example (ok get get_eq)

/-- A Token-2022 mint with permanent delegate `issuer`. -/
def uMint : Mint := TokenWrap.Example.uMint [.permanentDelegate (some issuer)]

def L0 : Ledger := fun k =>
  if k = u then ⟨200, token2022Id, .mint uMint⟩
  else if k = src then ⟨200, token2022Id, .token (TokenWrap.Example.acct u user 5000 [])⟩
  else Hist.L0 k

theorem L0_src : L0 src = ⟨200, token2022Id, .token (TokenWrap.Example.acct u user 5000 [])⟩ := by
  have h : src ≠ u := by decide +kernel
  unfold L0; rw [if_neg h, if_pos rfl]

theorem L0_u : L0 u = ⟨200, token2022Id, .mint uMint⟩ := by unfold L0; rw [if_pos rfl]

theorem L0_other {k : Pubkey} (h1 : k ≠ u) (h2 : k ≠ src) : L0 k = Hist.L0 k := by
  unfold L0; rw [if_neg h1, if_neg h2]

theorem L0_funds : Funds L0 where
  all := by
    intro k
    by_cases h : k = u
    · subst h; rw [L0_u]
      exact ⟨(fun t _ h => by cases h), (fun m _ _ => by decide)⟩
    by_cases h2 : k = src
    · subst h2; rw [L0_src]
      refine ⟨(fun t _ h => ?_), (fun m _ h => by cases h)⟩
      cases h
      exact ⟨by decide +kernel, (by intro r h; cases h), by decide +kernel⟩
    · rw [L0_other h h2]; exact Hist.L0_funds.all k
  native := by
    intro nm hnm
    refine ⟨(L0 nm).owner, 9, by simp, by simp, ?_, rfl, Hist.solMint, ?_, rfl, by intro e he; cases he⟩
    · revert nm; decide +kernel
    · revert nm; decide +kernel

theorem fresh : Fresh s L0 where
  W := by unfold Blank; decide +kernel
  A := by unfold Blank; decide +kernel
  B := by unfold Blank; decide +kernel
  Es := by unfold Blank; decide +kernel
  Et := by unfold Blank; decide +kernel
  noHolder := by
    intro k t ho hd
    by_cases h : k = u
    · subst h; rw [L0_u] at hd; cases hd
    by_cases h2 : k = src
    · subst h2; rw [L0_src] at hd; cases hd
      show u ≠ W
      decide +kernel
    · rw [L0_other h h2] at ho hd
      exact Hist.fresh.noHolder k t ho hd
  funds := L0_funds

theorem L0_lamports (k : Pubkey) : (L0 k).lamports ≤ u64Max := by
  by_cases h : k = u
  · subst h; rw [L0_u]; decide
  by_cases h2 : k = src
  · subst h2; rw [L0_src]; decide
  · rw [L0_other h h2]; exact Hist.L0_lamports k

def L1 := get (ataCreate env A u token2022Id L0)
def mintAccs : List Meta := (Build.createMint crateId W B u token2022Id false).accounts
def L2 := get (processInstruction env mintAccs (TokenWrapInstruction.createMint false).pack L1)
def L3 := get (sysAllocate (fun k => k = rcp) rcp 165 L2)
def L4 := get (sysAssign (fun k => k = rcp) rcp token2022Id L3)
def initIx : TokenIx := .initializeAccount3 rcp W user []
def L5 := get (tokenExec env token2022Id initIx (fun _ => false) L4)
def wrapAccs : List Meta :=
  (Build.wrap crateId rcp W A token2022Id token2022Id src u Et user [] 1000).accounts
def L6 := get (processInstruction env wrapAccs (TokenWrapInstruction.wrap 1000).pack L5)
/-- the permanent delegate helps itself -/
def takeIx : TokenIx := .transferChecked Et u src issuer [] 400 6
def byIssuer : Pubkey → Bool := fun k => k = issuer
def L7 := get (tokenExec env token2022Id takeIx byIssuer L6)

variable {ok' : Act → Ledger → Prop}

theorem st1 : Step cr ok' (.createAta env A u token2022Id) L0 L1 :=
  .base (.createAta rfl ⟨by decide, L0_lamports⟩ (get_eq (by decide +kernel)) rent_pos)
theorem st2 : Step cr ok' (.tokenWrap env mintAccs (TokenWrapInstruction.createMint false).pack) L1 L2 :=
  .tokenWrap rfl rfl (signs_of (by decide +kernel)) (get_eq (by decide +kernel)) rent_pos
theorem st3 : Step cr ok' (.allocate rcp 165) L2 L3 :=
  .base (.allocate (.keypair (by decide +kernel)) (get_eq (by decide +kernel)))
theorem st4 : Step cr ok' (.assign rcp token2022Id) L3 L4 :=
  .base (.assign (.keypair (by decide +kernel)) ⟨List.replicate 165 0, by decide +kernel,
    by decide +kernel⟩ (get_eq (by decide +kernel)))
theorem st5 : Step cr ok' (.token env token2022Id initIx (fun _ => false)) L4 L5 :=
  .base (.token (by decide) (by simp) (get_eq (by decide +kernel)) rent_pos)
theorem st6 : Step cr ok' (.tokenWrap env wrapAccs (TokenWrapInstruction.wrap 1000).pack) L5 L6 :=
  .tokenWrap rfl rfl (signs_of (by decide +kernel)) (get_eq (by decide +kernel)) rent_pos
theorem st7 : Step cr ok' (.token env token2022Id takeIx byIssuer) L6 L7 :=
  .base (.token (by decide) (by
    intro k hk
    have : k = issuer := by simpa [byIssuer] using hk
    subst this; exact .keypair (by decide +kernel)) (get_eq (by decide +kernel)) rent_pos)

theorem idle {act : Act} {L : Ledger} (hu : (L u).data = .mint uMint)
    (hd : ∀ ms, (L issuer).data ≠ .multisig ms) (hs : ¬ act.Signer cr issuer) :
    PDIdle cr s.u act L := by
  intro m pd hm hp
  have hm' : (L u).data = .mint m := hm
  rw [hu] at hm'; cases hm'
  have : pd = issuer := by simpa [uMint, TokenWrap.Example.uMint, Mint.permanentDelegate?] using hp.symm
  subst this
  rintro (h | ⟨ms, mem, h, _⟩)
  · exact hs h
  · exact hd ms h

/-- The authority PDA is not a key pair. -/
theorem issuer_no_pda (w : Pubkey) : authorityAddress cr w ≠ some issuer := by
  intro h
  have := pda_off_curve (i := .authority w) h
  have h2 : cr.onCurve issuer = true := by decide +kernel
  rw [h2] at this; cases this

theorem not_multisig {L : Ledger} (h : (L issuer).data = .bytes []) (ms : Multisig) :
    (L issuer).data ≠ .multisig ms := by rw [h]; simp

theorem no_signs {accounts : List Meta} {data : Bytes}
    (h : ∀ m ∈ accounts, m.key = issuer → m.signer = false) :
    ¬ (Act.tokenWrap env accounts data).Signer cr issuer := by
  rintro (⟨m, hm, hk, hs⟩ | ⟨w, hw⟩)
  · rw [h m hm hk] at hs; cases hs
  · exact issuer_no_pda w hw

def tr6 : List Act :=
  [.tokenWrap env wrapAccs (TokenWrapInstruction.wrap 1000).pack,
   .token env token2022Id initIx (fun _ => false), .assign rcp token2022Id, .allocate rcp 165,
   .tokenWrap env mintAccs (TokenWrapInstruction.createMint false).pack,
   .createAta env A u token2022Id]

/-- The delegate does not act before step 7. -/
theorem hist6 : History cr (PDIdle cr s.u) L0 tr6 L6 :=
  .step (.step (.step (.step (.step (.step .start
    (idle (by decide +kernel) (not_multisig (by decide +kernel)) (by simp [Act.Signer])) st1)
    (idle (by decide +kernel) (not_multisig (by decide +kernel)) (no_signs (by decide +kernel))) st2)
    (idle (by decide +kernel) (not_multisig (by decide +kernel)) (by simp [Act.Signer])) st3)
    (idle (by decide +kernel) (not_multisig (by decide +kernel)) (by simp [Act.Signer])) st4)
    (idle (by decide +kernel) (not_multisig (by decide +kernel)) (by simp [Act.Signer])) st5)
    (idle (by decide +kernel) (not_multisig (by decide +kernel)) (no_signs (by decide +kernel))) st6

-- fully backed although the mint has a permanent delegate
example : supplyOf L6 s.W = 1000 := by decide +kernel
example : supplyOf L6 s.W ≤ balanceOf L6 s.Es + balanceOf L6 s.Et := always_backed fresh hist6

theorem stable : StableMint token2022Id s.u 6 L0 :=
  ⟨.inr rfl, by decide +kernel, uMint, by decide +kernel, rfl, by
    intro e he d
    have : e = .permanentDelegate (some issuer) := by
      simpa [uMint, TokenWrap.Example.uMint] using he
    rw [this]; simp⟩

-- and redeemable
example : ∃ L', processInstruction env
    (Build.unwrap crateId (s.escrowFor token2022Id) src s.A s.u s.wp token2022Id rcp s.W user []
      300).accounts
    (Build.unwrap crateId (s.escrowFor token2022Id) src s.A s.u s.wp token2022Id rcp s.W user []
      300).data L6 = .ok L' := by
  refine always_redeemable (t := TokenWrap.Example.acct W user 1000 []) (m := uMint) fresh stable hist6
    rfl rfl (fun _ _ _ _ => rfl) ⟨by decide +kernel, by decide +kernel, rfl⟩ rfl (by decide) (by decide)
    (.inr (.inr ⟨by decide, rfl⟩)) (.inl ⟨rfl, ?_⟩) (by decide +kernel)
    (fun h => absurd h (by decide +kernel)) ?_ ?_ ⟨⟨TokenWrap.Example.acct u user 4000 [],
      by decide +kernel, by decide +kernel, rfl, rfl, by decide, .inl rfl⟩⟩
  · intro ms; have : (L6 user).data = .bytes [] := by decide +kernel
    rw [this]; simp
  · intro c hc; cases hc
  · intro e he
    have h1 : (L6 (s.escrowFor token2022Id)).data =
      .token (TokenWrap.Example.acct u A 1000 [.immutableOwner]) := by decide +kernel
    rw [h1] at he; cases he
    rfl

theorem hist7 : History cr (fun _ _ => True) L0 (.token env token2022Id takeIx byIssuer :: tr6) L7 :=
  .step (hist6.weaken fun _ _ _ => trivial) trivial st7

-- from now on the supply is short by 400, but not more as long as the delegate stays idle
example {trace' : List Act} {L : Ledger} (h : History cr (PDIdle cr s.u) L7 trace' L) :
    (supplyOf L s.W : Int) - escrowed s L ≤ 400 := by
  have h1 := surplus_monotone fresh hist7 h
  have h2 : escrowed s L7 = 600 ∧ supplyOf L7 s.W = 1000 := by decide +kernel
  omega

end TokenWrap.Example.Hist.PD

namespace TokenWrap

open Example.Hist in
/-- **C42** There is a pair and a history from a fresh state (create the mint and the escrow, wrap 1000
tokens, all without the permanent delegate; then one transfer signed by the permanent delegate alone)
after which the wrapped supply exceeds the escrowed tokens.  So `always_backed` does not hold for
arbitrary histories. -/
theorem permanent_delegate_history :
    ∃ (cr : Crypto) (s : Setting cr) (L0 L L' : Ledger) (trace : List Act) (env : Env) (ix : TokenIx)
      (signed : Pubkey → Bool) (pd : Pubkey) (m : Mint),
      Fresh s L0 ∧ History cr (PDIdle cr s.u) L0 trace L ∧ supplyOf L s.W = escrowed s L ∧
      (L s.u).data = .mint m ∧ m.permanentDelegate? = some pd ∧ (∀ k, signed k = true → k = pd) ∧
      Step cr (fun _ _ => True) (.token env token2022Id ix signed) L L' ∧
      escrowed s L' < supplyOf L' s.W :=
  ⟨cr, s, PD.L0, PD.L6, PD.L7, PD.tr6, env, PD.takeIx, PD.byIssuer, issuer, PD.uMint, PD.fresh, PD.hist6,
    by decide +kernel, by decide +kernel, by decide +kernel, by simp [PD.byIssuer], PD.st7,
    by decide +kernel⟩

end TokenWrap
