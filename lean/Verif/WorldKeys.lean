import Verif.WorldMint
/-! # Addresses nobody can sign for, and strengthening the condition of a history -/

set_option linter.unusedSimpArgs false

namespace TokenWrap

section
variable {cr : Crypto} {L L' : Ledger} {k : Pubkey}

/-- Nothing exists there, or a funded account of Token Wrap does. -/
def Held (L : Ledger) (k : Pubkey) : Prop :=
  Blank L k ∨ ((L k).owner = crateId ∧ 0 < (L k).lamports)

theorem Held.not_token {prog : Pubkey} (h : Held L k) (hp : prog = splTokenId ∨ prog = token2022Id) :
    (L k).owner ≠ prog := by
  rcases h with h | h <;> rw [h.1] <;> rcases hp with rfl | rfl
  · exact Ne.symm spl_ne_system
  · exact Ne.symm t22_ne_system
  · exact crate_ne_spl
  · exact crate_ne_t22

theorem Held.tokEff {rm : Nat → Nat} {prog : Pubkey} {signed : Pubkey → Bool} (h : Held L k)
    (hp : prog = splTokenId ∨ prog = token2022Id) (e : TokEff rm prog signed L L') : Kept L L' k := by
  rcases e.frame k with h1 | ⟨h1, _⟩
  · exact h1
  · exact absurd h1 (h.not_token hp)

theorem Held.kept (h : Held L k) (hk : Kept L L' k) : Held L' k := by
  rcases h with h | ⟨h, h'⟩
  · exact .inl (h.kept hk)
  · exact .inr ⟨hk.1.trans h, Nat.lt_of_lt_of_le h' (hk.lam h)⟩

theorem Held.cpi {env : Env} {accounts : List Meta} {pdas borrowed : List Pubkey}
    {prog : Pubkey} {ix : TokenIx} (h : Held L k)
    (hc : invokeToken env accounts pdas borrowed prog ix L = .ok L') : Kept L L' k :=
  h.tokEff (invokeToken_inv hc).1 (tokenExec_eff (invokeToken_inv hc).2.2.2.2)

/-- Other programs cannot touch such an address, except by creating an associated token account. -/
theorem Held.baseStep {act : Act} (h : Held L k) (hs : ¬ CanSign cr k)
    (hno : ∀ wallet mint prog, associatedTokenAddress cr wallet mint prog = some k →
      (L mint).owner ≠ prog) (hb : BaseStep cr act L L') : Kept L L' k := by
  cases hb with
  | token hp _ he => exact h.tokEff (by simpa [isTokenProgram] using hp) (tokenExec_eff he)
  | allocate hc ha =>
    unfold sysAllocate at ha
    simp only [bind_ok_iff, require_ok_iff, pure_ok_iff] at ha
    obtain ⟨_, _, _, _, rfl⟩ := ha
    exact kept_setData (by rintro rfl; exact hs hc)
  | assign hc _ ha =>
    unfold sysAssign at ha
    split at ha
    · cases ha; exact .rfl'
    · simp only [bind_ok_iff, require_ok_iff, pure_ok_iff] at ha
      obtain ⟨_, _, _, _, rfl⟩ := ha
      exact .of_eq (Ledger.set_ne _ _ (by rintro rfl; exact hs hc))
  | createAta hcr _ ha =>
    obtain ⟨k', m, _, hk, _, _, mo, _, _, _, rfl⟩ := ataCreate_inv ha
    rw [hcr] at hk
    exact .of_eq (Ledger.set_ne _ _ (by rintro rfl; exact hno _ _ _ hk mo))
  | gc h0 =>
    rename_i key
    by_cases hx : k = key
    · subst hx
      rcases h with h | h
      · exact .of_lamports (by rw [Ledger.set_same, h.1]; rfl) (by rw [Ledger.set_same, h.2]; rfl)
          (by rw [h.1]; exact system_ne_crate)
      · exact absurd h0 (by have := h.2; omega)
    · exact .of_eq (Ledger.set_ne _ _ hx)
  | lamports h1 hl => exact kept_lamports (h1 k) (hl k)
  | other _ hc hsys hframe _ hlam =>
    rename_i prog _ _
    have hne : (L k).owner ≠ prog := ?_
    · exact ⟨(hframe k hne).1, (hframe k hne).2, fun _ => hlam k hne⟩
    rintro rfl
    rcases h with h | h
    · exact hsys h.1
    · exact hc h.1

theorem Held.run {ok : Act → Ledger → Prop} {Q : Ledger → Prop} (hs : ¬ CanSign cr k)
    (hQ : ∀ {act L L'}, Q L → BaseStep cr act L L' → Q L')
    (hno : ∀ L, Q L → ∀ wallet mint prog, associatedTokenAddress cr wallet mint prog = some k →
      (L mint).owner ≠ prog) (h : Held L k) (q : Q L) (hr : Run cr ok L L') : Kept L L' k := by
  induction hr with
  | refl => exact .rfl'
  | step _ h2 _ ih =>
    have := h.baseStep hs (hno _ q) h2
    exact this.trans (ih (h.kept this) (hQ q h2))

theorem Held.wrapTransfer {env : Env} {accounts : List Meta} {a : WrapAccounts} {m : Mint}
    {amount fee : Nat} (h : Held L k)
    (hw : TokenWrap.wrapTransfer env accounts a m amount fee L = .ok L') : Kept L L' k := by
  unfold TokenWrap.wrapTransfer at hw
  dsimp only at hw
  split at hw
  · exact h.cpi hw
  · exact h.cpi hw

/-- `act` is a SetCanonicalPointer naming `P` as the pointer account (second account). -/
def IsPointerTo (P p : Pubkey) (act : Act) : Prop :=
  ∃ env accounts, act = .tokenWrap env accounts (TokenWrapInstruction.setCanonicalPointer p).pack ∧
    (accounts[1]?).map Meta.key = some P

/-- `act` is a CreateMint for unwrapped mint `u` that created wrapped mint `w` of program `p` and
wrote the backpointer `k`. -/
def BackpointerMade (cr : Crypto) (act : Act) (w k : Pubkey) (L L' : Ledger) : Prop :=
  ∃ env a b c u rest idem p m x dec, act = .tokenWrap env (a :: b :: c :: rest)
      (TokenWrapInstruction.createMint idem).pack ∧ a.key = w ∧ b.key = k ∧ c.key = u ∧
    wrappedMintAddress cr u p = some w ∧ (L u).data = .mint m ∧ m.decimals = dec ∧
    (L' w).owner = p ∧ (L' w).data = .mint x ∧ x.decimals = dec ∧
    (∀ e ∈ x.exts, ∀ d, e ≠ .mintCloseAuthority d) ∧
    (p = splTokenId ∨ p = token2022Id) ∧
    0 < (L' k).lamports ∧ (L' k).owner = crateId ∧ (L' k).data = .bytes u.bytes

/-- What can happen to such an address in a step. -/
inductive KeyEff (cr : Crypto) (k : Pubkey) (act : Act) (L L' : Ledger) : Prop
  | kept (h : Kept L L' k) (hn : ∀ p, ¬ IsPointerTo k p act)
  | mint (u p : Pubkey) (h : wrappedMintAddress cr u p = some k) (m w : Mint)
      (um : (L u).data = .mint m) (wd : (L' k).data = .mint w)
      (decimals : w.decimals = m.decimals) (freeze : w.freezeAuthority = m.freezeAuthority)
      (supply : w.supply = 0) (noMd : w.tokenMetadata? = none)
      (hact : ∃ env accounts idem,
        act = .tokenWrap env accounts (TokenWrapInstruction.createMint idem).pack)
  | backpointer (w : Pubkey) (h : backpointerAddress cr w = some k)
      (e : BackpointerMade cr act w k L L')
  | metaplex (w : Pubkey) (h : metaplexPda cr w = some k)
  | pointer (env : Env) (accounts : List Meta) (p : Pubkey) (a : PointerAccounts) (m : Mint)
      (hcr : env.cr = cr)
      (hact : act = .tokenWrap env accounts (TokenWrapInstruction.setCanonicalPointer p).pack)
      (hid : env.programId = crateId) (hr : ∀ n, 0 < env.rentMin n)
      (e : PointerEffect env accounts p L L' a m) (hk : a.pointer.key = k)

theorem Held.stepS {act : Act} {ok : Act → Ledger → Prop} {Q : Ledger → Prop} (hs : ¬ CanSign cr k)
    (hQ : ∀ {act L L'}, Q L → BaseStep cr act L L' → Q L')
    (hQt : ∀ {env accounts a m amount fee L L'}, Q L →
      (∀ n, 0 < env.rentMin n) → (∀ k, Signs accounts k → CanSign cr k) →
      TokenWrap.wrapTransfer env accounts a m amount fee L = .ok L' → Q L')
    (hno : ∀ L, Q L → ∀ wallet mint prog, associatedTokenAddress cr wallet mint prog = some k →
      (L mint).owner ≠ prog) (h : Held L k) (q : Q L) (hst : Step cr ok act L L') :
    KeyEff cr k act L L' := by
  have wrapCase : ∀ {env : Env} {accounts : List Meta} {amount : UInt64} {hook : Ledger → Ledger},
      (∀ n, 0 < env.rentMin n) → (∀ k, Signs accounts k → CanSign cr k) →
      (∀ L1, Run cr ok L1 (hook L1)) →
      processWrapHooked env accounts amount hook L = .ok L' → Kept L L' k := by
    intro env accounts amount hook hr hsg hhook hw
    obtain ⟨a, m, L1, pda, c⟩ := processWrapHooked_inv hw
    have k1 := h.wrapTransfer c.transfer
    have k2 := (h.kept k1).run hs hQ hno (hQt q hr hsg c.transfer) (hhook L1)
    exact (k1.trans k2).trans (((h.kept k1).kept k2).cpi c.mintTo)
  have other : ∀ {env : Env} {accounts : List Meta} {ix : TokenWrapInstruction},
      (∀ p, ix ≠ .setCanonicalPointer p) →
      ∀ p, ¬ IsPointerTo k p (.tokenWrap env accounts ix.pack) := by
    rintro env accounts ix hix p ⟨env', accounts', he, _⟩
    injection he with _ _ he
    exact hix p (pack_injective he)
  cases hst with
  | base hb =>
    refine .kept (h.baseStep hs (hno _ q) hb) ?_
    rintro p ⟨_, _, rfl, _⟩
    cases hb
  | wrapHooked _ _ hsg hhook hw hr => exact .kept (wrapCase hr hsg hhook hw) (other (by simp))
  | tokenWrap hcr hid hsg hi hr =>
    obtain ⟨ix, rfl, h1⟩ := processInstruction_ok hi
    clear hi
    cases ix with
    | createMint idem =>
      obtain ⟨a, c, h2⟩ := processCreateMint_inv h1
      have hcm := c.mint
      have hcb := c.bp
      rw [hcr] at hcm hcb
      by_cases x1 : k = a.wrappedMint.key
      · rcases h2 with ⟨_, rfl, _⟩ | ⟨mb, bb, L1, _, _, _, _, g1, g2⟩
        · exact .kept .rfl' (other (by simp))
        · obtain ⟨m, A, space, _, _, _, d1, d2, um, _, wb, _, _, rfl⟩ :=
            createMint_fresh default_spec g1 g2
          subst x1
          have hwd : ∀ (x : Account) (y : Account),
              ((L.set a.wrappedMint.key x).set a.backpointer.key y a.wrappedMint.key).data =
                x.data := by
            intro x y; rw [Ledger.set_ne _ _ wb, Ledger.set_same]
          refine .mint _ _ hcm m _ um (hwd _ _) rfl rfl rfl ?_ ⟨_, _, idem, rfl⟩
          unfold Mint.tokenMetadata?
          dsimp only
          split <;> rfl
      · by_cases x2 : k = a.backpointer.key
        · rcases h2 with ⟨_, rfl, _⟩ | ⟨mb, bb, L1, _, _, _, _, g1, g2⟩
          · exact .kept .rfl' (other (by simp))
          · obtain ⟨m, A, space, _, _, hlam, d1, d2, um, _, wb, _, hp, rfl⟩ :=
              createMint_fresh default_spec g1 g2
            subst x2
            obtain ⟨rest, hacc⟩ := c.accounts_eq
            refine .backpointer _ hcb ⟨_, a.wrappedMint, a.backpointer, a.unwrappedMint, _, _, idem,
              a.wrappedTokenProgram.key, m,
              { mintAuthority := some A, supply := 0, decimals := m.decimals,
                freezeAuthority := m.freezeAuthority,
                exts := if a.wrappedTokenProgram.key = token2022Id then defaultExts A a.wrappedMint.key
                  else [] },
              m.decimals, by rw [hacc]; rfl, rfl, rfl, rfl, hcm, um, rfl,
              ?_, ?_, rfl, ?_, hp, ?_, ?_, ?_⟩
            · rw [Ledger.set_ne _ _ wb, Ledger.set_same]
            · rw [Ledger.set_ne _ _ wb, Ledger.set_same]
            · dsimp only
              split
              · intro e he d
                simp only [defaultExts, List.mem_cons, List.not_mem_nil, or_false] at he
                rcases he with rfl | rfl <;> simp
              · simp
            · rw [Ledger.set_same]
              exact Nat.lt_of_lt_of_le (hr 32) hlam
            · rw [Ledger.set_same, hid]
            · rw [Ledger.set_same]
        · rcases h2 with ⟨_, rfl, _⟩ | ⟨mb, bb, L1, _, _, _, _, g1, g2⟩
          · exact .kept .rfl' (other (by simp))
          · obtain ⟨m, A, space, _, _, _, d1, d2, _, _, _, _, _, rfl⟩ :=
              createMint_fresh default_spec g1 g2
            exact .kept (.of_eq (by rw [Ledger.set_ne _ _ x2, Ledger.set_ne _ _ x1])) (other (by simp))
    | wrap amount =>
      exact .kept (wrapCase (hook := id) hr hsg (fun _ => .refl) (by rw [processWrapHooked_id]; exact h1))
        (other (by simp))
    | unwrap amount =>
      obtain ⟨a, m, L1, pda, c⟩ := processUnwrap_inv h1
      have k1 := h.cpi c.burn
      exact .kept (k1.trans ((h.kept k1).cpi c.transfer)) (other (by simp))
    | closeStuckEscrow =>
      obtain ⟨a, t, m, pda, c⟩ := processClose_effect h1
      exact .kept (h.cpi c.cpi) (other (by simp))
    | syncMetadataToToken2022 =>
      obtain ⟨a, src, m, m', e⟩ := processSync22_effect h1
      rw [e.final]
      refine .kept (kept_setData ?_) (other (by simp))
      rintro rfl
      exact h.not_token (.inr rfl) e.wOwner
    | syncMetadataToSplToken =>
      obtain ⟨a, src, data, e⟩ := processSyncSpl_effect h1
      have hx := e.pda
      rw [hcr] at hx
      by_cases x1 : k = a.metaplexMetadata.key
      · exact .metaplex _ (x1 ▸ hx)
      · rcases e.run with ⟨_, g⟩ | ⟨_, g⟩
        · have g0 := g
          obtain ⟨_, _, _, _, hb, _, _, _, _, rfl⟩ := mplCreate_inv g
          refine .kept ?_ (other (by simp))
          exact kept_mplCreate g0 x1
        · obtain ⟨_, md, hd, _, _, _, _, rfl⟩ := mplUpdate_inv g
          exact .kept (kept_setData x1) (other (by simp))
    | setCanonicalPointer p =>
      obtain ⟨a, m, e⟩ := processPointer_effect h1
      by_cases x1 : a.pointer.key = k
      · exact .pointer _ _ p a m hcr rfl hid hr e x1
      · refine .kept ?_ ?_
        rotate_left
        · rintro p' ⟨env', accounts', he, hk⟩
          injection he with _ h2 he
          obtain ⟨rest, hr⟩ := e.accounts_eq
          rw [← h2, hr] at hk
          exact x1 (by simpa using hk)
        rcases e.final with ⟨_, rfl⟩ | ⟨_, _, rfl⟩ | ⟨_, rfl⟩
        · exact .of_eq (Ledger.set_ne _ _ (Ne.symm x1))
        · exact .of_eq (Ledger.set_ne _ _ (Ne.symm x1))
        · exact .rfl'

theorem Held.step {act : Act} {ok : Act → Ledger → Prop} {Q : Ledger → Prop} (hs : ¬ CanSign cr k)
    (hQ : ∀ {act L L'}, Q L → BaseStep cr act L L' → Q L')
    (hQt : ∀ {env accounts a m amount fee L L'}, Q L →
      (∀ n, 0 < env.rentMin n) → TokenWrap.wrapTransfer env accounts a m amount fee L = .ok L' → Q L')
    (hno : ∀ L, Q L → ∀ wallet mint prog, associatedTokenAddress cr wallet mint prog = some k →
      (L mint).owner ≠ prog) (h : Held L k) (q : Q L) (hst : Step cr ok act L L') :
    KeyEff cr k act L L' :=
  h.stepS hs hQ (fun q hr _ ht => hQt q hr ht) hno q hst

/-! ## Strengthening the condition -/

theorem res_bind_congr {α β : Type} {x : Res α} {f g : α → Res β} (h : ∀ a, x = .ok a → f a = g a) :
    x >>= f = x >>= g := by
  cases x with
  | error e => rfl
  | ok a => exact h a rfl

/-- Only the hook's behaviour on the ledger after the transfer matters. -/
theorem processWrapHooked_congr {env : Env} {accounts : List Meta} {amount : UInt64}
    {hook hook' : Ledger → Ledger}
    (h : ∀ a m n fee L1, wrapTransfer env accounts a m n fee L = .ok L1 → hook L1 = hook' L1) :
    processWrapHooked env accounts amount hook L = processWrapHooked env accounts amount hook' L := by
  unfold processWrapHooked
  refine res_bind_congr fun _ _ => ?_
  refine res_bind_congr fun a _ => ?_
  refine res_bind_congr fun _ _ => ?_
  refine res_bind_congr fun _ _ => ?_
  refine res_bind_congr fun _ _ => ?_
  refine res_bind_congr fun _ _ => ?_
  refine res_bind_congr fun _ _ => ?_
  refine res_bind_congr fun _ _ => ?_
  refine res_bind_congr fun _ _ => ?_
  refine res_bind_congr fun _ _ => ?_
  refine res_bind_congr fun _ _ => ?_
  refine res_bind_congr fun _ _ => ?_
  refine res_bind_congr fun L1 hL1 => ?_
  refine res_bind_congr fun _ _ => ?_
  rw [h _ _ _ _ _ hL1]

open Classical in
theorem Step.strengthenS {ok : Act → Ledger → Prop} {P : Ledger → Prop} {act : Act}
    (hP : ∀ {act L L'}, P L → BaseStep cr act L L' → P L')
    (hPt : ∀ {env accounts a m amount fee L L'}, P L →
      (∀ n, 0 < env.rentMin n) → (∀ k, Signs accounts k → CanSign cr k) → TokenWrap.wrapTransfer env accounts a m amount fee L = .ok L' → P L')
    (h0 : P L) (h : Step cr ok act L L') : Step cr (fun act L => ok act L ∧ P L) act L L' := by
  cases h with
  | base hb => exact .base hb
  | tokenWrap hcr hid hs hi hr => exact .tokenWrap hcr hid hs hi hr
  | wrapHooked hcr hid hs hhook hw hr =>
    rename_i env accounts amount hook
    refine .wrapHooked (hook := fun L1 => if P L1 then hook L1 else L1) hcr hid hs ?_ ?_ hr
    · intro L1
      by_cases hx : P L1
      · simp only [if_pos hx]
        exact Run.mono_inv hP (fun _ _ h1 h2 => ⟨h1, h2⟩) hx (hhook L1)
      · simp only [if_neg hx]
        exact .refl
    · rw [← hw]
      refine processWrapHooked_congr ?_
      intro a m n fee L1 hL1
      simp only [if_pos (hPt h0 hr hs hL1)]

theorem Step.strengthen {ok : Act → Ledger → Prop} {P : Ledger → Prop} {act : Act}
    (hP : ∀ {act L L'}, P L → BaseStep cr act L L' → P L')
    (hPt : ∀ {env accounts a m amount fee L L'}, P L →
      (∀ n, 0 < env.rentMin n) → TokenWrap.wrapTransfer env accounts a m amount fee L = .ok L' → P L')
    (h0 : P L) (h : Step cr ok act L L') : Step cr (fun act L => ok act L ∧ P L) act L L' :=
  h.strengthenS hP (fun h1 hr _ h2 => hPt h1 hr h2) h0

theorem Run.weaken {ok ok' : Act → Ledger → Prop} (hw : ∀ act L, ok act L → ok' act L) (h : Run cr ok L L') :
    Run cr ok' L L' := by
  induction h with
  | refl => exact .refl
  | step h1 h2 _ ih => exact .step (hw _ _ h1) h2 ih

theorem Step.weaken {ok ok' : Act → Ledger → Prop} {act : Act} (hw : ∀ act L, ok act L → ok' act L)
    (h : Step cr ok act L L') : Step cr ok' act L L' := by
  cases h with
  | base hb => exact .base hb
  | tokenWrap hcr hid hs hi hr => exact .tokenWrap hcr hid hs hi hr
  | wrapHooked hcr hid hs hhook hi hr =>
    exact .wrapHooked hcr hid hs (fun L1 => (hhook L1).weaken hw) hi hr

theorem History.weaken {ok ok' : Act → Ledger → Prop} {L0 : Ledger} {trace : List Act}
    (hw : ∀ act L, ok act L → ok' act L) (h : History cr ok L0 trace L) : History cr ok' L0 trace L := by
  induction h with
  | start => exact .start
  | step _ hok hs ih => exact .step ih (hw _ _ hok) (hs.weaken hw)

/-- A history from a state with a property that every step keeps satisfies it throughout. -/
theorem History.strengthen {ok : Act → Ledger → Prop} {P : Ledger → Prop} {L0 : Ledger} {trace : List Act}
    (hP : ∀ {act L L'}, P L → BaseStep cr act L L' → P L')
    (hPt : ∀ {env accounts a m amount fee L L'}, P L →
      (∀ n, 0 < env.rentMin n) → TokenWrap.wrapTransfer env accounts a m amount fee L = .ok L' → P L')
    (hPs : ∀ {act L L'}, P L → Step cr ok act L L' → P L')
    (h0 : P L0) (h : History cr ok L0 trace L) :
    History cr (fun act L => ok act L ∧ P L) L0 trace L ∧ P L := by
  induction h with
  | start => exact ⟨.start, h0⟩
  | step _ hok hs ih =>
    exact ⟨.step ih.1 ⟨hok, ih.2⟩ (hs.strengthen hP hPt ih.2), hPs ih.2 hs⟩

end

end TokenWrap
