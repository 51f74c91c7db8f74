import Verif.Props.Journey
import Verif.Props.HistoryExample
/-!
# The JavaScript client's token accounts (C93)

`createTokenAccount` always allocates 165 bytes.  That is enough exactly for mints that require no
account extensions; every wrapped mint is one.
-/

namespace TokenWrap

/-- What `createTokenAccount` leaves: an empty ordinary token account, paid for by the payer. -/
structure TokenAccountCreated (env : Env) (L L' : Ledger) (payer key mint prog owner : Pubkey)
    (w : Mint) (t : TokenAcct) : Prop where
  acct : L' key = ⟨env.rentMin 165, prog, .token t⟩
  mint : t.mint = mint
  owner : t.owner = owner
  amount : t.amount = 0
  delegate : t.delegate = none
  closeAuthority : t.closeAuthority = none
  exts : t.exts = []
  frozen : t.frozen = true ↔ prog = token2022Id ∧ w.defaultFrozen = true
  payerPaid : L' payer = { L payer with lamports := (L payer).lamports - env.rentMin 165 }
  frame : OnlyChanged [key, payer] L L'

section
variable {env : Env}

theorem requiredAccountExts_nil {w : Mint} (h : ∀ x, MintRequires w x → x = .immutableOwner)
    (hn : MintExt.nonTransferable ∉ w.exts) : w.requiredAccountExts = [] := by
  unfold Mint.requiredAccountExts
  rw [List.flatMap_eq_nil_iff]
  intro e he
  cases e with
  | transferFeeConfig c => cases h _ (.fee he)
  | nonTransferable => exact absurd he hn
  | transferHook a p => cases h _ (.hook he)
  | pausable a p => cases h _ (.pausable he)
  | _ => rfl

/-- **C93** For a mint of either program that requires no account extensions, `createTokenAccount` on a
fresh key pair succeeds and creates an empty account of that mint for the given owner; the payer loses
the rent and nothing else changes. -/
theorem js_token_account_created {L : Ledger} {payer key mint prog owner : Pubkey} {w : Mint}
    (hrej : ∀ p ix s L, env.reject p ix s L = none)
    (hp : prog = splTokenId ∨ prog = token2022Id) (hk : L key = Account.empty)
    (wo : (L mint).owner = prog) (wd : (L mint).data = .mint w) (we : prog = splTokenId → w.exts = [])
    (hx : ∀ x, MintRequires w x → x = .immutableOwner)
    (po : (L payer).owner = systemId) (pd : (L payer).data = .bytes []) (pk : payer ≠ key)
    (hl : env.rentMin 165 ≤ (L payer).lamports) :
    ∃ ixs L' t, Js.createTokenAccount env payer key mint owner prog = .ok ixs ∧
      Js.runSetup env ixs L = .ok L' ∧ TokenAccountCreated env L L' payer key mint prog owner w t := by
  have hq : w.requiredAccountExts = [] :=
    requiredAccountExts_nil hx (fun h => by cases hx _ (.nonTransferable h))
  obtain ⟨ixs, h1, h2⟩ := js_token_account_run (owner := owner) hrej hp hk wo wd we (fun _ => hq) po pd
    pk hl
  refine ⟨ixs, _, _, h1, h2, ⟨Ledger.set_same .., rfl, rfl, ?_, rfl, rfl, ?_, ?_, ?_, ?_⟩⟩
  · simp [newTokenAcct]
  · simp [newTokenAcct, newAcctExts, hq]
  · simp [newTokenAcct]
  · rw [Ledger.set_ne _ _ pk, Ledger.setLamports_same]
  · intro k hk'
    simp only [List.mem_cons, List.not_mem_nil, or_false, not_or] at hk'
    rw [Ledger.set_ne _ _ hk'.1, Ledger.setLamports_ne _ _ hk'.2]

theorem tokenAccountLen_gt {exts : List AcctExt} (h : exts ≠ []) : 165 < tokenAccountLen exts := by
  unfold tokenAccountLen
  rw [if_neg h]
  dsimp only
  split <;> omega

/-- **C93** For a Token-2022 mint that requires an account extension (transfer fees, non-transferable,
transfer hook, pausable) the transaction fails on every chain: 165 bytes are too few. -/
theorem js_token_account_fails {L : Ledger} {payer key mint owner : Pubkey} {w : Mint} {x : AcctExt}
    (wd : (L mint).data = .mint w) (hx : MintRequires w x) (hne : x ≠ .immutableOwner)
    (hk : mint ≠ key) {ixs : List Js.SetupIx}
    (h : Js.createTokenAccount env payer key mint owner token2022Id = .ok ixs) (L' : Ledger) :
    Js.runSetup env ixs L ≠ .ok L' := by
  intro hr
  have e1 : isTokenProgram token2022Id = true := by simp [isTokenProgram]
  unfold Js.createTokenAccount at h
  simp only [e1, require_true, ok_bind] at h
  have h : Except.ok _ = Except.ok ixs := h
  cases h
  simp only [Js.runSetup, bind_ok_iff] at hr
  obtain ⟨L1, h1, L2, h2, _⟩ := hr
  have h1 : Js.sysCreateAccount payer key (env.rentMin 165) 165 token2022Id L = .ok L1 := h1
  have h2 : tokenExec env token2022Id (.initializeAccount3 key mint owner []) (fun _ => false) L1 =
    .ok L2 := h2
  -- what the system program left
  have q : (L1 key).data = .bytes (List.replicate 165 0) ∧ (L1 mint).data = .mint w := by
    generalize 165 = n at h1 ⊢
    unfold Js.sysCreateAccount at h1
    simp only [bind_ok_iff, require_ok_iff] at h1
    obtain ⟨_, _, La, ha, Lb, hb, ht⟩ := h1
    unfold sysAllocate at ha
    simp only [bind_ok_iff, require_ok_iff, pure_ok_iff] at ha
    obtain ⟨_, _, _, _, rfl⟩ := ha
    have hb' : ∀ k, (Lb k).data = ((L.setData key (.bytes (List.replicate n 0))) k).data := by
      unfold sysAssign at hb
      split at hb
      · cases hb; intro k; rfl
      · simp only [bind_ok_iff, require_ok_iff, pure_ok_iff] at hb
        obtain ⟨_, _, _, _, rfl⟩ := hb
        intro k
        simp only [Ledger.set_apply]
        split
        · rename_i hk'; subst hk'; rfl
        · rfl
    have ht' : ∀ k, (L1 k).data = (Lb k).data := by
      unfold sysTransfer at ht
      simp only [bind_ok_iff, require_ok_iff, pure_ok_iff] at ht
      obtain ⟨_, _, _, _, rfl⟩ := ht
      intro k
      simp only [Ledger.setLamports_apply]
      split
      · rename_i hk'; subst hk'; split
        · rename_i hk''; subst hk''; rfl
        · rfl
      · split
        · rename_i hk''; subst hk''; rfl
        · rfl
    refine ⟨?_, ?_⟩
    · rw [ht', hb', Ledger.setData_same]
    · rw [ht', hb', Ledger.setData_apply, if_neg hk]; exact wd
  have hrej := tokenExec_not_rejected h2
  unfold tokenExec at h2
  rw [hrej] at h2
  dsimp only at h2
  unfold initializeAccount3Exec at h2
  generalize hn : (165 : Nat) = n at q
  rw [q.1] at h2
  simp only [bind_ok_iff, require_ok_iff, getMint_ok_iff, q.2, List.length_replicate] at h2
  obtain ⟨_, _, _, _, _, _, m, ⟨_, hm, _⟩, _, hroom, _⟩ := h2
  cases hm
  have hne' : newAcctExts token2022Id w [] ≠ [] := by
    have hx' : x ∈ w.requiredAccountExts := by
      unfold Mint.requiredAccountExts
      rw [List.mem_flatMap]
      cases hx with
      | immutableOwner => exact absurd rfl hne
      | fee h => exact ⟨_, h, by simp [MintExt.requiredAccountExts]⟩
      | nonTransferable h => exact ⟨_, h, by simp [MintExt.requiredAccountExts]⟩
      | hook h => exact ⟨_, h, by simp [MintExt.requiredAccountExts]⟩
      | pausable h => exact ⟨_, h, by simp [MintExt.requiredAccountExts]⟩
    intro h0
    simp only [newAcctExts, if_true, List.nil_append, List.not_mem_nil, not_false_eq_true,
      decide_true, List.filter_true] at h0
    rw [h0] at hx'
    cases hx'
  have := tokenAccountLen_gt hne'
  unfold roomFor at hroom
  simp only [if_true, Bool.and_eq_true, decide_eq_true_eq] at hroom
  omega

end

/-- **C93** In every history, an account for the wrapped tokens of any pair can be created this way. -/
theorem js_token_account_for_wrapped {cr : Crypto} {s : Setting cr} {ok : Act → Ledger → Prop}
    {trace : List Act} {L0 L : Ledger} {env : Env} {payer key owner : Pubkey} {w : Mint}
    (h0 : Fresh s L0) (h : History cr ok L0 trace L) (hw : (L s.W).data = .mint w)
    (hrej : ∀ p ix s L, env.reject p ix s L = none) (hk : L key = Account.empty)
    (po : (L payer).owner = systemId) (pd : (L payer).data = .bytes []) (pk : payer ≠ key)
    (hl : env.rentMin 165 ≤ (L payer).lamports) :
    ∃ ixs L' t, Js.createTokenAccount env payer key s.W owner s.wp = .ok ixs ∧
      Js.runSetup env ixs L = .ok L' ∧ TokenAccountCreated env L L' payer key s.W s.wp owner w t ∧
      t.frozen = false := by
  have hp : s.wp = splTokenId ∨ s.wp = token2022Id := s.wpOk
  obtain ⟨_, hs, ht⟩ := mint_parameters h0 h hw
  have hne : ¬ Blank L s.W := by rintro ⟨_, hb⟩; rw [hb] at hw; cases hw
  obtain ⟨m', wo, wd'⟩ := (backpointer_integrity h0 h).1.2 hne
  have hf : w.defaultFrozen = false ∧ ∀ x, MintRequires w x → x = .immutableOwner := by
    rcases hp with hp | hp
    · have := hs hp
      refine ⟨by simp [Mint.defaultFrozen, this], fun x hx => ?_⟩
      cases hx <;> simp_all
    · rcases ht hp with he | ⟨md, he, _⟩ <;>
      · refine ⟨by simp [Mint.defaultFrozen, he], fun x hx => ?_⟩
        cases hx <;> simp_all
  obtain ⟨ixs, L', t, h1, h2, h3⟩ := js_token_account_created (owner := owner) hrej hp hk wo hw hs hf.2
    po pd pk hl
  refine ⟨ixs, L', t, h1, h2, h3, ?_⟩
  rw [Bool.eq_false_iff]
  intro hfr
  have := (h3.frozen.1 hfr).2
  rw [hf.1] at this
  cases this

/-! ## Concrete cases -/

namespace Example.JsAcct

def key : Pubkey := .lit 77

/-- A mint with the given extensions and a payer. -/
def start (exts : List MintExt) : Ledger := fun k =>
  if k = u then ⟨200, token2022Id, .mint (uMint exts)⟩
  else if k = user then ⟨370, systemId, .bytes []⟩
  else Account.empty

example : ∃ ixs L' t, Js.createTokenAccount env user key u user token2022Id = .ok ixs ∧
    Js.runSetup env ixs (start [.mintCloseAuthority none]) = .ok L' ∧
    TokenAccountCreated env (start [.mintCloseAuthority none]) L' user key u token2022Id user
      (uMint [.mintCloseAuthority none]) t :=
  js_token_account_created (fun _ _ _ _ => rfl) (.inr rfl) (by decide +kernel) (by decide +kernel)
    (by decide +kernel) (by decide) (fun x hx => by cases hx <;> simp_all [uMint]) (by decide +kernel)
    (by decide +kernel) (by decide +kernel) (by decide +kernel)

/-- A mint with transfer fees. -/
example (ixs : List Js.SetupIx)
    (h : Js.createTokenAccount env user key u user token2022Id = .ok ixs) (L' : Ledger) :
    Js.runSetup env ixs (start [.transferFeeConfig feeCfg]) ≠ .ok L' :=
  js_token_account_fails (w := uMint [.transferFeeConfig feeCfg]) (x := .transferFeeAmount)
    (by decide +kernel) (.fee (c := feeCfg) (by simp [uMint])) (by decide) (by decide +kernel) h L'

end Example.JsAcct

namespace Example.Hist

theorem setLamports_same_contents (L : Ledger) (a : Pubkey) (n : Nat) (k : Pubkey) :
    (L.setLamports a n k).owner = (L k).owner ∧ (L.setLamports a n k).data = (L k).data := by
  rw [Ledger.setLamports_apply]
  split
  · rename_i h; subst h; exact ⟨rfl, rfl⟩
  · exact ⟨rfl, rfl⟩

/-- Somebody sends the user 1000 lamports at the end of the example history. -/
def Lpaid : Ledger := L7.setLamports user 1000

theorem histPaid : History cr (fun _ _ => True) L0 (.lamports :: tr7) Lpaid :=
  .step hist7 trivial (.base (.lamports
    (setLamports_same_contents L7 user 1000)
    (fun k h => by
      unfold Lpaid at h
      rw [Ledger.setLamports_apply] at h
      split at h
      · have : (L7 user).lamports ≤ 1000 := by decide +kernel
        rename_i h'
        subst h'
        dsimp only at h
        omega
      · exact absurd h (Nat.lt_irrefl _))))

theorem wrappedAtEnd : ∃ w, (Lpaid s.W).data = .mint w := by
  have : (match (Lpaid s.W).data with | .mint _ => true | _ => false) = true := by decide +kernel
  split at this
  · rename_i w h; exact ⟨w, h⟩
  · cases this

example : ∃ w ixs L' t, Js.createTokenAccount env user (.lit 77) s.W user s.wp = .ok ixs ∧
    Js.runSetup env ixs Lpaid = .ok L' ∧
    TokenAccountCreated env Lpaid L' user (.lit 77) s.W s.wp user w t ∧ t.frozen = false := by
  obtain ⟨w, hw⟩ := wrappedAtEnd
  exact ⟨w, js_token_account_for_wrapped fresh histPaid hw (fun _ _ _ _ => rfl) (by decide +kernel)
    (by decide +kernel) (by decide +kernel) (by decide +kernel) (by decide +kernel)⟩

end Example.Hist

end TokenWrap
