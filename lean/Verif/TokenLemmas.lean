import Verif.Runtime
import Verif.Spec
/-! # Inversion lemmas for the token-program model -/

set_option linter.unusedSimpArgs false

namespace TokenWrap

/-- What a successful `validateOwner` guarantees. -/
def AuthOk (prog : Pubkey) (L : Ledger) (auth : Pubkey) (signers : List Pubkey)
    (signed : Pubkey → Bool) : Prop :=
  match multisigAt prog L auth with
  | some ms => (ms.signers.filter (· ∈ signers)).all signed = true ∧
      ms.m ≤ (ms.signers.filter (· ∈ signers)).length
  | none => signed auth = true

theorem validateOwner_ok_iff {prog : Pubkey} {L : Ledger} {expected auth : Pubkey}
    {signers : List Pubkey} {signed : Pubkey → Bool} {u : Unit} :
    validateOwner prog L expected auth signers signed = .ok u ↔
      expected = auth ∧ AuthOk prog L auth signers signed := by
  unfold validateOwner AuthOk
  by_cases h : expected = auth
  · simp only [h, if_true, true_and]
    split
    · rename_i heq
      simp only [ite_eq_left_iff, reduceCtorEq, imp_false, Decidable.not_not, heq]
    · split <;> simp_all
  · simp [h]

/-- Who authorised moving `amount` out of an account in state `t`. -/
inductive SpentBy (t : TokenAcct) (pd : Option Pubkey) (auth : Pubkey) (amount : Nat) : Prop
  | permanentDelegate (h : pd = some auth)
  | delegate (h : t.delegate = some auth) (hd : amount ≤ t.delegatedAmount)
  | owner (h : t.owner = auth)

/-- The account after the allowance has been consumed differs only in the delegation. -/
structure SameButDelegation (t t' : TokenAcct) : Prop where
  mint : t'.mint = t.mint
  owner : t'.owner = t.owner
  amount : t'.amount = t.amount
  frozen : t'.frozen = t.frozen
  isNative : t'.isNative = t.isNative
  closeAuthority : t'.closeAuthority = t.closeAuthority
  exts : t'.exts = t.exts
  withheld : t'.withheld = t.withheld
  confidential : t'.confidential = t.confidential
  delegate : t'.delegate = t.delegate ∨ t'.delegate = none

theorem SameButDelegation.refl (t : TokenAcct) : SameButDelegation t t :=
  ⟨rfl, rfl, rfl, rfl, rfl, rfl, rfl, rfl, rfl, .inl rfl⟩

theorem spendAuth_inv {prog : Pubkey} {L : Ledger} {t t' : TokenAcct} {pd : Option Pubkey}
    {auth : Pubkey} {signers : List Pubkey} {signed : Pubkey → Bool} {amount : Nat}
    (h : spendAuth prog L t pd auth signers signed amount = .ok t') :
    SpentBy t pd auth amount ∧ AuthOk prog L auth signers signed ∧ SameButDelegation t t' := by
  unfold spendAuth at h
  split at h
  · rename_i hpd
    simp only [bind_ok_iff, require_ok_iff, pure_ok_iff, validateOwner_ok_iff] at h
    obtain ⟨_, ⟨_, h1⟩, rfl⟩ := h
    exact ⟨.permanentDelegate hpd, h1, .refl _⟩
  · split at h
    · rename_i hd
      simp only [bind_ok_iff, require_ok_iff, pure_ok_iff, validateOwner_ok_iff,
        decide_eq_true_eq] at h
      obtain ⟨_, ⟨_, h1⟩, _, h2, rfl⟩ := h
      refine ⟨.delegate hd h2, h1, ⟨rfl, rfl, rfl, rfl, rfl, rfl, rfl, rfl, rfl, ?_⟩⟩
      dsimp only; split <;> simp
    · simp only [bind_ok_iff, require_ok_iff, pure_ok_iff, validateOwner_ok_iff] at h
      obtain ⟨_, ⟨h1, h2⟩, rfl⟩ := h
      exact ⟨.owner h1, h2, .refl _⟩

theorem moveLamports_inv {L L' : Ledger} {src dst : Pubkey} {n : Nat}
    (h : moveLamports L src dst n = .ok L') :
    (∀ k, (L' k).data = (L k).data ∧ (L' k).owner = (L k).owner) ∧
    (∀ k, k ≠ src → k ≠ dst → L' k = L k) := by
  unfold moveLamports at h
  simp only [bind_ok_iff, require_ok_iff, pure_ok_iff] at h
  obtain ⟨_, _, rfl⟩ := h
  constructor
  · intro k
    simp only [Ledger.setLamports_apply]
    constructor <;> (repeat' split) <;> simp_all
  · intro k h1 h2
    simp [Ledger.setLamports_apply, h1, h2]

/-- Effect of the balance update of a transfer between different accounts. -/
theorem transferMove_inv {L L' : Ledger} {src dst : Pubkey} {s d : TokenAcct} {amount fee : Nat}
    (hne : src ≠ dst) (h : transferMove L src dst s d amount fee = .ok L') :
    fee ≤ amount ∧ d.amount + (amount - fee) ≤ u64Max ∧
    (fee = 0 ∨ AcctExt.transferFeeAmount ∈ d.exts) ∧
    (L' src).data = .token { s with amount := s.amount - amount } ∧
    (L' src).owner = (L src).owner ∧
    (L' dst).data = .token
      { d with amount := d.amount + (amount - fee), withheld := d.withheld + fee } ∧
    (L' dst).owner = (L dst).owner ∧
    (∀ k, k ≠ src → k ≠ dst → L' k = L k) ∧
    (s.isNative = none → (L' src).lamports = (L src).lamports ∧
      (L' dst).lamports = (L dst).lamports) := by
  unfold transferMove at h
  simp only [bind_ok_iff, require_ok_iff] at h
  obtain ⟨_, h1, _, h2, _, h3, h⟩ := h
  simp at h1 h2 h3
  refine ⟨h1, h2, h3, ?_⟩
  have hne' : dst ≠ src := fun e => hne e.symm
  split at h
  · rename_i hn
    obtain ⟨m1, m2⟩ := moveLamports_inv h
    refine ⟨?_, ?_, ?_, ?_, ?_, ?_⟩
    · rw [(m1 src).1]; simp [Ledger.setData_apply, hne]
    · rw [(m1 src).2]; simp [Ledger.setData_apply, hne]
    · rw [(m1 dst).1]; simp [Ledger.setData_apply]
    · rw [(m1 dst).2]; simp [Ledger.setData_apply, hne']
    · intro k k1 k2; rw [m2 k k1 k2]; simp [Ledger.setData_apply, k1, k2]
    · intro h0; simp [h0] at hn
  · simp only [pure_ok_iff] at h
    subst h
    refine ⟨?_, ?_, ?_, ?_, ?_, ?_⟩
    · simp [Ledger.setData_apply, hne]
    · simp [Ledger.setData_apply, hne]
    · simp [Ledger.setData_apply]
    · simp [Ledger.setData_apply, hne']
    · intro k k1 k2; simp [Ledger.setData_apply, k1, k2]
    · intro _; simp [Ledger.setData_apply, hne, hne']

/-- Lamports move along with native tokens. -/
theorem transferMove_native {L L' : Ledger} {src dst : Pubkey} {s d : TokenAcct} {amount fee : Nat}
    (hne : src ≠ dst) (h : transferMove L src dst s d amount fee = .ok L')
    (hn : s.isNative ≠ none) : amount ≤ (L src).lamports ∧
    (L' src).lamports = (L src).lamports - amount ∧
    (L' dst).lamports = (L dst).lamports + amount := by
  have hne' : dst ≠ src := fun e => hne e.symm
  unfold transferMove moveLamports at h
  simp only [bind_ok_iff, require_ok_iff] at h
  obtain ⟨_, _, _, _, _, _, h⟩ := h
  rw [if_pos (by cases hs : s.isNative <;> simp_all)] at h
  simp only [bind_ok_iff, require_ok_iff, pure_ok_iff, decide_eq_true_eq] at h
  obtain ⟨_, h1, rfl⟩ := h
  simp [Ledger.setData_apply, hne, hne', Ledger.setLamports_apply] at h1 ⊢
  exact h1

/-- Everything a successful checked transfer guarantees. -/
theorem transferExec_inv {env : Env} {prog : Pubkey} {signed : Pubkey → Bool} {L L' : Ledger}
    {src dst auth mk : Pubkey} {signers : List Pubkey} {amount : Nat} {dec : UInt8}
    {ef : Option Nat}
    (h : transferExec env prog signed L src dst auth signers amount (some (mk, dec)) ef = .ok L') :
    ∃ s d m fee s', (L src).owner = prog ∧ (L src).data = .token s ∧
      (L dst).owner = prog ∧ (L dst).data = .token d ∧
      s.frozen = false ∧ d.frozen = false ∧ amount ≤ s.amount ∧ s.mint = mk ∧ d.mint = mk ∧
      (L mk).owner = prog ∧ (L mk).data = .mint m ∧ (prog = splTokenId → m.exts = []) ∧
      dec = m.decimals ∧
      feeOf prog env.epoch m amount = .ok fee ∧ (ef = none ∨ ef = some fee) ∧
      spendAuth prog L s (pdOf prog m) auth signers signed amount = .ok s' ∧
      ((src = dst ∧ L' = L) ∨ (src ≠ dst ∧ transferMove L src dst s' d amount fee = .ok L')) := by
  unfold transferExec transferCheck checkMint at h
  simp only [bind_ok_iff, require_ok_iff, getToken_ok_iff, getMint_ok_iff, pure_ok_iff] at h
  obtain ⟨s, ⟨hs1, hs2⟩, d, ⟨hd1, hd2⟩, _, hfr, _, ham, _, hmm, p, ⟨_, hmk, m, ⟨hm1, hm2, hm3⟩, _,
    hdec, fee, hfee, rfl⟩, _, hef, s', hsp, hfin⟩ := h
  simp at hfr ham hmm hmk hdec hef
  refine ⟨s, d, m, fee, s', hs1, hs2, hd1, hd2, hfr.1, hfr.2, ham, hmk, by rw [← hmm, hmk], hm1,
    hm2, hm3, hdec, hfee, hef, hsp, ?_⟩
  split at hfin
  · simp at hfin; exact .inl ⟨by assumption, hfin.symm⟩
  · exact .inr ⟨by assumption, hfin⟩

/-- Everything a successful unchecked transfer guarantees. -/
theorem transferExec_inv_unchecked {env : Env} {prog : Pubkey} {signed : Pubkey → Bool}
    {L L' : Ledger} {src dst auth : Pubkey} {signers : List Pubkey} {amount : Nat}
    {ef : Option Nat}
    (h : transferExec env prog signed L src dst auth signers amount none ef = .ok L') :
    ∃ s d s', (L src).owner = prog ∧ (L src).data = .token s ∧
      (L dst).owner = prog ∧ (L dst).data = .token d ∧
      s.frozen = false ∧ d.frozen = false ∧ amount ≤ s.amount ∧ s.mint = d.mint ∧
      spendAuth prog L s none auth signers signed amount = .ok s' ∧
      ((src = dst ∧ L' = L) ∨ (src ≠ dst ∧ transferMove L src dst s' d amount 0 = .ok L')) := by
  unfold transferExec transferCheck at h
  simp only [bind_ok_iff, require_ok_iff, getToken_ok_iff, pure_ok_iff] at h
  obtain ⟨s, ⟨hs1, hs2⟩, d, ⟨hd1, hd2⟩, _, hfr, _, ham, _, hmm, p, ⟨_, _, rfl⟩, _, hef, s', hsp,
    hfin⟩ := h
  simp at hfr ham hmm
  refine ⟨s, d, s', hs1, hs2, hd1, hd2, hfr.1, hfr.2, ham, hmm, hsp, ?_⟩
  split at hfin
  · simp at hfin; exact .inl ⟨by assumption, hfin.symm⟩
  · exact .inr ⟨by assumption, hfin⟩

theorem mintToExec_inv {prog : Pubkey} {signed : Pubkey → Bool} {L L' : Ledger}
    {mint dst auth : Pubkey} {signers : List Pubkey} {amount : Nat}
    (h : mintToExec prog signed L mint dst auth signers amount = .ok L') :
    ∃ d m, (L dst).owner = prog ∧ (L dst).data = .token d ∧ (L mint).owner = prog ∧
      (L mint).data = .mint m ∧ d.frozen = false ∧ d.isNative = none ∧ d.mint = mint ∧
      m.mintAuthority = some auth ∧ AuthOk prog L auth signers signed ∧
      d.amount + amount ≤ u64Max ∧ m.supply + amount ≤ u64Max ∧
      L' = (L.setData dst (.token { d with amount := d.amount + amount })).setData mint
        (.mint { m with supply := m.supply + amount }) := by
  unfold mintToExec at h
  simp only [bind_ok_iff, require_ok_iff, getToken_ok_iff, getMint_ok_iff, pure_ok_iff,
    okOr_ok_iff, validateOwner_ok_iff] at h
  obtain ⟨d, ⟨hd1, hd2⟩, _, hfr, _, hnat, _, hmk, m, ⟨hm1, hm2, hm3⟩, ma, hma, _, ⟨rfl, hau⟩, _, ho1, _,
    ho2, rfl⟩ := h
  simp at hfr hnat hmk ho1 ho2
  exact ⟨d, m, hd1, hd2, hm1, hm2, hfr, hnat, hmk, hma, hau, ho1, ho2, rfl⟩

theorem burnExec_inv {prog : Pubkey} {signed : Pubkey → Bool} {L L' : Ledger}
    {acct mint auth : Pubkey} {signers : List Pubkey} {amount : Nat}
    (h : burnExec prog signed L acct mint auth signers amount = .ok L') :
    ∃ s m s', (L acct).owner = prog ∧ (L acct).data = .token s ∧ (L mint).owner = prog ∧
      (L mint).data = .mint m ∧ s.frozen = false ∧ s.isNative = none ∧ s.mint = mint ∧
      amount ≤ s.amount ∧ amount ≤ m.supply ∧
      ((ownedByNobody s = true ∧ s' = s) ∨
        (SpentBy s (pdOf prog m) auth amount ∧ AuthOk prog L auth signers signed)) ∧
      SameButDelegation s s' ∧
      L' = (L.setData acct (.token { s' with amount := s.amount - amount })).setData mint
        (.mint { m with supply := m.supply - amount }) := by
  unfold burnExec at h
  simp only [bind_ok_iff, require_ok_iff, getToken_ok_iff, getMint_ok_iff, pure_ok_iff] at h
  obtain ⟨s, ⟨hd1, hd2⟩, m, ⟨hm1, hm2, hm3⟩, _, hfr, _, hnat, _, hmk, _, ham, s', hs', _, hsu, rfl⟩ := h
  simp at hfr hnat hmk ham hsu
  refine ⟨s, m, s', hd1, hd2, hm1, hm2, hfr, hnat, hmk, ham, hsu, ?_, ?_, rfl⟩
  · split at hs'
    · simp at hs'; exact .inl ⟨by assumption, hs'.symm⟩
    · exact .inr ⟨(spendAuth_inv hs').1, (spendAuth_inv hs').2.1⟩
  · split at hs'
    · simp at hs'; subst hs'; exact .refl _
    · exact (spendAuth_inv hs').2.2

theorem invokeToken_inv {env : Env} {caller : List Meta} {pdas borrowed : List Pubkey}
    {prog : Pubkey} {ix : TokenIx} {L L' : Ledger}
    (h : invokeToken env caller pdas borrowed prog ix L = .ok L') :
    (prog = splTokenId ∨ prog = token2022Id) ∧
    (∀ m ∈ ix.metas, m.writable = true → m.key ∉ borrowed) ∧
    (∃ c ∈ caller, c.key = prog) ∧
    (∀ m ∈ ix.metas, metaAllowed caller pdas m = true) ∧
    tokenExec env prog ix (signedBy ix.metas) L = .ok L' := by
  unfold invokeToken cpiCheck at h
  simp only [bind_ok_iff, require_ok_iff] at h
  obtain ⟨_, h1, _, ⟨_, h2, _, h3, h4⟩, h5⟩ := h
  simp [isTokenProgram] at h1
  simp at h2 h3 h4
  refine ⟨h1, ?_, h3, h4, h5⟩
  intro m hm hw
  have := h2 m hm
  simp [hw] at this
  exact this

/-- A signer seen by the callee signed the outer instruction or is a PDA signed for. -/
theorem signedBy_caller {caller : List Meta} {pdas : List Pubkey} {metas : List Meta} {k : Pubkey}
    (hall : ∀ m ∈ metas, metaAllowed caller pdas m = true) (h : signedBy metas k = true) :
    Signs caller k ∨ k ∈ pdas := by
  simp only [signedBy, List.any_eq_true, Bool.and_eq_true, decide_eq_true_eq] at h
  obtain ⟨m, hm, rfl, hs⟩ := h
  have := hall m hm
  simp only [metaAllowed, hs, Bool.and_eq_true, Bool.or_eq_true, Bool.not_true, Bool.false_eq_true,
    false_or, List.any_eq_true, decide_eq_true_eq] at this
  rcases this.2 with ⟨c, hc, h1, h2⟩ | h
  · exact .inl ⟨c, hc, h1, h2⟩
  · exact .inr h

theorem tokenExec_not_rejected {env : Env} {prog : Pubkey} {ix : TokenIx}
    {signed : Pubkey → Bool} {L L' : Ledger} (h : tokenExec env prog ix signed L = .ok L') :
    env.reject prog ix signed L = none := by
  unfold tokenExec at h
  split at h
  · cases h
  · assumption

end TokenWrap
