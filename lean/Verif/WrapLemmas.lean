import Verif.ProcessorLemmas
/-! # Effects of a successful Wrap and Unwrap -/

set_option linter.unusedSimpArgs false

namespace TokenWrap

/-- A valid authorisation inside a CPI without PDA signers is an approval by the outer signers. -/
theorem approves_of_authOk {prog : Pubkey} {L : Ledger} {auth : Pubkey} {signers : List Pubkey}
    {metas accounts : List Meta} (hall : ∀ m ∈ metas, metaAllowed accounts [] m = true)
    (h : AuthOk prog L auth signers (signedBy metas)) : Approves L accounts auth := by
  have key : ∀ k, signedBy metas k = true → Signs accounts k := fun k hk =>
    (signedBy_caller hall hk).resolve_right (by simp)
  unfold AuthOk at h
  unfold Approves
  unfold multisigAt at h
  by_cases ho : (L auth).owner = prog
  · rw [if_pos ho] at h
    cases hd : (L auth).data with
    | multisig ms =>
      rw [hd] at h
      dsimp only at h ⊢
      refine .inr ⟨_, List.filter_sublist, h.2, fun s hs => key s ?_⟩
      exact List.all_eq_true.1 h.1 s hs
    | _ => rw [hd] at h; exact key _ h
  · rw [if_neg ho] at h
    dsimp only at h
    split
    · exact .inl (key _ h)
    · exact key _ h

/-- The ledger change of a transfer. -/
def Transferred (L L1 : Ledger) (src dst : Pubkey) (s d : TokenAcct) (amount fee : Nat) : Prop :=
  (src = dst ∧ L1 = L) ∨ (src ≠ dst ∧ transferMove L src dst s d amount fee = .ok L1)

/-- What the transfer CPI of Wrap establishes. -/
structure WrapTransferred (env : Env) (accounts : List Meta) (a : WrapAccounts) (m : Mint)
    (amount fee : Nat) (L L1 : Ledger) (s d s' : TokenAcct) : Prop where
  uprog : a.unwrappedTokenProgram.key = splTokenId ∨ a.unwrappedTokenProgram.key = token2022Id
  srcOwner : (L a.unwrappedTokenAccount.key).owner = a.unwrappedTokenProgram.key
  srcData : (L a.unwrappedTokenAccount.key).data = .token s
  escOwner : (L a.escrow.key).owner = a.unwrappedTokenProgram.key
  escData : (L a.escrow.key).data = .token d
  srcThawed : s.frozen = false
  escThawed : d.frozen = false
  enough : amount ≤ s.amount
  srcMint : s.mint = a.unwrappedMint.key
  escMint : d.mint = a.unwrappedMint.key
  mintOwner : (L a.unwrappedMint.key).owner = a.unwrappedTokenProgram.key
  splExts : a.unwrappedTokenProgram.key = splTokenId → m.exts = []
  feeEq : feeOf a.unwrappedTokenProgram.key env.epoch m amount = .ok fee
  spent : SpentBy s (pdOf a.unwrappedTokenProgram.key m) a.transferAuthority.key amount
  approved : Approves L accounts a.transferAuthority.key
  same : SameButDelegation s s'
  moved : Transferred L L1 a.unwrappedTokenAccount.key a.escrow.key s' d amount fee
  borrow : a.unwrappedTokenAccount.key ≠ a.unwrappedMint.key ∧ a.escrow.key ≠ a.unwrappedMint.key

theorem wrapTransfer_inv {env : Env} {accounts : List Meta} {a : WrapAccounts} {m : Mint}
    {amount : Nat} {L L1 : Ledger} (hm : (L a.unwrappedMint.key).data = .mint m)
    (h : wrapTransfer env accounts a m amount (wrapFee env m amount) L = .ok L1) :
    ∃ s d s', WrapTransferred env accounts a m amount (wrapFee env m amount) L L1 s d s' := by
  unfold wrapTransfer at h
  dsimp only at h
  by_cases h22 : a.unwrappedTokenProgram.key = token2022Id
  · rw [if_pos h22] at h
    obtain ⟨h1, h2, h3, h4, h5⟩ := invokeToken_inv h
    have hrej := tokenExec_not_rejected h5
    unfold tokenExec at h5
    rw [hrej] at h5
    obtain ⟨s, d, m', fee, s', e1, e2, e3, e4, e5, e6, e7, e8, e9, e10, e11, e12, _, e13, e14, e15,
      e16⟩ := transferExec_inv h5
    rw [hm] at e11; cases e11
    obtain ⟨p1, p2, p3⟩ := spendAuth_inv e15
    have hfee : wrapFee env m amount = fee := by
      rcases e14 with e | e
      · cases e
      · simpa using e
    refine ⟨s, d, s', ⟨h1, e1, e2, e3, e4, e5, e6, e7, e8, e9, e10, e12, by rw [hfee]; exact e13, p1,
      approves_of_authOk h4 p2, p3, by rw [hfee]; exact e16, ?_⟩⟩
    constructor
    · have := h2 (.rw a.unwrappedTokenAccount.key false) (by simp [TokenIx.metas]) rfl
      simpa [Meta.rw] using this
    · have := h2 (.rw a.escrow.key false) (by simp [TokenIx.metas]) rfl
      simpa [Meta.rw] using this
  · rw [if_neg h22] at h
    obtain ⟨h1, h2, h3, h4, h5⟩ := invokeToken_inv h
    have hspl : a.unwrappedTokenProgram.key = splTokenId := h1.resolve_right h22
    have hrej := tokenExec_not_rejected h5
    unfold tokenExec at h5
    rw [hrej] at h5
    obtain ⟨s, d, m', fee, s', e1, e2, e3, e4, e5, e6, e7, e8, e9, e10, e11, e12, _, e13, _, e15,
      e16⟩ := transferExec_inv h5
    rw [hm] at e11; cases e11
    obtain ⟨p1, p2, p3⟩ := spendAuth_inv e15
    have hf0 : fee = 0 := by
      simp only [feeOf, if_neg h22] at e13
      simpa using e13.symm
    have hw0 : wrapFee env m amount = 0 := by
      simp [wrapFee, Mint.transferFee?, e12 hspl]
    refine ⟨s, d, s', ⟨h1, e1, e2, e3, e4, e5, e6, e7, e8, e9, e10, e12,
      by rw [hw0, ← hf0]; exact e13, p1, approves_of_authOk h4 p2, p3,
      by rw [hw0, ← hf0]; exact e16, ?_⟩⟩
    constructor
    · have := h2 (.rw a.unwrappedTokenAccount.key false) (by simp [TokenIx.metas]) rfl
      simpa [Meta.rw] using this
    · have := h2 (.rw a.escrow.key false) (by simp [TokenIx.metas]) rfl
      simpa [Meta.rw] using this

/-- Data of an account after a transfer, for accounts that are neither source nor destination. -/
theorem Transferred.other {L L1 : Ledger} {src dst : Pubkey} {s d : TokenAcct} {amount fee : Nat}
    (h : Transferred L L1 src dst s d amount fee) {k : Pubkey} (h1 : k ≠ src) (h2 : k ≠ dst) :
    L1 k = L k := by
  rcases h with ⟨_, rfl⟩ | ⟨hne, h⟩
  · rfl
  · exact (transferMove_inv hne h).2.2.2.2.2.2.2.1 k h1 h2

theorem Transferred.owner {L L1 : Ledger} {src dst : Pubkey} {s d : TokenAcct} {amount fee : Nat}
    (h : Transferred L L1 src dst s d amount fee) (k : Pubkey) : (L1 k).owner = (L k).owner := by
  rcases h with ⟨_, rfl⟩ | ⟨hne, h⟩
  · rfl
  · obtain ⟨_, _, _, _, hs, _, hd, ho, _⟩ := transferMove_inv hne h
    by_cases h1 : k = src
    · rw [h1, hs]
    · by_cases h2 : k = dst
      · rw [h2, hd]
      · rw [ho k h1 h2]

/-- After a transfer between accounts of mint `u`, a token account of another mint is untouched. -/
theorem Transferred.foreign {L L1 : Ledger} {src dst : Pubkey} {s s' d r : TokenAcct}
    {amount fee : Nat} {u k : Pubkey} (h : Transferred L L1 src dst s' d amount fee)
    (hsd : (L src).data = .token s) (hss : SameButDelegation s s')
    (hdd : (L dst).data = .token d) (hs : s.mint = u) (hd : d.mint = u)
    (hr : (L1 k).data = .token r) (hm : r.mint ≠ u) :
    k ≠ src ∧ k ≠ dst ∧ L1 k = L k := by
  rcases h with ⟨rfl, rfl⟩ | ⟨hne, h'⟩
  · have : k ≠ src := by
      rintro rfl
      rw [hsd] at hr; cases hr; exact hm hs
    exact ⟨this, this, rfl⟩
  · have e := transferMove_inv hne h'
    have h1 : k ≠ src := by
      rintro rfl
      rw [e.2.2.2.1] at hr; cases hr; exact hm (hss.mint.trans hs)
    have h2 : k ≠ dst := by
      rintro rfl
      rw [e.2.2.2.2.2.1] at hr; cases hr; exact hm hd
    exact ⟨h1, h2, e.2.2.2.2.2.2.2.1 k h1 h2⟩

/-- Everything a successful Wrap establishes and does. -/
structure WrapEffect (env : Env) (accounts : List Meta) (amount : UInt64) (L L' : Ledger)
    (a : WrapAccounts) (m w : Mint) (s d s' r : TokenAcct) (L1 : Ledger) : Prop where
  ctx : ∃ pda, WrapCtx env accounts amount L L' a d m L1 pda
  tr : WrapTransferred env accounts a m amount.toNat (wrapFee env m amount.toNat) L L1 s d s'
  wprog : a.wrappedTokenProgram.key = splTokenId ∨ a.wrappedTokenProgram.key = token2022Id
  wNeU : a.wrappedMint.key ≠ a.unwrappedMint.key
  rNeU : a.recipient.key ≠ a.unwrappedMint.key
  wData : (L a.wrappedMint.key).data = .mint w
  wOwner : (L a.wrappedMint.key).owner = a.wrappedTokenProgram.key
  wAuth : w.mintAuthority = some a.authority.key
  rData : (L a.recipient.key).data = .token r
  rOwner : (L a.recipient.key).owner = a.wrappedTokenProgram.key
  rMint : r.mint = a.wrappedMint.key
  rThawed : r.frozen = false
  wNeS : a.wrappedMint.key ≠ a.unwrappedTokenAccount.key
  wNeE : a.wrappedMint.key ≠ a.escrow.key
  rNeS : a.recipient.key ≠ a.unwrappedTokenAccount.key
  rNeE : a.recipient.key ≠ a.escrow.key
  rNeW : a.recipient.key ≠ a.wrappedMint.key
  balMax : r.amount + (amount.toNat - wrapFee env m amount.toNat) ≤ u64Max
  supMax : w.supply + (amount.toNat - wrapFee env m amount.toNat) ≤ u64Max
  final : L' = (L1.setData a.recipient.key (.token { r with
      amount := r.amount + (amount.toNat - wrapFee env m amount.toNat) })).setData
      a.wrappedMint.key (.mint { w with
        supply := w.supply + (amount.toNat - wrapFee env m amount.toNat) })

theorem processWrap_effect {env : Env} {accounts : List Meta} {amount : UInt64} {L L' : Ledger}
    (h : processWrap env accounts amount L = .ok L') :
    ∃ a m w s d s' r L1, WrapEffect env accounts amount L L' a m w s d s' r L1 := by
  obtain ⟨a, d0, m, L1, pda, c⟩ := processWrap_inv h
  obtain ⟨s, d, s', t⟩ := wrapTransfer_inv c.uMint c.transfer
  have : d0 = d := by have := c.escData; rw [t.escData] at this; cases this; rfl
  subst this
  obtain ⟨h1, h2, h3, h4, h5⟩ := invokeToken_inv c.mintTo
  have hrej := tokenExec_not_rejected h5
  unfold tokenExec at h5
  rw [hrej] at h5
  obtain ⟨r, w, e1, e2, e3, e4, e5, e6, e7, e8, e9, e10, e11, e12⟩ := mintToExec_inv h5
  have hwu : a.wrappedMint.key ≠ a.unwrappedMint.key := by
    have := h2 (.rw a.wrappedMint.key false) (by simp [TokenIx.metas]) rfl
    simpa [Meta.rw] using this
  have hru : a.recipient.key ≠ a.unwrappedMint.key := by
    have := h2 (.rw a.recipient.key false) (by simp [TokenIx.metas]) rfl
    simpa [Meta.rw] using this
  obtain ⟨f1, f2, f3⟩ := t.moved.foreign t.srcData t.same t.escData t.srcMint t.escMint e2
    (by rw [e7]; exact hwu)
  have hws : a.wrappedMint.key ≠ a.unwrappedTokenAccount.key ∧ a.wrappedMint.key ≠ a.escrow.key := by
    rcases t.moved with ⟨hse, hL⟩ | ⟨hne, hm⟩
    · subst hL
      constructor
      · intro e; rw [e, t.srcData] at e4; cases e4
      · intro e; rw [e, t.escData] at e4; cases e4
    · have hi := transferMove_inv hne hm
      constructor
      · intro e; rw [e, hi.2.2.2.1] at e4; cases e4
      · intro e; rw [e, hi.2.2.2.2.2.1] at e4; cases e4
  have hLW : L1 a.wrappedMint.key = L a.wrappedMint.key := t.moved.other hws.1 hws.2
  have hrw : a.recipient.key ≠ a.wrappedMint.key := by
    intro e; rw [e, e4] at e2; cases e2
  exact ⟨a, m, w, s, d0, s', r, L1, ⟨⟨pda, c⟩, t, h1, hwu, hru, by rw [← hLW]; exact e4,
    by rw [← hLW]; exact e3, e8, by rw [← f3]; exact e2, by rw [← f3]; exact e1, e7, e5, hws.1, hws.2,
    f1, f2, hrw, e10, e11, e12⟩⟩

/-! ## Unwrap -/

/-- Everything a successful Unwrap establishes and does. `h` is the wrapped account before the burn,
`d` the recipient's account. -/
structure UnwrapEffect (env : Env) (accounts : List Meta) (amount : UInt64) (L L' : Ledger)
    (a : UnwrapAccounts) (m w : Mint) (h h' e e' d : TokenAcct) (fee : Nat) (L1 : Ledger) :
    Prop where
  ctx : ∃ pda, UnwrapCtx env accounts amount L L' a m L1 pda
  wprog : a.wrappedTokenProgram.key = splTokenId ∨ a.wrappedTokenProgram.key = token2022Id
  uprog : a.unwrappedTokenProgram.key = splTokenId ∨ a.unwrappedTokenProgram.key = token2022Id
  hData : (L a.wrappedTokenAccount.key).data = .token h
  hOwner : (L a.wrappedTokenAccount.key).owner = a.wrappedTokenProgram.key
  hMint : h.mint = a.wrappedMint.key
  hEnough : amount.toNat ≤ h.amount
  wData : (L a.wrappedMint.key).data = .mint w
  wOwner : (L a.wrappedMint.key).owner = a.wrappedTokenProgram.key
  wSupply : amount.toNat ≤ w.supply
  spent : ownedByNobody h = true ∨
    (SpentBy h (pdOf a.wrappedTokenProgram.key w) a.transferAuthority.key amount.toNat ∧
      Approves L accounts a.transferAuthority.key)
  hSame : SameButDelegation h h'
  mid : L1 = (L.setData a.wrappedTokenAccount.key
      (.token { h' with amount := h.amount - amount.toNat })).setData a.wrappedMint.key
      (.mint { w with supply := w.supply - amount.toNat })
  hNeW : a.wrappedTokenAccount.key ≠ a.wrappedMint.key
  eData : (L1 a.escrow.key).data = .token e
  eOwner : (L1 a.escrow.key).owner = a.unwrappedTokenProgram.key
  eMint : e.mint = a.unwrappedMint.key
  eThawed : e.frozen = false
  eEnough : amount.toNat ≤ e.amount
  eSpent : SpentBy e (pdOf a.unwrappedTokenProgram.key m) a.authority.key amount.toNat
  eSame : SameButDelegation e e'
  dData : (L1 a.recipient.key).data = .token d
  dOwner : (L1 a.recipient.key).owner = a.unwrappedTokenProgram.key
  dMint : d.mint = a.unwrappedMint.key
  dThawed : d.frozen = false
  mData : (L1 a.unwrappedMint.key).data = .mint m
  mOwner : (L1 a.unwrappedMint.key).owner = a.unwrappedTokenProgram.key
  splExts : a.unwrappedTokenProgram.key = splTokenId → m.exts = []
  feeEq : feeOf a.unwrappedTokenProgram.key env.epoch m amount.toNat = .ok fee
  moved : Transferred L1 L' a.escrow.key a.recipient.key e' d amount.toNat fee

theorem processUnwrap_effect {env : Env} {accounts : List Meta} {amount : UInt64} {L L' : Ledger}
    (h : processUnwrap env accounts amount L = .ok L') :
    ∃ a m w hh h' e e' d fee L1,
      UnwrapEffect env accounts amount L L' a m w hh h' e e' d fee L1 := by
  obtain ⟨a, m, L1, pda, c⟩ := processUnwrap_inv h
  obtain ⟨g1, g2, g3, g4, g5⟩ := invokeToken_inv c.burn
  have hrej := tokenExec_not_rejected g5
  unfold tokenExec at g5
  rw [hrej] at g5
  obtain ⟨hh, w, h', b1, b2, b3, b4, b5, b6, b7, b8, b9, b10, b11, b12⟩ := burnExec_inv g5
  obtain ⟨t1, t2, t3, t4, t5⟩ := invokeToken_inv c.transfer
  have hrej2 := tokenExec_not_rejected t5
  unfold tokenExec at t5
  rw [hrej2] at t5
  obtain ⟨e, d, m', fee, e', e1, e2, e3, e4, e5, e6, e7, e8, e9, e10, e11, e12, _, e13, _, e15,
      e16⟩ := transferExec_inv t5
  rw [c.uMint] at e11; cases e11
  obtain ⟨p1, p2, p3⟩ := spendAuth_inv e15
  refine ⟨a, m, w, hh, h', e, e', d, fee, L1, ⟨⟨pda, c⟩, g1, t1, b2, b1, b7, b8, b4, b3, b9, ?_, b11,
    b12, ?_, e2, e1, e8, e5, e7, p1, p3, e4, e3, e9, e6, c.uMint, e10, e12, e13, e16⟩⟩
  · rcases b10 with b | b
    · exact .inl b.1
    · exact .inr ⟨b.1, approves_of_authOk g4 b.2⟩
  · intro he; rw [he, b4] at b2; cases b2

end TokenWrap
