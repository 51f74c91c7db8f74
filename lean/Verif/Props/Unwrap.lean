import Verif.Props.Wrap
/-!
# C11–C14, C19: Unwrap

Account order: escrow, recipient, authority, unwrapped mint, wrapped token program, unwrapped token
program, wrapped token account, wrapped mint, transfer authority, multisig members.
-/

set_option linter.unusedSimpArgs false

namespace TokenWrap

open TokenWrapInstruction

section unwrap

variable {env : Env} {L L' : Ledger} {amount : UInt64} {escrow recipient auth umint wprog uprog
  holder wmint tauth : Meta} {rest : List Meta}

theorem unwrap_effect
    (h : processInstruction env ([escrow, recipient, auth, umint, wprog, uprog, holder, wmint,
      tauth] ++ rest) (unwrap amount).pack L = .ok L') :
    ∃ m w t t' e e' d fee L1, UnwrapEffect env ([escrow, recipient, auth, umint, wprog, uprog,
      holder, wmint, tauth] ++ rest) amount L L' ⟨escrow, recipient, auth, umint, wprog, uprog,
      holder, wmint, tauth, rest⟩ m w t t' e e' d fee L1 := by
  rw [processInstruction_pack] at h
  obtain ⟨a, m, w, t, t', e, e', d, fee, L1, ef⟩ := processUnwrap_effect h
  obtain ⟨pda, c⟩ := ef.ctx
  have ha := c.accounts_eq
  have : a = ⟨escrow, recipient, auth, umint, wprog, uprog, holder, wmint, tauth, rest⟩ := by
    cases a
    simp only [List.cons_append, List.nil_append, List.cons.injEq] at ha
    obtain ⟨h1, h2, h3, h4, h5, h6, h7, h8, h9, h10⟩ := ha
    subst_vars; rfl
  subst this
  exact ⟨m, w, t, t', e, e', d, fee, L1, ef⟩

/-- Which accounts of an Unwrap are necessarily different, given that the wrapped mint is not the
unwrapped mint. -/
theorem UnwrapEffect.distinct {accounts : List Meta} {a : UnwrapAccounts} {m w : Mint}
    {t t' e e' d : TokenAcct} {fee : Nat} {L1 : Ledger}
    (ef : UnwrapEffect env accounts amount L L' a m w t t' e e' d fee L1)
    (hwu : a.wrappedMint.key ≠ a.unwrappedMint.key) :
    a.wrappedTokenAccount.key ≠ a.escrow.key ∧ a.wrappedTokenAccount.key ≠ a.recipient.key ∧
    a.wrappedMint.key ≠ a.escrow.key ∧ a.wrappedMint.key ≠ a.recipient.key ∧
    L1 a.escrow.key = L a.escrow.key ∧ L1 a.recipient.key = L a.recipient.key ∧
    (L a.unwrappedMint.key).data = .mint m := by
  have hne := ef.hNeW
  have e1 := ef.eData
  have d1 := ef.dData
  have m1 := ef.mData
  rw [ef.mid] at e1 d1 m1
  have A1 : a.wrappedTokenAccount.key ≠ a.escrow.key := by
    intro h
    rw [← h] at e1
    simp [Ledger.setData_apply, hne] at e1
    have := ef.eMint
    rw [← e1] at this
    exact hwu (ef.hMint.symm.trans (ef.hSame.mint.symm.trans this))
  have A2 : a.wrappedTokenAccount.key ≠ a.recipient.key := by
    intro h
    rw [← h] at d1
    simp [Ledger.setData_apply, hne] at d1
    have := ef.dMint
    rw [← d1] at this
    exact hwu (ef.hMint.symm.trans (ef.hSame.mint.symm.trans this))
  have A3 : a.wrappedMint.key ≠ a.escrow.key := by
    intro h; rw [← h] at e1; simp at e1
  have A4 : a.wrappedMint.key ≠ a.recipient.key := by
    intro h; rw [← h] at d1; simp at d1
  have A5 : a.unwrappedMint.key ≠ a.wrappedTokenAccount.key := by
    intro h; rw [h] at m1; simp [Ledger.setData_apply, hne] at m1
  refine ⟨A1, A2, A3, A4, ?_, ?_, ?_⟩
  · rw [ef.mid]; simp [Ledger.setData_apply, Ne.symm A1, Ne.symm A3]
  · rw [ef.mid]; simp [Ledger.setData_apply, Ne.symm A2, Ne.symm A4]
  · simpa [Ledger.setData_apply, A5, Ne.symm hwu] using m1

/-- **C11** A successful Unwrap debits the holder, the wrapped supply and the escrow by the amount
and credits the recipient with the amount less the unwrapped mint's transfer fee. -/
theorem unwrap_pays_one_for_one
    (h : processInstruction env ([escrow, recipient, auth, umint, wprog, uprog, holder, wmint,
      tauth] ++ rest) (unwrap amount).pack L = .ok L')
    (hwu : wmint.key ≠ umint.key) (hne : escrow.key ≠ recipient.key) :
    ∃ m fee, (L umint.key).data = .mint m ∧ IsMintFee m env.epoch amount.toNat fee ∧
      fee ≤ amount.toNat ∧
      balanceOf L' holder.key + amount.toNat = balanceOf L holder.key ∧
      supplyOf L' wmint.key + amount.toNat = supplyOf L wmint.key ∧
      balanceOf L' escrow.key + amount.toNat = balanceOf L escrow.key ∧
      balanceOf L' recipient.key = balanceOf L recipient.key + (amount.toNat - fee) := by
  obtain ⟨m, w, t, t', e, e', d, fee, L1, ef⟩ := unwrap_effect h
  obtain ⟨A1, A2, A3, A4, A5, A6, A7⟩ := ef.distinct hwu
  have hNeW := ef.hNeW
  have t1 := ef.hData; have t2 := ef.hEnough
  have w1 := ef.wData; have w2 := ef.wSupply
  have e1 := ef.eData; have e2 := ef.eEnough; have e3 := ef.eSame.amount
  have d1 := ef.dData
  have mid := ef.mid
  have mv := ef.moved
  dsimp only at *
  rcases mv with ⟨heq, _⟩ | ⟨_, mv⟩
  · exact absurd heq hne
  have i := transferMove_inv hne mv
  refine ⟨m, fee, A7, feeOf_isMintFee ef.uprog ef.splExts ef.feeEq, i.1, ?_, ?_, ?_, ?_⟩
  · have : L' holder.key = L1 holder.key := i.2.2.2.2.2.2.2.1 _ A1 A2
    simp only [balanceOf, this, mid, Ledger.setData_apply, if_neg hNeW, if_true, t1]
    omega
  · have : L' wmint.key = L1 wmint.key := i.2.2.2.2.2.2.2.1 _ A3 A4
    simp only [supplyOf, this, mid, Ledger.setData_apply, if_true, w1]
    omega
  · rw [A5] at e1
    simp only [balanceOf, i.2.2.2.1, e1, e3]
    omega
  · rw [A6] at d1
    simp only [balanceOf, i.2.2.2.2.2.1, d1]

/-- **C12** A successful Unwrap used exactly the derived wrapped mint, authority and escrow. -/
theorem unwrap_accounts_derived
    (h : processInstruction env ([escrow, recipient, auth, umint, wprog, uprog, holder, wmint,
      tauth] ++ rest) (unwrap amount).pack L = .ok L') :
    wrappedMintAddress env.cr umint.key wprog.key = some wmint.key ∧
    authorityAddress env.cr wmint.key = some auth.key ∧
    escrowAddress env.cr umint.key uprog.key wprog.key = some escrow.key ∧
    (∃ t, (L holder.key).data = .token t ∧ t.mint = wmint.key) ∧
    (L holder.key).owner = wprog.key ∧ (L wmint.key).owner = wprog.key ∧
    (uprog.key = splTokenId ∨ uprog.key = token2022Id) ∧
    (wprog.key = splTokenId ∨ wprog.key = token2022Id) := by
  obtain ⟨m, w, t, t', e, e', d, fee, L1, ef⟩ := unwrap_effect h
  obtain ⟨pda, c⟩ := ef.ctx
  refine ⟨c.mint, c.auth, ?_, ⟨t, ef.hData, ef.hMint⟩, ef.hOwner, ef.wOwner, ef.uprog, ef.wprog⟩
  have h0 := c.escrow
  have h1 := c.mint
  have h2 := c.auth
  dsimp only at h0 h1 h2
  simp only [wrappedMintAddress, authorityAddress] at h1 h2
  simp [escrowAddress, escrowAddressFor, h1, h2, h0]

/-- **C12** Anything else fails with the error of the first wrong account. -/
theorem unwrap_account_errors (hz : amount ≠ 0) {W A E : Pubkey}
    (hW : wrappedMintAddress env.cr umint.key wprog.key = some W)
    (hA : authorityAddress env.cr wmint.key = some A)
    (hE : associatedTokenAddress env.cr auth.key umint.key uprog.key = some E) :
    let result := processInstruction env
      ([escrow, recipient, auth, umint, wprog, uprog, holder, wmint, tauth] ++ rest)
      (unwrap amount).pack L
    (wmint.key ≠ W → result = .error (wrapErr .wrappedMintMismatch)) ∧
    (wmint.key = W → auth.key ≠ A → result = .error (wrapErr .mintAuthorityMismatch)) ∧
    (wmint.key = W → auth.key = A → escrow.key ≠ E →
      result = .error (wrapErr .escrowMismatch)) := by
  obtain ⟨b, hA'⟩ := authorityAddress_some.1 hA
  dsimp only
  rw [processInstruction_pack]
  simp only [dispatch, processUnwrap, parseUnwrap, List.cons_append, List.nil_append, hW, hA', hE,
    okOr_some, ok_bind]
  have hz' : require (decide (amount ≠ 0)) (wrapErr .zeroWrapAmount) = .ok () := by simp [hz]
  rw [hz']
  refine ⟨?_, ?_, ?_⟩
  · intro h
    simp [Ne.symm h]
  · intro h1 h2; simp [h1, h2]
  · intro h1 h2 h3; simp [h1, h2, h3]

/-- **C13** Nobody can unwrap somebody else's tokens: the transfer authority approved and is the
wrapped account's owner, a delegate with sufficient allowance, or the wrapped mint's permanent
delegate.  The one exception is the token programs' own: accounts owned by the system program or the
incinerator can be burned by anyone. -/
theorem unwrap_authorised
    (h : processInstruction env ([escrow, recipient, auth, umint, wprog, uprog, holder, wmint,
      tauth] ++ rest) (unwrap amount).pack L = .ok L') :
    ∃ t w, (L holder.key).data = .token t ∧ (L wmint.key).data = .mint w ∧
      ((t.owner = systemId ∨ t.owner = incineratorId) ∨
       (Approves L ([escrow, recipient, auth, umint, wprog, uprog, holder, wmint, tauth] ++ rest)
          tauth.key ∧
        (t.owner = tauth.key ∨
         (t.delegate = some tauth.key ∧ amount.toNat ≤ t.delegatedAmount) ∨
         (wprog.key = token2022Id ∧ w.permanentDelegate? = some tauth.key)))) := by
  obtain ⟨m, w, t, t', e, e', d, fee, L1, ef⟩ := unwrap_effect h
  refine ⟨t, w, ef.hData, ef.wData, ?_⟩
  rcases ef.spent with hn | ⟨hsp, happ⟩
  · left; simpa [ownedByNobody] using hn
  · right
    refine ⟨happ, ?_⟩
    dsimp only at hsp
    rcases hsp with hp | ⟨h1, h2⟩ | h1
    · right; right
      unfold pdOf at hp
      split at hp
      · exact ⟨by assumption, hp⟩
      · cases hp
    · exact .inr (.inl ⟨h1, h2⟩)
    · exact .inl h1

/-- **C14** A successful Unwrap changes only holder, wrapped mint, escrow and recipient; of the mint
only the supply; programs owning accounts never change. -/
theorem unwrap_frame
    (h : processInstruction env ([escrow, recipient, auth, umint, wprog, uprog, holder, wmint,
      tauth] ++ rest) (unwrap amount).pack L = .ok L')
    (hwu : wmint.key ≠ umint.key) :
    OnlyChanged [holder.key, wmint.key, escrow.key, recipient.key] L L' ∧
    (∀ k, (L' k).owner = (L k).owner) ∧
    (∃ w, (L wmint.key).data = .mint w ∧
      (L' wmint.key).data = .mint { w with supply := supplyOf L' wmint.key }) ∧
    (L' wmint.key).lamports = (L wmint.key).lamports ∧
    (L' holder.key).lamports = (L holder.key).lamports := by
  obtain ⟨m, w, t, t', e, e', d, fee, L1, ef⟩ := unwrap_effect h
  obtain ⟨A1, A2, A3, A4, A5, A6, A7⟩ := ef.distinct hwu
  have hNeW := ef.hNeW
  have w1 := ef.wData
  have mid := ef.mid
  have mv := ef.moved
  dsimp only at *
  have hw : L' wmint.key = L1 wmint.key := mv.other A3 A4
  have hh : L' holder.key = L1 holder.key := mv.other A1 A2
  refine ⟨?_, ?_, ⟨w, w1, ?_⟩, ?_, ?_⟩
  · intro k hk
    simp only [List.mem_cons, List.not_mem_nil, or_false, not_or] at hk
    rw [mv.other hk.2.2.1 hk.2.2.2, mid]
    simp [Ledger.setData_apply, hk.1, hk.2.1]
  · intro k
    rw [mv.owner k, mid]
    simp only [Ledger.setData_apply]
    split
    · rename_i hk; rw [hk, if_neg (Ne.symm hNeW)]
    · split
      · rename_i hk; rw [hk]
      · rfl
  · simp [supplyOf, hw, mid]
  · rw [hw, mid]; simp [Ledger.setData_apply, Ne.symm hNeW]
  · rw [hh, mid]; simp [Ledger.setData_apply, hNeW]

end unwrap

/-! ## C19: round trip -/

/-- **C19** Wrapping `amount` and then unwrapping everything that was minted, back into the source
account, restores the escrow balance, the wrapped supply and the wrapped balance; the source has
lost exactly the two transfer fees (nothing without fees).  `env₂` may differ from `env₁` (a later
epoch). -/
theorem wrap_unwrap_round_trip {env₁ env₂ : Env} {L L₁ L₂ : Ledger} {amount back : UInt64}
    {recipient wmint auth uprog wprog src umint escrow tauth tauth₂ : Meta} {rest rest₂ : List Meta}
    (h₁ : processInstruction env₁ ([recipient, wmint, auth, uprog, wprog, src, umint, escrow,
      tauth] ++ rest) (wrap amount).pack L = .ok L₁)
    (hback : balanceOf L₁ recipient.key = balanceOf L recipient.key + back.toNat)
    (h₂ : processInstruction env₂ ([escrow, src, auth, umint, wprog, uprog, recipient, wmint,
      tauth₂] ++ rest₂) (unwrap back).pack L₁ = .ok L₂)
    (hne : src.key ≠ escrow.key) :
    balanceOf L₂ escrow.key = balanceOf L escrow.key ∧
    supplyOf L₂ wmint.key = supplyOf L wmint.key ∧
    balanceOf L₂ recipient.key = balanceOf L recipient.key ∧
    ∃ m fee₁ fee₂, (L umint.key).data = .mint m ∧
      IsMintFee m env₁.epoch amount.toNat fee₁ ∧ IsMintFee m env₂.epoch back.toNat fee₂ ∧
      back.toNat = amount.toNat - fee₁ ∧ fee₁ ≤ amount.toNat ∧
      balanceOf L₂ src.key + fee₁ + fee₂ = balanceOf L src.key := by
  obtain ⟨_, _, _, _, _, _, _, e⟩ := wrap_effect h₁
  have hwu : wmint.key ≠ umint.key := e.wNeU
  have hun : L₁ umint.key = L umint.key := by
    apply (wrap_frame h₁).1
    have h1 := e.tr.borrow.1; have h2 := e.tr.borrow.2; have h3 := e.rNeU
    dsimp only at h1 h2 h3
    simp [Ne.symm h1, Ne.symm h2, Ne.symm h3, Ne.symm hwu]
  obtain ⟨m, f1, a1, a2, a3, a4, a5, a6, a7⟩ := wrap_credits_exactly_what_escrow_receives h₁ hne
  obtain ⟨m', f2, b1, b2, b3, b4, b5, b6, b7⟩ := unwrap_pays_one_for_one h₂ hwu (Ne.symm hne)
  rw [hun, a1] at b1; cases b1
  refine ⟨by omega, by omega, by omega, m, f1, f2, a1, a2, b2, by omega, a3, by omega⟩

/-! ## Concrete instances -/

namespace Example

/-- The example Unwrap of 7 succeeds. -/
theorem unwrap_ok : ok (processInstruction env unwrapAccounts (unwrap 7).pack L0) = true := by
  decide +kernel

example : balanceOf (get (processInstruction env unwrapAccounts (unwrap 7).pack L0)) E = 3 := by
  decide +kernel
-- 1% of 7, rounded up, is 1
example : balanceOf (get (processInstruction env unwrapAccounts (unwrap 7).pack L0)) src =
    5000 + 6 := by decide +kernel
example : W ≠ u ∧ E ≠ src := by decide +kernel

/-- The ledger after wrapping 1000. -/
def L1 : Ledger := get (processInstruction env wrapAccounts (wrap 1000).pack L0)

-- the hypotheses of the round trip are met
example : balanceOf L1 rcp = balanceOf L0 rcp + (990 : UInt64).toNat ∧
    ok (processInstruction env unwrapAccounts (unwrap 990).pack L1) = true := by decide +kernel

-- C12: a wrong escrow is rejected with the documented error
example : processInstruction env
    ([.rw src false, .rw src false, .ro A false, .ro u false, .ro splTokenId false,
      .ro token2022Id false, .rw rcp false, .rw W false, .ro user true] ++ []) (unwrap 7).pack L0 =
    .error (wrapErr .escrowMismatch) :=
  (unwrap_account_errors (amount := 7) (by decide) (W := W) (A := A) (E := E)
    (by decide +kernel) (by decide +kernel) (by decide +kernel)).2.2 rfl rfl (by decide +kernel)

end Example

end TokenWrap
