import Verif.WrapLemmas
import Verif.Examples
/-!
# C07–C10, C14, C20, C43: Wrap
-/

set_option linter.unusedSimpArgs false

namespace TokenWrap

open TokenWrapInstruction

/-! ## C20: fees -/

/-- **C20** A computed fee is the specified one. -/
theorem calculateFee_isFee {t : TransferFee} {amount f : Nat} (h : t.calculateFee amount = some f) :
    IsFee t amount f := by
  unfold TransferFee.calculateFee at h
  split at h
  · rename_i h0
    simp at h; subst h
    right
    refine ⟨Nat.zero_le _, ?_, .inl rfl⟩
    rcases h0 with h0 | h0 <;> simp [h0]
  · rename_i h0
    dsimp only at h
    split at h
    · simp only [Option.some.injEq] at h
      rcases Nat.lt_or_ge t.maximumFee ((amount * t.bps + 9999) / 10000) with hlt | hge
      · left
        rw [Nat.min_eq_right (Nat.le_of_lt hlt)] at h
        refine ⟨h.symm, ?_⟩
        omega
      · right
        rw [Nat.min_eq_left hge] at h
        subst h
        refine ⟨hge, by omega, ?_⟩
        by_cases hz : (amount * t.bps + 9999) / 10000 = 0
        · exact .inl hz
        · exact .inr (by omega)
    · cases h

/-- **C20** The specification determines the fee. -/
theorem isFee_unique {t : TransferFee} {amount f g : Nat} (hf : IsFee t amount f)
    (hg : IsFee t amount g) : f = g := by
  unfold IsFee at hf hg
  rcases hf with ⟨h1, h2⟩ | ⟨h1, h2, h3⟩ <;> rcases hg with ⟨g1, g2⟩ | ⟨g1, g2, g3⟩ <;> omega

/-- **C20** With at most 10000 basis points and a u64 amount the fee is always computable and never
exceeds the amount. -/
theorem fee_total_and_bounded (t : TransferFee) (amount : Nat) (hb : t.bps ≤ 10000)
    (ha : amount ≤ u64Max) : ∃ f, t.calculateFee amount = some f ∧ f ≤ amount ∧
      f ≤ t.maximumFee := by
  unfold TransferFee.calculateFee
  split
  · exact ⟨0, rfl, Nat.zero_le _, Nat.zero_le _⟩
  · dsimp only
    have : (amount * t.bps + 9999) / 10000 ≤ amount := by
      have : amount * t.bps ≤ amount * 10000 := Nat.mul_le_mul_left _ hb
      omega
    rw [if_pos (Nat.le_trans this ha)]
    exact ⟨_, rfl, Nat.le_trans (Nat.min_le_left _ _) this, Nat.min_le_right _ _⟩

/-- **C20** The schedule entry used is the one in force in the epoch. -/
theorem epochFee_eq (c : TransferFeeConfig) (epoch : Nat) :
    c.epochFee epoch = specFeeSchedule c epoch := by
  unfold TransferFeeConfig.epochFee specFeeSchedule
  by_cases h : c.newer.epoch ≤ epoch
  · rw [if_pos h, if_neg (by omega)]
  · rw [if_neg h, if_pos (by omega)]

theorem calculateFee_zero_bps (t : TransferFee) (amount : Nat) (h : t.bps = 0) :
    t.calculateFee amount = some 0 := by simp [TransferFee.calculateFee, h]

/-- The fee a token program charges is the specified one. -/
theorem feeOf_isMintFee {prog : Pubkey} {epoch : Nat} {m : Mint} {amount f : Nat}
    (hp : prog = splTokenId ∨ prog = token2022Id) (he : prog = splTokenId → m.exts = [])
    (h : feeOf prog epoch m amount = .ok f) : IsMintFee m epoch amount f := by
  unfold feeOf at h
  unfold IsMintFee
  split at h
  · split at h
    · rename_i c hc
      rw [hc]
      simp only [okOr_ok_iff] at h
      unfold TransferFeeConfig.calculateEpochFee at h
      rw [epochFee_eq] at h
      exact calculateFee_isFee h
    · rename_i hc
      rw [hc]; simpa using h.symm
  · rename_i h22
    have := he (hp.resolve_right h22)
    simp [Mint.transferFee?, this]
    simpa using h.symm

-- the fee of the example configuration: 1% of 1000, capped at 50
example : IsFee (specFeeSchedule Example.feeCfg 5) 1000 10 := by
  simp [specFeeSchedule, Example.feeCfg, IsFee]
example : Example.feeCfg.calculateEpochFee 5 1000 = some 10 := by decide
example : Example.feeCfg.calculateEpochFee 3 1000 = some 0 := by decide
example : Example.feeCfg.calculateEpochFee 5 1000000 = some 50 := by decide

/-! ## Wrap, with its documented account order

`recipient`, wrapped mint, authority, unwrapped token program, wrapped token program, source,
unwrapped mint, escrow, transfer authority, multisig members. -/

section wrap

variable {env : Env} {L L' : Ledger} {amount : UInt64} {recipient wmint auth uprog wprog src umint
  escrow tauth : Meta} {rest : List Meta}

/-- The effect lemma for an explicit account list. -/
theorem wrap_effect
    (h : processInstruction env ([recipient, wmint, auth, uprog, wprog, src, umint, escrow, tauth] ++
      rest) (wrap amount).pack L = .ok L') :
    ∃ m w s d s' r L1, WrapEffect env ([recipient, wmint, auth, uprog, wprog, src, umint, escrow,
      tauth] ++ rest) amount L L' ⟨recipient, wmint, auth, uprog, wprog, src, umint, escrow, tauth,
        rest⟩ m w s d s' r L1 := by
  rw [processInstruction_pack] at h
  obtain ⟨a, m, w, s, d, s', r, L1, e⟩ := processWrap_effect h
  obtain ⟨pda, c⟩ := e.ctx
  have ha := c.accounts_eq
  have : a = ⟨recipient, wmint, auth, uprog, wprog, src, umint, escrow, tauth, rest⟩ := by
    cases a
    simp only [List.cons_append, List.nil_append, List.cons.injEq] at ha
    obtain ⟨h1, h2, h3, h4, h5, h6, h7, h8, h9, h10⟩ := ha
    subst_vars; rfl
  subst this
  exact ⟨m, w, s, d, s', r, L1, e⟩

/-- **C07** Wrap of zero is refused, whatever the accounts and the state. -/
theorem wrap_zero_rejected (env : Env) (accounts : List Meta) (L : Ledger) :
    processInstruction env accounts (wrap 0).pack L = .error (wrapErr .zeroWrapAmount) := by
  rw [processInstruction_pack]; rfl

/-- **C07** Unwrap of zero is refused, whatever the accounts and the state. -/
theorem unwrap_zero_rejected (env : Env) (accounts : List Meta) (L : Ledger) :
    processInstruction env accounts (unwrap 0).pack L = .error (wrapErr .zeroWrapAmount) := by
  rw [processInstruction_pack]; rfl

/-- **C08** A successful Wrap debits the source by the amount and credits escrow, recipient and
wrapped supply with exactly the amount less the transfer fee in force. -/
theorem wrap_credits_exactly_what_escrow_receives
    (h : processInstruction env ([recipient, wmint, auth, uprog, wprog, src, umint, escrow, tauth] ++
      rest) (wrap amount).pack L = .ok L')
    (hne : src.key ≠ escrow.key) :
    ∃ m fee, (L umint.key).data = .mint m ∧ IsMintFee m env.epoch amount.toNat fee ∧
      fee ≤ amount.toNat ∧
      balanceOf L' src.key + amount.toNat = balanceOf L src.key ∧
      balanceOf L' escrow.key = balanceOf L escrow.key + (amount.toNat - fee) ∧
      balanceOf L' recipient.key = balanceOf L recipient.key + (amount.toNat - fee) ∧
      supplyOf L' wmint.key = supplyOf L wmint.key + (amount.toNat - fee) := by
  obtain ⟨m, w, s, d, s', r, L1, e⟩ := wrap_effect h
  obtain ⟨pda, c⟩ := e.ctx
  refine ⟨m, wrapFee env m amount.toNat, c.uMint, feeOf_isMintFee e.tr.uprog e.tr.splExts e.tr.feeEq,
    c.feeLe, ?_, ?_, ?_, ?_⟩
  all_goals
    have hm := e.tr.moved
    rcases hm with ⟨heq, _⟩ | ⟨_, hm⟩
    · exact absurd heq hne
    have i := transferMove_inv hne hm
    have h1 := e.rNeS; have h2 := e.rNeE; have h3 := e.rNeW; have h4 := e.wNeS; have h5 := e.wNeE
    have d1 := e.tr.srcData; have d2 := e.tr.escData; have d3 := e.rData; have d4 := e.wData
    have am := e.tr.enough; have sa := e.tr.same.amount
    dsimp only at h1 h2 h3 h4 h5 d1 d2 d3 d4 am i
    rw [e.final]
  · simp only [balanceOf, Ledger.setData_apply, if_neg (Ne.symm h4), if_neg (Ne.symm h1), i.2.2.2.1,
      d1, sa]
    omega
  · simp only [balanceOf, Ledger.setData_apply, if_neg (Ne.symm h5), if_neg (Ne.symm h2),
      i.2.2.2.2.2.1, d2]
  · simp only [balanceOf, Ledger.setData_apply, if_neg h3, if_true, d3]
  · simp only [supplyOf, Ledger.setData_apply, if_true, d4]

/-- **C09** A successful Wrap used exactly the derived wrapped mint, authority and escrow, and an
escrow that the authority owns. -/
theorem wrap_accounts_derived
    (h : processInstruction env ([recipient, wmint, auth, uprog, wprog, src, umint, escrow, tauth] ++
      rest) (wrap amount).pack L = .ok L') :
    wrappedMintAddress env.cr umint.key wprog.key = some wmint.key ∧
    authorityAddress env.cr wmint.key = some auth.key ∧
    escrowAddress env.cr umint.key uprog.key wprog.key = some escrow.key ∧
    (∃ t, (L escrow.key).data = .token t ∧ t.owner = auth.key ∧ t.mint = umint.key) ∧
    (L escrow.key).owner = uprog.key ∧ (L umint.key).owner = uprog.key ∧
    (L wmint.key).owner = wprog.key ∧
    (uprog.key = splTokenId ∨ uprog.key = token2022Id) ∧
    (wprog.key = splTokenId ∨ wprog.key = token2022Id) := by
  obtain ⟨m, w, s, d, s', r, L1, e⟩ := wrap_effect h
  obtain ⟨pda, c⟩ := e.ctx
  refine ⟨c.mint, c.auth, ?_, ⟨d, e.tr.escData, c.escOwner, e.tr.escMint⟩, e.tr.escOwner,
    e.tr.mintOwner, e.wOwner, e.tr.uprog, e.wprog⟩
  have := c.escrow
  have h1 := c.mint
  have h2 := c.auth
  dsimp only at this h1 h2
  simp only [wrappedMintAddress, authorityAddress] at h1 h2
  simp [escrowAddress, escrowAddressFor, h1, h2, this]

/-- **C09** Anything else fails with the error of the first wrong account. -/
theorem wrap_account_errors (hz : amount ≠ 0) {W A E : Pubkey}
    (hW : wrappedMintAddress env.cr umint.key wprog.key = some W)
    (hA : authorityAddress env.cr wmint.key = some A)
    (hE : associatedTokenAddress env.cr auth.key umint.key uprog.key = some E) :
    let result := processInstruction env
      ([recipient, wmint, auth, uprog, wprog, src, umint, escrow, tauth] ++ rest)
      (wrap amount).pack L
    (wmint.key ≠ W → result = .error (wrapErr .wrappedMintMismatch)) ∧
    (wmint.key = W → auth.key ≠ A → result = .error (wrapErr .mintAuthorityMismatch)) ∧
    (wmint.key = W → auth.key = A → escrow.key ≠ E → result = .error (wrapErr .escrowMismatch)) ∧
    (wmint.key = W → auth.key = A → escrow.key = E →
      (∀ t, (L escrow.key).data ≠ .token t) →
      result = .error .invalidAccountData ∨ result = .error .uninitializedAccount) ∧
    (wmint.key = W → auth.key = A → escrow.key = E →
      (∃ n, (L escrow.key).data = .bytes (List.replicate n 0) ∧ 165 ≤ n ∧ n ≠ 355) →
      result = .error .uninitializedAccount) ∧
    (wmint.key = W → auth.key = A → escrow.key = E →
      (∃ t, (L escrow.key).data = .token t ∧ t.owner ≠ A) →
      result = .error (wrapErr .escrowOwnerMismatch)) := by
  obtain ⟨b, hA'⟩ := authorityAddress_some.1 hA
  dsimp only
  rw [processInstruction_pack]
  simp only [dispatch, processWrap, parseWrap, List.cons_append, List.nil_append, hW, hA', hE,
    okOr_some, ok_bind]
  have hz' : require (decide (amount ≠ 0)) (wrapErr .zeroWrapAmount) = .ok () := by simp [hz]
  rw [hz']
  refine ⟨?_, ?_, ?_, ?_, ?_, ?_⟩
  · intro h
    simp [Ne.symm h]
  · intro h1 h2; simp [h1, h2]
  · intro h1 h2 h3; simp [h1, h2, h3]
  · intro h1 h2 h3 h4
    have : unpackToken (L E).data = .error .invalidAccountData ∨
        unpackToken (L E).data = .error .uninitializedAccount := by
      rw [← h3]; exact unpackToken_error h4
    rcases this with h | h <;> simp [h1, h2, h3, h]
  · rintro h1 h2 h3 ⟨n, h4, h5, h6⟩
    have : unpackToken (L E).data = .error .uninitializedAccount := by
      rw [← h3, h4]
      have hp : podAccount (List.replicate n 0) = .error .uninitializedAccount := by
        unfold podAccount podUnpack
        rw [if_neg (by rw [List.length_replicate]; omega),
          if_pos (by rw [List.getElem?_replicate, if_pos (by omega)]; rfl)]
      simp only [unpackToken, hp, podErr]
    simp [h1, h2, h3, this]
  · rintro h1 h2 h3 ⟨t, h4, h5⟩
    have : unpackToken (L E).data = .ok t := by rw [← h3]; simpa using h4
    simp [h1, h2, h3, this, h5]

/-- **C10** Nobody can wrap somebody else's tokens: the transfer authority approved (signed, or m of
its multisig members did) and is the source's owner, a delegate with sufficient allowance, or the
mint's permanent delegate. -/
theorem wrap_authorised
    (h : processInstruction env ([recipient, wmint, auth, uprog, wprog, src, umint, escrow, tauth] ++
      rest) (wrap amount).pack L = .ok L') :
    ∃ t m, (L src.key).data = .token t ∧ (L umint.key).data = .mint m ∧
      Approves L ([recipient, wmint, auth, uprog, wprog, src, umint, escrow, tauth] ++ rest)
        tauth.key ∧
      (t.owner = tauth.key ∨
       (t.delegate = some tauth.key ∧ amount.toNat ≤ t.delegatedAmount) ∨
       (uprog.key = token2022Id ∧ m.permanentDelegate? = some tauth.key)) := by
  obtain ⟨m, w, s, d, s', r, L1, e⟩ := wrap_effect h
  obtain ⟨pda, c⟩ := e.ctx
  refine ⟨s, m, e.tr.srcData, c.uMint, e.tr.approved, ?_⟩
  have hsp := e.tr.spent
  dsimp only at hsp
  rcases hsp with hp | ⟨h1, h2⟩ | h1
  · right; right
    unfold pdOf at hp
    split at hp
    · exact ⟨by assumption, hp⟩
    · cases hp
  · exact .inr (.inl ⟨h1, h2⟩)
  · exact .inl h1

/-- **C14** A successful Wrap changes only source, escrow, recipient and wrapped mint; of the mint
only the supply; of the recipient only the balance; owners (programs) of accounts never change. -/
theorem wrap_frame
    (h : processInstruction env ([recipient, wmint, auth, uprog, wprog, src, umint, escrow, tauth] ++
      rest) (wrap amount).pack L = .ok L') :
    OnlyChanged [src.key, escrow.key, recipient.key, wmint.key] L L' ∧
    (∀ k, (L' k).owner = (L k).owner) ∧
    (∃ w, (L wmint.key).data = .mint w ∧
      (L' wmint.key).data = .mint { w with supply := supplyOf L' wmint.key }) ∧
    (∃ r, (L recipient.key).data = .token r ∧
      (L' recipient.key).data = .token { r with amount := balanceOf L' recipient.key }) ∧
    (L' recipient.key).lamports = (L recipient.key).lamports ∧
    (L' wmint.key).lamports = (L wmint.key).lamports := by
  obtain ⟨m, w, s, d, s', r, L1, e⟩ := wrap_effect h
  obtain ⟨pda, c⟩ := e.ctx
  have h1 := e.rNeS; have h2 := e.rNeE; have h3 := e.rNeW; have h4 := e.wNeS; have h5 := e.wNeE
  have d3 := e.rData; have d4 := e.wData
  have o1 := e.tr.moved.other h1 h2
  have o2 := e.tr.moved.other h4 h5
  have mv := e.tr.moved
  dsimp only at h1 h2 h3 h4 h5 d3 d4 o1 o2 mv
  rw [e.final]
  dsimp only
  refine ⟨?_, ?_, ⟨w, d4, ?_⟩, ⟨r, d3, ?_⟩, ?_, ?_⟩
  · intro k hk
    simp only [List.mem_cons, List.not_mem_nil, or_false, not_or] at hk
    simp only [Ledger.setData_apply, if_neg hk.2.2.1, if_neg hk.2.2.2]
    exact mv.other hk.1 hk.2.1
  · intro k
    simp only [Ledger.setData_apply]
    split
    · rename_i hk; rw [hk, if_neg (Ne.symm h3)]; exact mv.owner _
    · split
      · rename_i hk; rw [hk]; exact mv.owner _
      · exact mv.owner _
  · simp [supplyOf]
  · simp [balanceOf, Ledger.setData_apply, h3]
  · simp [Ledger.setData_apply, h3, o1]
  · simp [Ledger.setData_apply, Ne.symm h3, o2]

/-- **C43** A positive Wrap mints nothing exactly when the amount is all fee. -/
theorem wrap_mints_zero_iff
    (h : processInstruction env ([recipient, wmint, auth, uprog, wprog, src, umint, escrow, tauth] ++
      rest) (wrap amount).pack L = .ok L') :
    balanceOf L' recipient.key = balanceOf L recipient.key ↔
      ∃ m, (L umint.key).data = .mint m ∧ IsMintFee m env.epoch amount.toNat amount.toNat := by
  obtain ⟨m, w, s, d, s', r, L1, e⟩ := wrap_effect h
  obtain ⟨pda, c⟩ := e.ctx
  have hfee := feeOf_isMintFee e.tr.uprog e.tr.splExts e.tr.feeEq
  have hle := c.feeLe
  have h3 := e.rNeW; have d3 := e.rData
  have hm := c.uMint
  dsimp only at h3 d3 hm
  have hb : balanceOf L' recipient.key = balanceOf L recipient.key +
      (amount.toNat - wrapFee env m amount.toNat) := by
    rw [e.final]
    simp [balanceOf, Ledger.setData_apply, h3, d3]
  rw [hb]
  constructor
  · intro h0
    have : wrapFee env m amount.toNat = amount.toNat := by omega
    exact ⟨m, hm, by rw [this] at hfee; exact hfee⟩
  · rintro ⟨m', hm', hf'⟩
    rw [hm] at hm'; cases hm'
    have : wrapFee env m amount.toNat = amount.toNat := by
      unfold IsMintFee at hfee hf'
      cases hc : m.transferFee? with
      | some c => rw [hc] at hfee hf'; exact isFee_unique hfee hf'
      | none => rw [hc] at hfee hf'; exact hfee.trans hf'.symm
    rw [this]; simp

end wrap

/-! ## Concrete instances -/

namespace Example

/-- The example Wrap of 1000 (fee 10) succeeds. -/
theorem wrap_ok : ok (processInstruction env wrapAccounts (wrap 1000).pack L0) = true := by
  decide +kernel

-- the hypotheses of the Wrap theorems are met by this instruction: what C08 says here
example : balanceOf (get (processInstruction env wrapAccounts (wrap 1000).pack L0)) E = 10 + 990 := by
  decide +kernel
example : balanceOf (get (processInstruction env wrapAccounts (wrap 1000).pack L0)) rcp = 10 + 990 := by
  decide +kernel
example : src ≠ E := by decide +kernel

-- C09 error cases occur
example : processInstruction env
    ([.rw rcp false, .rw W false, .ro user false, .ro token2022Id false, .ro splTokenId false,
      .rw src false, .ro u false, .rw E false, .ro user true] ++ []) (wrap 1000).pack L0 =
    .error (wrapErr .mintAuthorityMismatch) :=
  (wrap_account_errors (amount := 1000) (by decide) (W := W) (A := A)
    (E := (associatedTokenAddress toyCrypto user u token2022Id).getD default)
    (by decide +kernel) (by decide +kernel) (by decide +kernel)).2.1 rfl (by decide +kernel)

/-- C43: with a flat 100% fee a positive Wrap mints nothing although the user pays. -/
example :
    let L := world [.transferFeeConfig { feeCfg with newer := ⟨4, 5000, 10000⟩ }] 10 goodExts 10
    let r := processInstruction env wrapAccounts (wrap 1000).pack L
    ok r = true ∧ balanceOf (get r) rcp = 10 ∧ balanceOf (get r) src = 4000 := by
  decide +kernel

end Example

end TokenWrap
