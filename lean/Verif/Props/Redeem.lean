import Verif.Props.History
/-! # Redeemability, isolation of pairs, canonical pointer (C18, C29, C34) -/

set_option linter.unusedSimpArgs false

namespace TokenWrap

section
variable {cr : Crypto} {s : Setting cr} {ok : Act → Ledger → Prop} {L0 L L' : Ledger} {trace : List Act}
  {act : Act}

/-! ## C18: redeemability -/

/-- A transfer fee configuration as Token-2022 allows it: at most 100%. -/
def FeesValid (m : Mint) : Prop :=
  ∀ c, m.transferFee? = some c → c.older.bps ≤ 10000 ∧ c.newer.bps ≤ 10000

theorem calculateFee_valid {t : TransferFee} {amount : Nat} (h : t.bps ≤ 10000)
    (ha : amount ≤ u64Max) : ∃ f, t.calculateFee amount = some f ∧ f ≤ amount := by
  unfold TransferFee.calculateFee
  split
  · exact ⟨0, rfl, Nat.zero_le _⟩
  · dsimp only
    have h1 : amount * t.bps ≤ amount * 10000 := Nat.mul_le_mul_left _ h
    have h2 : (amount * t.bps + 9999) / 10000 ≤ amount := by omega
    rw [if_pos (by omega)]
    exact ⟨_, rfl, by omega⟩

theorem feeOf_valid {prog : Pubkey} {epoch amount : Nat} {m : Mint} (h : FeesValid m)
    (ha : amount ≤ u64Max) :
    ∃ f, feeOf prog epoch m amount = .ok f ∧ f ≤ amount ∧ (m.transferFee? = none → f = 0) := by
  unfold feeOf
  split
  · cases hc : m.transferFee? with
    | none => exact ⟨0, rfl, Nat.zero_le _, fun _ => rfl⟩
    | some c =>
      have hb : (c.epochFee epoch).bps ≤ 10000 := by
        have := h c hc
        unfold TransferFeeConfig.epochFee
        split
        · exact this.2
        · exact this.1
      obtain ⟨f, hf, hle⟩ := calculateFee_valid (amount := amount) hb ha
      refine ⟨f, ?_, hle, by simp⟩
      simp [TransferFeeConfig.calculateEpochFee, hf]
  · exact ⟨0, rfl, Nat.zero_le _, fun _ => rfl⟩

/-- The recipient can take `amount` more tokens of mint `u`. -/
structure CanReceive (L : Ledger) (p u rcp : Pubkey) (m : Mint) (amount : Nat) : Prop where
  acct : ∃ d, (L rcp).owner = p ∧ (L rcp).data = .token d ∧ d.mint = u ∧ d.frozen = false ∧
    d.amount + amount ≤ u64Max ∧ (m.transferFee? = none ∨ AcctExt.transferFeeAmount ∈ d.exts)

/-- The escrow is not frozen by the unwrapped mint's freeze authority. -/
def EscrowUsable (L : Ledger) (E : Pubkey) : Prop :=
  ∀ e, (L E).data = .token e → e.frozen = false

theorem Inv.escrow_token {bk : Bk} {p : Pubkey} (hi : Inv bk s L) (hp : p = splTokenId ∨ p = token2022Id)
    (hpos : 0 < balanceOf L (s.escrowFor p)) :
    (L (s.escrowFor p)).owner = p ∧ ∃ e, (L (s.escrowFor p)).data = .token e ∧ e.mint = s.u ∧
      e.owner = s.A ∧ e.delegate = none ∧ e.amount = balanceOf L (s.escrowFor p) := by
  have key : EscrowOk s.u s.A p (s.escrowFor p) L := by
    unfold Setting.escrowFor
    rcases hp with rfl | rfl
    · rw [if_pos rfl]; exact hi.es
    · rw [if_neg (Ne.symm spl_ne_2022)]; exact hi.et
  rcases key with hb | ⟨ho, e, he, h1, h2, h3, _⟩
  · rw [balanceOf_blank hb] at hpos; omega
  · exact ⟨ho, e, he, h1, h2, h3, (balanceOf_token he).symm⟩

/-- The state conditions under which an Unwrap goes through. -/
theorem Inv.redeemable {env : Env} {p : Pubkey} {holder rcp tauth : Pubkey}
    {members : List Pubkey} {t : TokenAcct} {amount : UInt64} {m : Mint}
    (hi : Inv .full s L) (hf : AllFunded L) (hp : p = splTokenId ∨ p = token2022Id)
    (howner : (L s.u).owner = p) (hback : supplyOf L s.W ≤ balanceOf L (s.escrowFor p))
    (hcr : env.cr = cr) (hid : env.programId = crateId)
    (hrej : ∀ p ix sg L, env.reject p ix sg L = none)
    (hold : HoldsWrapped s L holder t) (thawed : t.frozen = false)
    (pos : amount ≠ 0) (enough : amount.toNat ≤ t.amount)
    (spend : CanSpend t none tauth amount.toNat) (approval : BuiltApproval s.wp L tauth members)
    (umint : (L s.u).data = .mint m) (spl : p = splTokenId → m.exts = []) (fees : FeesValid m)
    (usable : EscrowUsable L (s.escrowFor p))
    (recv : CanReceive L p s.u rcp m amount.toNat) :
    ∃ L', processInstruction env
      (Build.unwrap crateId (s.escrowFor p) rcp s.A s.u s.wp p holder s.W tauth members amount).accounts
      (Build.unwrap crateId (s.escrowFor p) rcp s.A s.u s.wp p holder s.W tauth members amount).data L =
        .ok L' := by
  have hle := hi.holder_le hold
  have hpos : 0 < amount.toNat := by
    rcases Nat.eq_zero_or_pos amount.toNat with h | h
    · exact absurd (UInt64.toNat_inj.1 (by simpa using h)) pos
    · exact h
  obtain ⟨eo, e, ed, em, eow, edel, eam⟩ := hi.escrow_token hp (by omega)
  have ef := usable e ed
  have en : e.isNative = none ∨ amount.toNat ≤ (L (s.escrowFor p)).lamports := by
    have f := (hf (s.escrowFor p)).tok e
      (by rw [eo]; rcases hp with rfl | rfl <;> rfl) ed
    cases hn : e.isNative with
    | none => exact .inl rfl
    | some r => have := (f.reserve r hn).2; exact .inr (by omega)
  obtain ⟨fee, hfee, hfl, hf0⟩ := feeOf_valid (prog := p) (epoch := env.epoch) fees
    (show amount.toNat ≤ u64Max by have := amount.toNat_lt; unfold u64Max; omega)
  obtain ⟨d, r1, r2, r3, r4, r5, r6⟩ := recv.acct
  have hw : WrappedOk s L := by
    rcases hi.w with ⟨h1, _⟩ | h1
    · rw [supplyOf_blank h1] at hle; omega
    · exact h1
  obtain ⟨w, hwd, hwa, _, hwe⟩ := hw.mint
  have hsup := supplyOf_mint hwd
  have hpd : pdOf s.wp w = none := by
    unfold pdOf
    split
    · unfold Mint.permanentDelegate?
      rcases hwe with ⟨_, h⟩ | ⟨_, h | ⟨md, h, _⟩⟩ <;> rw [h] <;> rfl
    · rfl
  have addrE : associatedTokenAddress cr s.A s.u p = some (s.escrowFor p) := by
    unfold Setting.escrowFor
    rcases hp with rfl | rfl
    · rw [if_pos rfl]; exact s.rEs.address
    · rw [if_neg (Ne.symm spl_ne_2022)]; exact s.rEt.address
  refine unwrap_succeeds (fee := fee) (e := e) (d := d) (h := t) (m := m) (w := w) hid pos hrej
    { uprogOk := hp, wprogOk := s.wpOk, addrW := by rw [hcr]; exact s.rW.address
      addrA := by rw [hcr]; exact s.rA.address, addrE := by rw [hcr]; exact addrE
      wNeU := fun h => s.uFree.1 h.symm, hOwner := hold.1, hData := hold.2.1, hMint := hold.2.2
      hThawed := thawed, hNative := hi.noNative _ _ hold.1 hold.2.1 hold.2.2, enough := enough
      spend := by rw [hpd]; exact spend, approval := approval, wOwner := hw.owner, wData := hwd
      wExts := ?_, supply := by omega, escOwner := eo, escData := ed, escMint := em
      escTokenOwner := eow, escThawed := ef, escDelegate := edel, escEnough := by omega
      escNative := en, aData := hi.a.2, mintOwner := howner, mintData := umint, splExts := spl
      feeEq := hfee, feeLe := hfl, rOwner := r1, rData := r2, rMint := r3, rThawed := r4
      rFee := ?_, rRoom := by omega }
  · intro hs
    rcases hwe with ⟨_, h⟩ | ⟨h, _⟩
    · exact h
    · rw [hs] at h; exact absurd h spl_ne_2022
  · rcases r6 with h | h
    · exact .inl (hf0 h)
    · exact .inr h

/-- **C18** In every history in which no permanent delegate of the unwrapped mint acts, for an unwrapped
mint without close authority: whoever may spend an unfrozen wrapped token account (its owner, its
delegate within the allowance, or a multisig) can unwrap any positive part of its balance with the
instruction built by `unwrap`, as long as the recipient can receive, the unwrapped mint's authority
has not frozen the escrow and the token program does not veto. Token Wrap itself never blocks it,
and the escrow always has enough: tokens, and for wrapped SOL also the lamports. -/
theorem always_redeemable {env : Env} {p : Pubkey} {dec : UInt8} {holder rcp tauth : Pubkey}
    {members : List Pubkey} {t : TokenAcct} {amount : UInt64} {m : Mint}
    (h0 : Fresh s L0) (hm : StableMint p s.u dec L0) (h : History cr (PDIdle cr s.u) L0 trace L)
    (hcr : env.cr = cr) (hid : env.programId = crateId)
    (hrej : ∀ p ix sg L, env.reject p ix sg L = none)
    (hold : HoldsWrapped s L holder t) (thawed : t.frozen = false)
    (pos : amount ≠ 0) (enough : amount.toNat ≤ t.amount)
    (spend : CanSpend t none tauth amount.toNat) (approval : BuiltApproval s.wp L tauth members)
    (umint : (L s.u).data = .mint m) (spl : p = splTokenId → m.exts = []) (fees : FeesValid m)
    (usable : EscrowUsable L (s.escrowFor p))
    (recv : CanReceive L p s.u rcp m amount.toNat) :
    ∃ L', processInstruction env
      (Build.unwrap crateId (s.escrowFor p) rcp s.A s.u s.wp p holder s.W tauth members amount).accounts
      (Build.unwrap crateId (s.escrowFor p) rcp s.A s.u s.wp p holder s.W tauth members amount).data L =
        .ok L' := by
  have hpl := (h.stable h0.funds hm).2
  exact (h.invB h0).redeemable (h.funds h0.funds).all hpl.1 hpl.2.1 (always_backed_stable h0 hm h) hcr
    hid hrej hold thawed pos enough spend approval umint spl fees usable recv

/-- **C18** The same in every history whatsoever, if the unwrapped mint starts without permanent
delegate and close authority (every SPL Token mint). -/
theorem always_redeemable_plain {env : Env} {p : Pubkey} {dec : UInt8} {holder rcp tauth : Pubkey}
    {members : List Pubkey} {t : TokenAcct} {amount : UInt64} {m : Mint}
    (h0 : Fresh s L0) (hm : PlainMint p s.u dec L0) (h : History cr ok L0 trace L)
    (hcr : env.cr = cr) (hid : env.programId = crateId)
    (hrej : ∀ p ix sg L, env.reject p ix sg L = none)
    (hold : HoldsWrapped s L holder t) (thawed : t.frozen = false)
    (pos : amount ≠ 0) (enough : amount.toNat ≤ t.amount)
    (spend : CanSpend t none tauth amount.toNat) (approval : BuiltApproval s.wp L tauth members)
    (umint : (L s.u).data = .mint m) (spl : p = splTokenId → m.exts = []) (fees : FeesValid m)
    (usable : EscrowUsable L (s.escrowFor p))
    (recv : CanReceive L p s.u rcp m amount.toNat) :
    ∃ L', processInstruction env
      (Build.unwrap crateId (s.escrowFor p) rcp s.A s.u s.wp p holder s.W tauth members amount).accounts
      (Build.unwrap crateId (s.escrowFor p) rcp s.A s.u s.wp p holder s.W tauth members amount).data L =
        .ok L' :=
  always_redeemable h0 hm.stable (h.plain h0.funds hm).1 hcr hid hrej hold thawed pos enough spend
    approval umint spl fees usable recv

/-! ## C34: the canonical pointer -/

/-- The program id written by the latest SetCanonicalPointer naming `P` in a trace (latest first). -/
def lastPointer (P : Pubkey) : List Act → Option Pubkey
  | [] => none
  | .tokenWrap _ accounts data :: rest =>
    match TokenWrapInstruction.unpack data with
    | .ok (.setCanonicalPointer p) =>
      if (accounts[1]?).map Meta.key = some P then some p else lastPointer P rest
    | _ => lastPointer P rest
  | _ :: rest => lastPointer P rest

theorem lastPointer_not {P : Pubkey} (h : ∀ p, ¬ IsPointerTo P p act) :
    lastPointer P (act :: trace) = lastPointer P trace := by
  cases act with
  | tokenWrap env accounts data =>
    simp only [lastPointer]
    split
    · rename_i p hp
      rw [if_neg]
      intro hk
      have := (unpack_eq_ok_iff data _).1 hp
      exact h p ⟨env, accounts, by rw [this], hk⟩
    · rfl
  | _ => rfl

theorem Reserved.pointer_noSign {u P : Pubkey} (r : Reserved cr (.canonicalPointer u) P) :
    ¬ CanSign cr P := r.not_canSign (.inl rfl) (by intro _ _ _ h; cases h)

theorem Reserved.pointer_step {u P : Pubkey} (r : Reserved cr (.canonicalPointer u) P)
    (hold : Held L P) (h : Step cr ok act L L') :
    (Kept L L' P ∧ ∀ p, ¬ IsPointerTo P p act) ∨
    ∃ env accounts p a m,
      act = .tokenWrap env accounts (TokenWrapInstruction.setCanonicalPointer p).pack ∧
      env.programId = crateId ∧ (∀ n, 0 < env.rentMin n) ∧ a.pointer.key = P ∧
      a.unwrappedMint.key = u ∧
      PointerEffect env accounts p L L' a m := by
  have hk := hold.step r.pointer_noSign (Q := fun _ => True) (fun _ _ => trivial)
    (fun _ _ _ => trivial) (fun L _ wallet mint prog ha _ => by
      have := r.unique (j := .ata wallet mint prog) ha; cases this) trivial h
  cases hk with
  | kept hk hn => exact .inl ⟨hk, hn⟩
  | mint u' p' ha => have := r.unique (j := .wrappedMint u' p') ha; cases this
  | backpointer w' ha => have := r.unique (j := .backpointer w') ha; cases this
  | metaplex w' ha => have := r.unique (j := .metaplex w') ha; cases this
  | pointer env accounts p a m hcr hact hid hr e hk =>
    have := e.pointer
    rw [hcr, hk] at this
    have := r.unique (j := .canonicalPointer _) this
    injection this with hu
    exact .inr ⟨env, accounts, p, a, m, hact, hid, hr, hk, hu, e⟩

theorem pointer_holds_last_write' {u P : Pubkey} (r : Reserved cr (.canonicalPointer u) P)
    (h0 : Blank L0 P) (h : History cr ok L0 trace L) :
    match lastPointer P trace with
    | none => Blank L P
    | some p => (L P).owner = crateId ∧ (L P).data = .bytes p.bytes ∧ 0 < (L P).lamports := by
  induction h with
  | start => exact h0
  | step _ _ hs ih =>
    rename_i trace act L L' _ _
    have hold : Held L P := by
      cases hl : lastPointer P trace with
      | none => rw [hl] at ih; exact .inl ih
      | some p => rw [hl] at ih; exact .inr ⟨ih.1, ih.2.2⟩
    rcases r.pointer_step hold hs with ⟨hk, hn⟩ | ⟨env, accounts, p, a, m, rfl, hid, hpos, hP, hu, e⟩
    · rw [lastPointer_not hn]
      cases hl : lastPointer P trace with
      | none => rw [hl] at ih; exact Blank.kept ih hk
      | some p =>
        rw [hl] at ih
        exact ⟨hk.1.trans ih.1, hk.2.trans ih.2.1, Nat.lt_of_lt_of_le ih.2.2 (hk.lam ih.1)⟩
    · have hl : lastPointer P (.tokenWrap env accounts
          (TokenWrapInstruction.setCanonicalPointer p).pack :: trace) = some p := by
        simp only [lastPointer, unpack_pack]
        obtain ⟨rest, hr⟩ := e.accounts_eq
        rw [if_pos (by rw [hr]; simp [hP])]
      rw [hl]
      dsimp only
      subst hP
      rcases e.final with ⟨⟨_, _, hl⟩, rfl⟩ | ⟨_, ho, rfl⟩ | ⟨hd, rfl⟩
      · rw [Ledger.set_same]; exact ⟨hid, rfl, Nat.lt_of_lt_of_le (hpos 32) hl⟩
      · rw [Ledger.set_same]
        rcases hold with h | h
        · rw [hid, h.1] at ho; exact absurd ho (by decide)
        · exact ⟨hid, rfl, h.2⟩
      · rcases hold with h | h
        · exfalso
          rw [h.2] at hd; injection hd with hd
          have := p.len; rw [← hd] at this; simp at this
        · exact ⟨h.1, hd, h.2⟩

/-- **C34** In every history (no condition at all), the pointer account of a mint is absent if
SetCanonicalPointer never succeeded for it, and otherwise holds, owned by Token Wrap, exactly the
program id of the latest successful SetCanonicalPointer. -/
theorem pointer_holds_last_write {u P : Pubkey} (r : Reserved cr (.canonicalPointer u) P)
    (h0 : Blank L0 P) (h : History cr ok L0 trace L) :
    match lastPointer P trace with
    | none => Blank L P
    | some p => (L P).owner = crateId ∧ (L P).data = .bytes p.bytes := by
  have := pointer_holds_last_write' r h0 h
  cases hl : lastPointer P trace with
  | none => rw [hl] at this; exact this
  | some p => rw [hl] at this; exact ⟨this.1, this.2.1⟩

/-- **C34** A step that changes the pointer account (other than its lamports) is a
SetCanonicalPointer for this mint, signed by the mint's current mint authority. -/
theorem pointer_changes_only_by_authority {u P : Pubkey} (r : Reserved cr (.canonicalPointer u) P)
    (h0 : Blank L0 P) (h : History cr ok L0 trace L) (hs : Step cr ok act L L')
    (hc : ¬ ((L' P).owner = (L P).owner ∧ (L' P).data = (L P).data)) :
    ∃ env accounts p m auth,
      act = .tokenWrap env accounts (TokenWrapInstruction.setCanonicalPointer p).pack ∧
      (L u).data = .mint m ∧ m.mintAuthority = some auth ∧ Signs accounts auth ∧
      (L' P).data = .bytes p.bytes := by
  have hp := pointer_holds_last_write' r h0 h
  have hold : Held L P := by
    cases hl : lastPointer P trace with
    | none => rw [hl] at hp; exact .inl hp
    | some p => rw [hl] at hp; exact .inr ⟨hp.1, hp.2.2⟩
  rcases r.pointer_step hold hs with ⟨hk, _⟩ | ⟨env, accounts, p, a, m, rfl, hid, _, hP, hu, e⟩
  · exact absurd ⟨hk.1, hk.2⟩ hc
  · obtain ⟨rest, hr⟩ := e.accounts_eq
    refine ⟨env, accounts, p, m, a.mintAuthority.key, rfl, by rw [← hu]; exact e.uData, e.auth,
      ⟨a.mintAuthority, by rw [hr]; simp, rfl, e.signer⟩, ?_⟩
    subst hP
    rcases e.final with ⟨_, rfl⟩ | ⟨_, _, rfl⟩ | ⟨hd, rfl⟩
    · rw [Ledger.set_same]
    · rw [Ledger.set_same]
    · exact hd

end

end TokenWrap
