import Verif.Props.Descent
import Verif.Props.Snapshot
/-!
# C109: without a freeze authority nobody can ever freeze

If a mint can never have a freeze authority, then neither can its wrapped mint, nor the wrapped mint of
that, and so on up a tower of wrappings; no account of wrapped tokens of any layer is ever frozen, so no
escrow of an upper layer is, and the way down the tower is always open.
-/

set_option linter.unusedSimpArgs false

namespace TokenWrap

section
variable {cr : Crypto} {s s' s0 z : Setting cr} {ok : Act → Ledger → Prop} {L0 L L1 L2 L' : Ledger}
  {trace : List Act} {act : Act} {env : Env} {p u : Pubkey} {dec : UInt8}

/-! ## Specification -/

/-- If there is a mint at `k`, it has no freeze authority. -/
def NoFreezeAt (L : Ledger) (k : Pubkey) : Prop :=
  ∀ m, (L k).data = .mint m → m.freezeAuthority = none

/-- In no history from `L0` does the mint at `k` ever have a freeze authority. -/
def NeverFreezer (cr : Crypto) (L0 : Ledger) (k : Pubkey) : Prop :=
  ∀ trace L, History cr (fun _ _ => True) L0 trace L → NoFreezeAt L k

/-! ## An existing mint -/

theorem NoFreezeAt.idle {S : Pubkey → Prop} {k : Pubkey} (h : NoFreezeAt L k) : FreezerIdle S L k := by
  intro m f h1 h2
  rw [h m h1] at h2; cases h2

theorem noFreezeAt_kept {m : Mint} {k : Pubkey} (h : FreezerKept L' k m)
    (hn : m.freezeAuthority = none) : NoFreezeAt L' k := by
  obtain ⟨m', h1, h2⟩ := h
  intro x hx
  rw [← Data.mint.inj (h1.symm.trans hx), h2, hn]

/-- A mint that cannot be closed and has no freeze authority. -/
def Unfreezable (p u : Pubkey) (dec : UInt8) (L : Ledger) : Prop :=
  StableFunds p u dec L ∧ NoFreezeAt L u

theorem Unfreezable.mint (h : Unfreezable p u dec L) :
    ∃ m, (L u).data = .mint m ∧ m.closeAuthority? = none ∧ m.freezeAuthority = none ∧
      isTokenProgram (L u).owner = true := by
  obtain ⟨hp, ho, m, hm, _⟩ := id h.1.1
  refine ⟨m, hm, (stableMint_iff.1 h.1.1).noCA hm, h.2 m hm, ?_⟩
  rw [ho]
  rcases hp with rfl | rfl <;> simp [isTokenProgram]

theorem Unfreezable.baseStep (h : Unfreezable p u dec L) (hs : BaseStep cr act L L') :
    Unfreezable p u dec L' := by
  refine ⟨h.1.baseStep hs, ?_⟩
  obtain ⟨m, hm, hc, hn, ho⟩ := h.mint
  rcases baseStep_mint hs h.1.2.all ho hm with hk | he
  · exact noFreezeAt_kept (.of_kept hm hk) hn
  · exact noFreezeAt_kept (he.freezer hm hc h.2.idle) hn

theorem Unfreezable.wrapTransfer {accounts : List Meta} {a : WrapAccounts} {m : Mint}
    {amount fee : Nat} (h : Unfreezable p u dec L) (hr : ∀ n, 0 < env.rentMin n)
    (hw : TokenWrap.wrapTransfer env accounts a m amount fee L = .ok L') : Unfreezable p u dec L' := by
  refine ⟨h.1.wrapTransfer hr hw, ?_⟩
  obtain ⟨m, hm, hc, hn, _⟩ := h.mint
  exact noFreezeAt_kept (Eff.freezer (S := fun _ => True) (eff_wrapTransfer (fun _ _ => trivial) hw) hm hc
    h.2.idle) hn

theorem Unfreezable.run (h : Unfreezable p u dec L) (hr : Run cr ok L L') : Unfreezable p u dec L' := by
  induction hr with
  | refl => exact h
  | step _ h2 _ ih => exact ih (h.baseStep h2)

theorem Unfreezable.step (h : Unfreezable p u dec L) (hs : Step cr ok act L L') :
    Unfreezable p u dec L' := by
  refine ⟨h.1.step hs, ?_⟩
  cases hs with
  | base hb => exact (h.baseStep hb).2
  | tokenWrap hcr hid hsg hi =>
    obtain ⟨m, hm, _, hn, ho⟩ := h.mint
    obtain ⟨_, m', h1, _, _, h2⟩ := instr_mintUpTo hid ho hm hi
    intro x hx
    rw [← Data.mint.inj (h1.symm.trans hx), h2.1, hn]
  | wrapHooked hcr hid hsg hhook hw hr =>
    obtain ⟨a, _, L1, pda, c⟩ := processWrapHooked_inv hw
    obtain ⟨w, r, mt⟩ := mintTo_cpi c.mintTo
    obtain ⟨m, hm, _, hn, _⟩ := ((h.wrapTransfer hr c.transfer).run (hhook L1)).mint
    obtain ⟨_, m', h1, _, _, h2⟩ := mt.mint hm
    intro x hx
    rw [← Data.mint.inj (h1.symm.trans hx), h2.1, hn]

/-- **C109** A mint that starts without freeze authority, and that cannot be closed, never gets one,
whatever anybody does. -/
theorem never_freezer_unwrapped (hf : Funds L0) (hm : StableMint p u dec L0) (hn : NoFreezeAt L0 u) :
    NeverFreezer cr L0 u := by
  intro trace L h
  exact (h.strengthen (P := Unfreezable p u dec) (fun h1 h2 => h1.baseStep h2)
    (fun h1 hr h2 => h1.wrapTransfer hr h2) (fun h1 h2 => h1.step h2) ⟨⟨hm, hf⟩, hn⟩).2.2

/-! ## The wrapped mint -/

/-- The invariant of a pair, and no freeze authority of the wrapped mint. -/
structure Free (s : Setting cr) (L : Ledger) : Prop where
  inv : Inv .off s L
  funds : Funds L
  noFreeze : NoFreezeAt L s.W

theorem Free.blank (h : Free s L) (hb : Kept L L' s.W) (hi : Inv .off s L') (hf : Funds L') : Free s L' :=
  ⟨hi, hf, by intro m hm; rw [hb.2] at hm; exact h.noFreeze m hm⟩

theorem Free.mint {m : Mint} (hm : (L s.W).data = .mint m) (h : Free s L)
    (hk : FreezerKept L' s.W m) (hi : Inv .off s L') (hf : Funds L') : Free s L' :=
  ⟨hi, hf, noFreezeAt_kept hk (h.noFreeze m hm)⟩

theorem Free.baseStep (h : Free s L) (hb : BaseStep cr act L L') : Free s L' := by
  have hi := (baseStep_safe h.inv (fun h : False => h.elim) h.funds.all hb).inv
  have hf := h.funds.baseStep hb
  rcases h.inv.w with ⟨hw, _⟩ | hw
  · refine h.blank (Held.baseStep (k := s.W) (.inl hw) s.W_noSign ?_ hb) hi hf
    intro wallet mint prog ha
    have := s.rW.unique (j := .ata wallet mint prog) ha
    cases this
  · obtain ⟨m, hm, _⟩ := hw.mint
    exact h.mint hm (freezer_base hb h.inv h.funds.all h.noFreeze.idle hm) hi hf

theorem Free.wrapTransfer {accounts : List Meta} {a : WrapAccounts} {m : Mint}
    {amount fee : Nat} (h : Free s L) (hr : ∀ n, 0 < env.rentMin n)
    (hs : ∀ k, Signs accounts k → CanSign cr k)
    (hw : TokenWrap.wrapTransfer env accounts a m amount fee L = .ok L') : Free s L' := by
  have hi := (wrapTransfer_safe (S := fun _ => True) h.inv (fun h : False => h.elim)
      (fun _ _ => trivial) hs hw).inv
  have hf := h.funds.wrapTransfer hr hw
  rcases h.inv.w with ⟨hb, _⟩ | hx
  · exact h.blank (Held.wrapTransfer (k := s.W) (.inl hb) hw) hi hf
  · obtain ⟨m, hm, _⟩ := hx.mint
    exact h.mint hm (Eff.freezer (S := fun _ => True) (eff_wrapTransfer (fun _ _ => trivial) hw) hm
      (wrappedExts_noClose (h.inv.wMint hm).2) h.noFreeze.idle) hi hf

theorem Free.known (h : Free s L) (hs : Step cr ok act L L') :
    Step cr (fun act L => ok act L ∧ Free s L) act L L' :=
  hs.strengthenS (P := Free s) (fun h1 h2 => h1.baseStep h2)
    (fun h1 hr hsg h2 => h1.wrapTransfer hr hsg h2) h

theorem Free.step (h : Free s L) (hu : NoFreezeAt L s.u) (hs : Step cr ok act L L') : Free s L' := by
  have hx := step_eff' (ok := fun _ _ => True) (fun _ _ _ (h : False) => h.elim) h.inv h.funds trivial
    (hs.weaken fun _ _ _ => trivial)
  have hi := hx.inv
  have hf := h.funds.step hs
  rcases h.inv.w with ⟨hb, _⟩ | hw
  · have hold : Held L s.W := .inl hb
    cases hold.step s.W_noSign (Q := fun _ => True) (fun _ _ => trivial) (fun _ _ _ => trivial)
        (fun L _ wallet mint prog ha _ => by
          have := s.rW.unique (j := .ata wallet mint prog) ha; cases this) trivial hs with
    | kept hk => exact h.blank hk hi hf
    | mint u' p' ha m0 w0 um wd hd hfr hsup _ hact =>
      have := s.rW.unique (j := .wrappedMint u' p') ha
      injection this with hu' _
      subst hu'
      refine ⟨hi, hf, ?_⟩
      intro m hm
      rw [← Data.mint.inj (wd.symm.trans hm), hfr]
      exact hu m0 um
    | backpointer w' ha => have := s.rW.unique (j := .backpointer w') ha; cases this
    | metaplex w' ha => have := s.rW.unique (j := .metaplex w') ha; cases this
    | pointer env accounts p' a m' hcr _ _ _ e hk =>
      have := e.pointer
      rw [hcr, hk] at this
      have := s.rW.unique (j := .canonicalPointer _) this
      cases this
  · obtain ⟨m, hm, _⟩ := hw.mint
    exact h.mint hm (freezer_step (fun _ _ h => ⟨h.2.inv, h.2.funds.all, h.2.noFreeze.idle⟩) (h.known hs)
      h.inv h.funds.all h.noFreeze.idle hm) hi hf

theorem History.free (h0 : Fresh s L0) (hn : NeverFreezer cr L0 s.u) (h : History cr ok L0 trace L) :
    History cr (fun act L => ok act L ∧ Free s L) L0 trace L ∧ Free s L := by
  induction h with
  | start =>
    exact ⟨.start, h0.inv, h0.funds, by intro m hm; rw [h0.W.2] at hm; cases hm⟩
  | step hprev hok hs ih =>
    exact ⟨.step ih.1 ⟨hok, ih.2⟩ (ih.2.known hs),
      ih.2.step (hn _ _ (hprev.weaken fun _ _ _ => trivial)) hs⟩

/-- **C109** The wrapped mint of a mint that never has a freeze authority never has one either. -/
theorem never_freezer_wrapped (h0 : Fresh s L0) (hn : NeverFreezer cr L0 s.u) :
    NeverFreezer cr L0 s.W :=
  fun _ _ h => (h.free h0 hn).2.noFreeze

/-- **C109** ... and no account of its tokens is ever frozen, whoever signs whatever. -/
theorem never_frozen_wrapped {k : Pubkey} {t : TokenAcct} (h0 : Fresh s L0)
    (hn : NeverFreezer cr L0 s.u) (h : History cr ok L0 trace L)
    (ho : (L k).owner = s.wp) (hd : (L k).data = .token t) (hm : t.mint = s.W) : t.frozen = false :=
  never_frozen h0 ((h.free h0 hn).1.weaken fun _ _ h => h.2.noFreeze.idle) ho hd hm

/-! ## Towers -/

/-- **C109** No mint of any layer of a tower over such a mint ever has a freeze authority. -/
theorem never_freezer_tower {i : Nat} (hl : Level L0 s0 i s) (hn : NeverFreezer cr L0 s0.u) :
    NeverFreezer cr L0 s.u ∧ NeverFreezer cr L0 s.W := by
  induction hl with
  | zero h0 => exact ⟨hn, never_freezer_wrapped h0 hn⟩
  | succ _ h0 hu ih =>
    have := ih.2
    rw [← hu] at this
    exact ⟨this, never_freezer_wrapped h0 this⟩

/-- **C109** No account of tokens of any layer is ever frozen. -/
theorem never_frozen_tower {i : Nat} {k : Pubkey} {t : TokenAcct} (hl : Level L0 s0 i s)
    (hn : NeverFreezer cr L0 s0.u) (h : History cr ok L0 trace L) (hold : HoldsWrapped s L k t) :
    t.frozen = false :=
  never_frozen_wrapped hl.fresh (never_freezer_tower hl hn).1 h hold.1 hold.2.1 hold.2.2

/-- A descent (see `Descent`), without saying of any account that it is not frozen, except of the
escrow and the recipient of the bottom mint. -/
inductive Way (L0 L : Ledger) (s0 : Setting cr) (p rcp : Pubkey) (m : Mint) (n : UInt64) :
    Nat → Setting cr → Pubkey → List (Setting cr) → List Call → Prop
  | last {k auth : Pubkey} {members : List Pubkey} {t : TokenAcct} (fresh : Fresh s0 L0)
      (hold : HoldsWrapped s0 L k t) (spend : CanSpend t none auth n.toNat)
      (approval : BuiltApproval s0.wp L auth members)
      (sign : ∀ x, x = auth ∨ x ∈ members → CanSign cr x)
      (usable : EscrowUsable L (s0.escrowFor p)) (recv : CanReceive L p s0.u rcp m n.toNat)
      (notEscrow : rcp ≠ s0.escrowFor p) :
      Way L0 L s0 p rcp m n 0 s0 k [s0] [downFrom s0 p k rcp auth members n]
  | down {i : Nat} {s s' : Setting cr} {k k' auth : Pubkey} {members : List Pubkey} {t : TokenAcct}
      {ls : List (Setting cr)} {is : List Call} (below : Way L0 L s0 p rcp m n i s k ls is)
      (fresh : Fresh s' L0) (hu : s'.u = s.W)
      (hold : HoldsWrapped s' L k' t) (spend : CanSpend t none auth n.toNat)
      (approval : BuiltApproval s'.wp L auth members)
      (sign : ∀ x, x = auth ∨ x ∈ members → CanSign cr x) (notEscrow : k ≠ s'.escrowFor s.wp) :
      Way L0 L s0 p rcp m n (i + 1) s' k' (s' :: ls) (downFrom s' s.wp k' k auth members n :: is)

theorem Way.level {rcp k : Pubkey} {m : Mint} {n : UInt64} {i : Nat} {ls : List (Setting cr)}
    {is : List Call} (h : Way L0 L s0 p rcp m n i s k ls is) : Level L0 s0 i s := by
  induction h with
  | last fresh => exact .zero fresh
  | down _ fresh hu _ _ _ _ _ ih => exact .succ ih fresh hu

theorem Way.descent {rcp k : Pubkey} {m : Mint} {n : UInt64} {i : Nat} {ls : List (Setting cr)}
    {is : List Call} (hn : NeverFreezer cr L0 s0.u) (hist : History cr ok L0 trace L)
    (h : Way L0 L s0 p rcp m n i s k ls is) : Descent L0 L s0 p rcp m n i s k ls is := by
  induction h with
  | last fresh hold spend approval sign usable recv notEscrow =>
    exact .last fresh ⟨⟨_, hold, never_frozen_tower (.zero fresh) hn hist hold, spend⟩, approval, sign⟩
      usable recv notEscrow
  | @down i s s' k k' auth members t ls is below fresh hu hold spend approval sign notEscrow ih =>
    have hl := below.level
    refine .down ih fresh hu
      ⟨⟨_, hold, never_frozen_tower (.succ hl fresh hu) hn hist hold, spend⟩, approval, sign⟩ ?_ notEscrow
    intro e he
    have hi := hist.inv' fresh
    have key : EscrowOk s'.u s'.A s.wp (s'.escrowFor s.wp) L := by
      unfold Setting.escrowFor
      rcases s.wpOk with h | h <;> rw [h]
      · rw [if_pos rfl]; exact hi.es
      · rw [if_neg (Ne.symm spl_ne_2022)]; exact hi.et
    rcases key with hb | ⟨ho, y, hy, hym, _⟩
    · rw [hb.2] at he; cases he
    · obtain rfl := Data.token.inj (he.symm.trans hy)
      exact never_frozen_tower hl hn hist ⟨ho, hy, hym.trans hu⟩

/-- **C109** The way down a tower over a mint without permanent delegate, close authority and freeze
authority cannot be blocked by freezing: nothing need be assumed of any account of wrapped tokens but
who may spend them. -/
theorem redeemable_without_freezer {rcp k : Pubkey} {m : Mint} {n : UInt64} {i : Nat}
    {ls : List (Setting cr)} {is : List Call} {t : TokenAcct} (hm : PlainMint p s0.u dec L0)
    (hn : NoFreezeAt L0 s0.u)
    (hd : Way L0 L s0 p rcp m n i s k ls is) (hist : History cr ok L0 trace L)
    (hcr : env.cr = cr) (hid : env.programId = crateId) (hr : ∀ n, 0 < env.rentMin n)
    (hrej : ∀ p ix sg L, env.reject p ix sg L = none)
    (umint : (L s0.u).data = .mint m) (spl : p = splTokenId → m.exts = []) (fees : FeesValid m)
    (hold : HoldsWrapped s L k t) (pos : n ≠ 0) (enough : n.toNat ≤ t.amount) :
    ∃ L' fee, runCalls env is L = .ok L' ∧ IsMintFee m env.epoch n.toNat fee ∧ fee ≤ n.toNat ∧
      balanceOf L' rcp = balanceOf L rcp + (n.toNat - fee) ∧
      balanceOf L' k + n.toNat = balanceOf L k ∧
      ∀ z ∈ ls, supplyOf L' z.W + n.toNat = supplyOf L z.W :=
  redeemable_from_any_height hm
    (hd.descent (never_freezer_unwrapped hd.level.fresh.funds hm.stable hn) hist) hist hcr hid hr hrej
    umint spl fees hold pos enough

end

/-! ## The concrete tower -/

namespace Example.Hist.Tower

theorem noFreeze : NoFreezeAt L0 s.u := by
  intro m hm
  have h : (L0 s.u).data = .mint (TokenWrap.Example.uMint []) := by decide +kernel
  rw [← Data.mint.inj (h.symm.trans hm)]; rfl

theorem never : NeverFreezer cr L0 s.u := never_freezer_unwrapped fresh.funds plain.stable noFreeze

theorem level3 : Level L0 s 1 s3 := .succ (.zero fresh) untouched3.fresh rfl

-- both wrapped mints exist and have no freeze authority, for ever
example : (∃ m, (T13 s3.W).data = .mint m) ∧ NeverFreezer cr L0 s.W ∧ NeverFreezer cr L0 s3.W :=
  ⟨⟨match (T13 W3).data with | .mint m => m | _ => TokenWrap.Example.uMint [], by decide +kernel⟩,
    (never_freezer_tower (.zero fresh) never).2, (never_freezer_tower level3 never).2⟩

example : (TokenWrap.Example.acct W3 user 400 []).frozen = false := by
  obtain ⟨_, h⟩ := hist13
  exact never_frozen_tower level3 never h (k := rcp3) ⟨by decide +kernel, by decide +kernel, rfl⟩

theorem way : Way L0 T13 s splTokenId src (TokenWrap.Example.uMint []) 150 1 s3 rcp3 [s3, s]
    [downFrom s3 token2022Id rcp3 rcp user [] 150, downFrom s splTokenId rcp src user [] 150] := by
  have d3 : (T13 rcp3).data = .token (TokenWrap.Example.acct W3 user 400 []) := by decide +kernel
  have d1 : (T13 rcp).data = .token (TokenWrap.Example.acct W user 600 []) := by decide +kernel
  have dE2 : (T13 (s.escrowFor splTokenId)).data = .token (TokenWrap.Example.acct u A 1000 []) := by
    decide +kernel
  have sign : ∀ x, x = user ∨ x ∈ ([] : List Pubkey) → CanSign cr x := by
    rintro x (rfl | hk)
    · exact .keypair (by decide +kernel)
    · cases hk
  refine .down (.last fresh ⟨by decide +kernel, d1, rfl⟩ (.inr (.inr ⟨by decide, rfl⟩))
      (not_ms (by decide +kernel)) sign ?_
      ⟨⟨TokenWrap.Example.acct u user 4000 [], by decide +kernel, by decide +kernel, rfl, rfl, by decide,
        .inl rfl⟩⟩ (by decide +kernel)) untouched3.fresh rfl
    ⟨by decide +kernel, d3, rfl⟩ (.inr (.inr ⟨by decide, rfl⟩))
      (not_ms (by decide +kernel)) sign (by decide +kernel)
  intro e he; rw [dE2] at he; cases he; rfl

example : ∃ L' fee, runCalls env
      [downFrom s3 token2022Id rcp3 rcp user [] 150, downFrom s splTokenId rcp src user [] 150] T13 = .ok L' ∧
    balanceOf L' src = balanceOf T13 src + (150 - fee) := by
  obtain ⟨_, h⟩ := hist13
  obtain ⟨L', fee, h1, _, _, h2, _⟩ := redeemable_without_freezer (env := env) plain noFreeze way h rfl rfl
    rent_pos (fun _ _ _ _ => rfl) (by decide +kernel) (fun _ => rfl) (by intro c hc; cases hc)
    ⟨by decide +kernel, (by decide +kernel : (T13 rcp3).data = .token (TokenWrap.Example.acct W3 user 400 [])),
      rfl⟩ (by decide) (by decide)
  exact ⟨L', fee, h1, h2⟩

end Example.Hist.Tower

end TokenWrap
