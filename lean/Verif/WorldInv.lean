import Mathlib.Algebra.Order.BigOperators.Group.Finset
import Verif.World
import Verif.TokenEffect
import Verif.WrapLemmas
import Verif.SyncSplLemmas
import Verif.Props.Pointer
/-! # The invariant of a wrapped mint, preserved by every step -/

set_option linter.unusedSimpArgs false

namespace TokenWrap

open scoped BigOperators

/-! ## Addresses -/

section addresses
variable {cr : Crypto}

theorem Reserved.unique {i j : PdaInput} {k : Pubkey} (h : Reserved cr i k)
    (hj : j.address cr = some k) : j = i := by
  obtain ⟨b, hb⟩ := PdaInput.address_spec hj
  obtain ⟨b', hb'⟩ := h.only _ (findProgramAddress_hash hb).1.symm
  exact (pda_preimage_injective (i := j) (j := i) (a := b) (b := b') hb').1

theorem pdaPreimage_program {s s' : List Bytes} {q q' : Pubkey}
    (h : pdaPreimage s q = pdaPreimage s' q') : q = q' := by
  unfold pdaPreimage at h
  have h1 := List.append_inj_left' h rfl
  have h2 := List.append_inj_right' h1 (by rw [q.len, q'.len])
  exact Pubkey.ext' h2

theorem Reserved.not_canSign {i : PdaInput} {k : Pubkey} (h : Reserved cr i k)
    (hm : i.owner = crateId ∨ i.owner = ataProgramId)
    (hw : ∀ w m p, i = .ata w m p → ¬ CanSign cr w) : ¬ CanSign cr k := by
  intro hc
  cases hc with
  | keypair hk => rw [pda_off_curve h.address] at hk; cases hk
  | pda seeds hq hq' hk =>
    obtain ⟨b, hb⟩ := h.only _ (createProgramAddress_spec hk).1.symm
    have := pdaPreimage_program hb
    rcases hm with hm | hm
    · exact hq (this.trans hm)
    · exact hq' (this.trans hm)
  | withSeed pre hpre hk =>
    obtain ⟨b, hb⟩ := h.only _ hk
    apply hpre
    rw [hb]
    exact ⟨_, rfl⟩
  | ata hcw hk =>
    have := h.unique (j := .ata _ _ _) hk
    exact hw _ _ _ this.symm hcw

variable (s : Setting cr)

theorem Setting.A_noSign : ¬ CanSign cr s.A :=
  s.rA.not_canSign (.inl rfl) (by intro _ _ _ h; cases h)
theorem Setting.W_noSign : ¬ CanSign cr s.W :=
  s.rW.not_canSign (.inl rfl) (by intro _ _ _ h; cases h)
theorem Setting.B_noSign : ¬ CanSign cr s.B :=
  s.rB.not_canSign (.inl rfl) (by intro _ _ _ h; cases h)
theorem Setting.Es_noSign : ¬ CanSign cr s.Es :=
  s.rEs.not_canSign (.inr rfl) (by intro _ _ _ h; cases h; exact s.A_noSign)
theorem Setting.Et_noSign : ¬ CanSign cr s.Et :=
  s.rEt.not_canSign (.inr rfl) (by intro _ _ _ h; cases h; exact s.A_noSign)

/-- The five derived addresses. -/
def Setting.keys : List Pubkey := [s.W, s.A, s.B, s.Es, s.Et]

theorem Setting.noSign {k : Pubkey} (h : k ∈ s.keys) : ¬ CanSign cr k := by
  simp only [Setting.keys, List.mem_cons, List.not_mem_nil, or_false] at h
  rcases h with rfl | rfl | rfl | rfl | rfl
  · exact s.W_noSign
  · exact s.A_noSign
  · exact s.B_noSign
  · exact s.Es_noSign
  · exact s.Et_noSign

theorem Setting.W_ne_A : s.W ≠ s.A := by
  intro h; have := s.rA.unique (j := .wrappedMint s.u s.wp) (h ▸ s.rW.address); cases this
theorem Setting.W_ne_B : s.W ≠ s.B := by
  intro h; have := s.rB.unique (j := .wrappedMint s.u s.wp) (h ▸ s.rW.address); cases this
theorem Setting.W_ne_Es : s.W ≠ s.Es := by
  intro h; have := s.rEs.unique (j := .wrappedMint s.u s.wp) (h ▸ s.rW.address); cases this
theorem Setting.W_ne_Et : s.W ≠ s.Et := by
  intro h; have := s.rEt.unique (j := .wrappedMint s.u s.wp) (h ▸ s.rW.address); cases this
theorem Setting.A_ne_B : s.A ≠ s.B := by
  intro h; have := s.rB.unique (j := .authority s.W) (h ▸ s.rA.address); cases this
theorem Setting.A_ne_Es : s.A ≠ s.Es := by
  intro h; have := s.rEs.unique (j := .authority s.W) (h ▸ s.rA.address); cases this
theorem Setting.A_ne_Et : s.A ≠ s.Et := by
  intro h; have := s.rEt.unique (j := .authority s.W) (h ▸ s.rA.address); cases this
theorem Setting.B_ne_Es : s.B ≠ s.Es := by
  intro h; have := s.rEs.unique (j := .backpointer s.W) (h ▸ s.rB.address); cases this
theorem Setting.B_ne_Et : s.B ≠ s.Et := by
  intro h; have := s.rEt.unique (j := .backpointer s.W) (h ▸ s.rB.address); cases this
theorem Setting.Es_ne_Et : s.Es ≠ s.Et := by
  intro h
  have := s.rEt.unique (j := .ata s.A s.u splTokenId) (h ▸ s.rEs.address)
  injection this with _ _ h3
  exact spl_ne_2022 h3

/-- A derived address of some other derivation is none of the five. -/
theorem Setting.foreign {i : PdaInput} {k : Pubkey} (h : i.address cr = some k)
    (hi : i ≠ .wrappedMint s.u s.wp ∧ i ≠ .authority s.W ∧ i ≠ .backpointer s.W ∧
      i ≠ .ata s.A s.u splTokenId ∧ i ≠ .ata s.A s.u token2022Id) : k ∉ s.keys := by
  intro hk
  simp only [Setting.keys, List.mem_cons, List.not_mem_nil, or_false] at hk
  obtain ⟨h1, h2, h3, h4, h5⟩ := hi
  rcases hk with rfl | rfl | rfl | rfl | rfl
  · exact h1 (s.rW.unique h)
  · exact h2 (s.rA.unique h)
  · exact h3 (s.rB.unique h)
  · exact h4 (s.rEs.unique h)
  · exact h5 (s.rEt.unique h)

end addresses

/-! ## What is kept -/

theorem kept_closeOut {L : Ledger} {acct dst k : Pubkey} (h : acct ≠ dst) (hk : k ≠ acct) :
    Kept L (closeOut L acct dst) k := by
  by_cases h2 : k = dst
  · subst h2; constructor <;> rw [closeOut_dst L h]
    exact fun _ => Nat.le_add_right _ _
  · exact .of_eq (closeOut_other L hk h2)

theorem system_ne_crate : systemId ≠ crateId := by decide +kernel

theorem kept_mplCreate {env : Env} {signed : Pubkey → Bool} {metadata mint ma payer ua : Pubkey}
    {data : DataV2} {mut_ : Bool} {L L' : Ledger}
    (h : mplCreate env signed metadata mint ma payer ua data mut_ L = .ok L') {k : Pubkey}
    (hk : k ≠ metadata) : Kept L L' k := by
  obtain ⟨_, _, _, _, _, _, _, _, ⟨hp, _⟩, rfl⟩ := mplCreate_inv h
  by_cases hx : k = payer
  · subst hx
    refine .of_lamports ?_ ?_ (by rw [hp]; exact system_ne_crate)
    · rw [Ledger.set_ne _ _ hk]; simp
    · rw [Ledger.set_ne _ _ hk]; simp
  · exact .of_eq (by rw [Ledger.set_ne _ _ hk]; simp [Ledger.setLamports_apply, hx])

theorem kept_lamports {cr : Crypto} {L L' : Ledger} {k : Pubkey}
    (h : (L' k).owner = (L k).owner ∧ (L' k).data = (L k).data)
    (hl : (L' k).lamports < (L k).lamports → (L k).owner = systemId ∧ CanSign cr k) :
    Kept L L' k := by
  refine ⟨h.1, h.2, fun hc => ?_⟩
  by_cases hx : (L' k).lamports < (L k).lamports
  · have := (hl hx).1; rw [hc] at this; exact absurd this.symm system_ne_crate
  · omega

/-! ## The invariant -/

/-- System-owned and without data: nothing has been created at this address. -/
def Blank (L : Ledger) (k : Pubkey) : Prop := (L k).owner = systemId ∧ (L k).data = .bytes []

/-- `E` is not created yet, or is the escrow: a token account of mint `u` under program `p`, owned by
`A`, without delegate or separate close authority. -/
def EscrowOk (u A p E : Pubkey) (L : Ledger) : Prop :=
  Blank L E ∨ ((L E).owner = p ∧ ∃ t, (L E).data = .token t ∧ t.mint = u ∧ t.owner = A ∧
    t.delegate = none ∧ t.closeAuthority = none ∧ t.amount ≤ u64Max)

/-- The extensions a wrapped mint can have. -/
def WrappedExts (A W wp : Pubkey) (exts : List MintExt) : Prop :=
  (wp = splTokenId ∧ exts = []) ∨ (wp = token2022Id ∧ (exts = defaultExts A W ∨
    ∃ md, exts = defaultExts A W ++ [.tokenMetadata md] ∧ md.updateAuthority = some A ∧
      md.mint = W ∧ (md.additional.map (·.1)).Nodup))

/-- The wrapped mint and its backpointer exist and are as created. -/
structure WrappedOk {cr : Crypto} (s : Setting cr) (L : Ledger) : Prop where
  owner : (L s.W).owner = s.wp
  mint : ∃ m, (L s.W).data = .mint m ∧ m.mintAuthority = some s.A ∧ m.supply ≤ u64Max ∧
    WrappedExts s.A s.W s.wp m.exts
  bOwner : (L s.B).owner = crateId
  bData : (L s.B).data = .bytes s.u.bytes
  bLam : 0 < (L s.B).lamports

/-- Wrapped tokens (public and confidential) recorded at an address. -/
def claimOf (wp W : Pubkey) (L : Ledger) (k : Pubkey) : Nat :=
  if (L k).owner = wp then
    match (L k).data with
    | .token t => if t.mint = W then t.amount + t.confidential else 0
    | _ => 0
  else 0

/-- What is claimed about the backing: if `on`, the supply exceeds the escrowed tokens by at most
`debt`. -/
structure Bk where
  on : Prop
  debt : Nat

instance : CoeSort Bk Prop := ⟨Bk.on⟩

/-- Fully backed. -/
def Bk.full : Bk := ⟨True, 0⟩
/-- At most `d` tokens short. -/
def Bk.short (d : Nat) : Bk := ⟨True, d⟩
/-- No claim. -/
def Bk.off : Bk := ⟨False, 0⟩

/-- The invariant.  `bk` says what is claimed about the backing (this needs that no permanent delegate
of the unwrapped mint acts); everything else holds unconditionally. -/
structure Inv (bk : Bk) {cr : Crypto} (s : Setting cr) (L : Ledger) : Prop where
  a : Blank L s.A
  es : EscrowOk s.u s.A splTokenId s.Es L
  et : EscrowOk s.u s.A token2022Id s.Et L
  w : (Blank L s.W ∧ Blank L s.B) ∨ WrappedOk s L
  noNative : ∀ k t, (L k).owner = s.wp → (L k).data = .token t → t.mint = s.W → t.isNative = none
  claims : ∀ F : Finset Pubkey, ∑ k ∈ F, claimOf s.wp s.W L k ≤ supplyOf L s.W
  backed : bk → supplyOf L s.W ≤ balanceOf L s.Es + balanceOf L s.Et + bk.debt

/-- A token account with `lam` lamports is funded: it has some, and a native one covers its
rent-exempt reserve and its balance. -/
structure TokFunds (t : TokenAcct) (lam : Nat) : Prop where
  pos : 0 < lam
  reserve : ∀ r, t.isNative = some r → 0 < r ∧ r + t.amount ≤ lam
  native : t.isNative ≠ none ↔ t.mint ∈ nativeMints

/-- If the account is a token account or mint of a token program, it is funded. -/
structure AcctFunds (a : Account) : Prop where
  tok : ∀ t, isTokenProgram a.owner = true → a.data = .token t → TokFunds t a.lamports
  mint : ∀ m, isTokenProgram a.owner = true → a.data = .mint m → 0 < a.lamports

/-- Every token account and every mint is funded. -/
def AllFunded (L : Ledger) : Prop := ∀ k, AcctFunds (L k)

/-- No permanent delegate on the unwrapped mint. -/
def NoPD (u : Pubkey) (L : Ledger) : Prop :=
  ∀ m, (L u).data = .mint m → m.permanentDelegate? = none

/-- The keys `S` do not include (a quorum of) the permanent delegate of `u`. -/
def PDQuiet (u : Pubkey) (S : Pubkey → Prop) (L : Ledger) : Prop :=
  ∀ m pd, (L u).data = .mint m → m.permanentDelegate? = some pd → ¬ ApprovesBy L S pd

theorem NoPD.quiet {u : Pubkey} {S : Pubkey → Prop} {L : Ledger} (h : NoPD u L) : PDQuiet u S L := by
  intro m pd hm hp; rw [h m hm] at hp; cases hp

theorem NoPD.idle {cr : Crypto} {u : Pubkey} {act : Act} {L : Ledger} (h : NoPD u L) :
    PDIdle cr u act L := h.quiet

/-- What the wrapped mint keeps in every step but a metadata sync. -/
def MintKept (W : Pubkey) (L L' : Ledger) : Prop :=
  ∀ m, (L W).data = .mint m → ∃ m', (L' W).data = .mint m' ∧ m'.decimals = m.decimals ∧
    (m.freezeAuthority = none → m'.freezeAuthority = none) ∧ m'.exts = m.exts

theorem MintKept.trans {W : Pubkey} {L L1 L2 : Ledger} (h1 : MintKept W L L1)
    (h2 : MintKept W L1 L2) : MintKept W L L2 := by
  intro m hm
  obtain ⟨m1, hm1, d1, f1, e1⟩ := h1 m hm
  obtain ⟨m2, hm2, d2, f2, e2⟩ := h2 m1 hm1
  exact ⟨m2, hm2, d2.trans d1, fun h => f2 (f1 h), e2.trans e1⟩

theorem MintKept.of_kept {W : Pubkey} {L L' : Ledger} (h : Kept L L' W) : MintKept W L L' := by
  intro m hm; exact ⟨m, h.2.trans hm, rfl, fun h => h, rfl⟩

/-- What the wrapped mint keeps for ever. -/
def MintStays (W : Pubkey) (L L' : Ledger) : Prop :=
  ∀ m, (L W).data = .mint m → ∃ m', (L' W).data = .mint m' ∧ m'.decimals = m.decimals ∧
    (m.freezeAuthority = none → m'.freezeAuthority = none)

theorem MintStays.trans {W : Pubkey} {L L1 L2 : Ledger} (h1 : MintStays W L L1)
    (h2 : MintStays W L1 L2) : MintStays W L L2 := by
  intro m hm
  obtain ⟨m1, hm1, d1, f1⟩ := h1 m hm
  obtain ⟨m2, hm2, d2, f2⟩ := h2 m1 hm1
  exact ⟨m2, hm2, d2.trans d1, fun h => f2 (f1 h)⟩

theorem MintKept.stays {W : Pubkey} {L L' : Ledger} (h : MintKept W L L') : MintStays W L L' := by
  intro m hm
  obtain ⟨m', h1, h2, h3, _⟩ := h m hm
  exact ⟨m', h1, h2, h3⟩

/-- A step that neither creates wrapped supply nor takes from an escrow. -/
structure Safe (bk : Bk) {cr : Crypto} (s : Setting cr) (L L' : Ledger) : Prop where
  inv : Inv bk s L'
  es : bk → balanceOf L s.Es ≤ balanceOf L' s.Es
  et : bk → balanceOf L s.Et ≤ balanceOf L' s.Et
  supply : supplyOf L' s.W ≤ supplyOf L s.W
  kept : MintKept s.W L L'

theorem Safe.trans {bk : Bk} {cr : Crypto} {s : Setting cr} {L L1 L2 : Ledger} (h1 : Safe bk s L L1)
    (h2 : Safe bk s L1 L2) : Safe bk s L L2 :=
  ⟨h2.inv, fun b => (h1.es b).trans (h2.es b), fun b => (h1.et b).trans (h2.et b), h2.supply.trans h1.supply, h1.kept.trans h2.kept⟩

theorem Safe.rfl' {bk : Bk} {cr : Crypto} {s : Setting cr} {L : Ledger} (h : Inv bk s L) : Safe bk s L L :=
  ⟨h, fun _ => Nat.le_refl _, fun _ => Nat.le_refl _, Nat.le_refl _, .of_kept Kept.rfl'⟩

/-! ## Sums -/

theorem sum_step {f g : Pubkey → Nat} {a b : Nat} (S : Finset Pubkey)
    (hout : ∀ k, k ∉ S → g k ≤ f k)
    (hS : ∑ k ∈ S, g k + a ≤ ∑ k ∈ S, f k + b) (h : ∀ F : Finset Pubkey, ∑ k ∈ F, f k ≤ a) :
    ∀ F : Finset Pubkey, ∑ k ∈ F, g k ≤ b := by
  classical
  intro F
  have h1 : ∑ k ∈ F, g k ≤ ∑ k ∈ F ∪ S, g k :=
    Finset.sum_le_sum_of_subset Finset.subset_union_left
  have h2 : ∑ k ∈ F ∪ S, g k = ∑ k ∈ F \ S, g k + ∑ k ∈ S, g k := by
    rw [← Finset.sdiff_union_self_eq_union, Finset.sum_union Finset.sdiff_disjoint]
  have h3 : ∑ k ∈ F ∪ S, f k = ∑ k ∈ F \ S, f k + ∑ k ∈ S, f k := by
    rw [← Finset.sdiff_union_self_eq_union, Finset.sum_union Finset.sdiff_disjoint]
  have h4 : ∑ k ∈ F \ S, g k ≤ ∑ k ∈ F \ S, f k :=
    Finset.sum_le_sum fun k hk => hout k (Finset.mem_sdiff.1 hk).2
  have h5 := h (F ∪ S)
  omega

theorem sum_mono {f g : Pubkey → Nat} {a b : Nat} (hab : a ≤ b) (hle : ∀ k, g k ≤ f k)
    (h : ∀ F : Finset Pubkey, ∑ k ∈ F, f k ≤ a) : ∀ F : Finset Pubkey, ∑ k ∈ F, g k ≤ b :=
  sum_step ∅ (fun k _ => hle k) (by simpa using hab) h

theorem claimOf_kept {wp W : Pubkey} {L L' : Ledger} {k : Pubkey} (h : Kept L L' k) :
    claimOf wp W L' k = claimOf wp W L k := by
  unfold claimOf; rw [h.1, h.2]

theorem claimOf_token {wp W : Pubkey} {L : Ledger} {k : Pubkey} {t : TokenAcct}
    (ho : (L k).owner = wp) (hd : (L k).data = .token t) :
    claimOf wp W L k = if t.mint = W then t.amount + t.confidential else 0 := by
  unfold claimOf; rw [if_pos ho, hd]

theorem claimOf_nontoken {wp W : Pubkey} {L : Ledger} {k : Pubkey}
    (h : ∀ t, (L k).data ≠ .token t) : claimOf wp W L k = 0 := by
  unfold claimOf; split
  · split
    · rename_i t ht; exact absurd ht (h t)
    · rfl
  · rfl

theorem claimOf_owner {wp W : Pubkey} {L : Ledger} {k : Pubkey} (h : (L k).owner ≠ wp) :
    claimOf wp W L k = 0 := by unfold claimOf; rw [if_neg h]

theorem supplyOf_kept {L L' : Ledger} {k : Pubkey} (h : Kept L L' k) :
    supplyOf L' k = supplyOf L k := by unfold supplyOf; rw [h.2]

theorem balanceOf_kept {L L' : Ledger} {k : Pubkey} (h : Kept L L' k) :
    balanceOf L' k = balanceOf L k := by unfold balanceOf; rw [h.2]

theorem supplyOf_mint {L : Ledger} {k : Pubkey} {m : Mint} (h : (L k).data = .mint m) :
    supplyOf L k = m.supply := by unfold supplyOf; rw [h]

theorem balanceOf_token {L : Ledger} {k : Pubkey} {t : TokenAcct} (h : (L k).data = .token t) :
    balanceOf L k = t.amount := by unfold balanceOf; rw [h]

theorem EscrowOk.kept {u A p E : Pubkey} {L L' : Ledger} (h : EscrowOk u A p E L)
    (hk : Kept L L' E) : EscrowOk u A p E L' := by
  unfold EscrowOk Blank at *; rw [hk.1, hk.2]; exact h

theorem Blank.kept {L L' : Ledger} {k : Pubkey} (h : Blank L k) (hk : Kept L L' k) : Blank L' k :=
  ⟨hk.1.trans h.1, hk.2.trans h.2⟩

section
variable {bk : Bk} {cr : Crypto} {s : Setting cr} {L L' : Ledger}

theorem WrappedOk.kept (h : WrappedOk s L) (hw : Kept L L' s.W) (hb : Kept L L' s.B) :
    WrappedOk s L' :=
  ⟨hw.1.trans h.owner, by rw [hw.2]; exact h.mint, hb.1.trans h.bOwner, hb.2.trans h.bData,
    Nat.lt_of_lt_of_le h.bLam (hb.lam h.bOwner)⟩

theorem Inv.wKept (h : Inv bk s L) (hw : Kept L L' s.W) (hb : Kept L L' s.B) :
    (Blank L' s.W ∧ Blank L' s.B) ∨ WrappedOk s L' := by
  rcases h.w with ⟨h1, h2⟩ | h
  · exact .inl ⟨h1.kept hw, h2.kept hb⟩
  · exact .inr (h.kept hw hb)

/-- A step that leaves wrapped mint and backpointer alone, does not spoil the escrows and creates no
wrapped tokens. -/
theorem Inv.safe_of (h : Inv bk s L) (ha : Kept L L' s.A) (hw : Kept L L' s.W) (hb : Kept L L' s.B)
    (es : EscrowOk s.u s.A splTokenId s.Es L') (es' : bk → balanceOf L s.Es ≤ balanceOf L' s.Es)
    (et : EscrowOk s.u s.A token2022Id s.Et L') (et' : bk → balanceOf L s.Et ≤ balanceOf L' s.Et)
    (hold : ∀ k t, (L' k).owner = s.wp → (L' k).data = .token t → t.mint = s.W →
      ((L k).owner = s.wp ∧ (L k).data = .token t) ∨
      (t.isNative = none ∧ t.amount = 0 ∧ t.confidential = 0)) : Safe bk s L L' := by
  have hs := supplyOf_kept hw
  refine ⟨⟨h.a.kept ha, es, et, h.wKept hw hb, ?_, ?_, ?_⟩, es', et', by omega, .of_kept hw⟩
  · intro k t h1 h2 h3
    rcases hold k t h1 h2 h3 with ⟨h4, h5⟩ | h4
    · exact h.noNative k t h4 h5 h3
    · exact h4.1
  · rw [hs]
    refine sum_mono (Nat.le_refl _) ?_ h.claims
    intro k
    by_cases ho : (L' k).owner = s.wp
    · cases hd : (L' k).data with
      | token t =>
        rw [claimOf_token ho hd]
        split
        · rename_i hm
          rcases hold k t ho hd hm with ⟨h4, h5⟩ | h4
          · rw [claimOf_token h4 h5, if_pos hm]
          · omega
        · omega
      | _ => rw [claimOf_nontoken (by intro t; rw [hd]; simp)]; omega
    · rw [claimOf_owner ho]; omega
  · intro b; rw [hs]; have := h.backed b; have := es' b; have := et' b; omega

/-- A step outside the five addresses that creates no wrapped tokens. -/
theorem Inv.safe_foreign (h : Inv bk s L) (hk : ∀ k ∈ s.keys, Kept L L' k)
    (hold : ∀ k t, (L' k).owner = s.wp → (L' k).data = .token t → t.mint = s.W →
      ((L k).owner = s.wp ∧ (L k).data = .token t) ∨
      (t.isNative = none ∧ t.amount = 0 ∧ t.confidential = 0)) : Safe bk s L L' := by
  have k1 := hk s.A (by simp [Setting.keys])
  have k2 := hk s.W (by simp [Setting.keys])
  have k3 := hk s.B (by simp [Setting.keys])
  have k4 := hk s.Es (by simp [Setting.keys])
  have k5 := hk s.Et (by simp [Setting.keys])
  exact h.safe_of k1 k2 k3 (h.es.kept k4) (fun _ => by rw [balanceOf_kept k4]) (h.et.kept k5)
    (fun _ => by rw [balanceOf_kept k5]) hold

end

end TokenWrap
