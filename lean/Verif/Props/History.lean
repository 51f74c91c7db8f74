import Verif.WorldKeys
import Verif.Props.Liveness
/-!
# Properties of every history (C15-C18, C25-C29, C34, C46, C53)

The setting: one (unwrapped mint, wrapped token program) pair `s`, an initial ledger `L0` in which
nothing of the pair exists, and any finite history of instructions of Token Wrap (any accounts, any
data) and of all other programs.
-/

set_option linter.unusedSimpArgs false

namespace TokenWrap

open scoped BigOperators

/-- Nothing of the pair exists: its five derived addresses hold no account data (they may hold
lamports), and no token account of the wrapped mint exists.  `funds` is the chain's usual state: token
accounts and mints hold lamports, wrapped-SOL accounts cover their balance. -/
structure Fresh {cr : Crypto} (s : Setting cr) (L : Ledger) : Prop where
  W : Blank L s.W
  A : Blank L s.A
  B : Blank L s.B
  Es : Blank L s.Es
  Et : Blank L s.Et
  noHolder : ∀ k t, (L k).owner = s.wp → (L k).data = .token t → t.mint ≠ s.W
  funds : Funds L

section
variable {cr : Crypto} {s : Setting cr} {ok : Act → Ledger → Prop} {L0 L L' : Ledger} {trace : List Act}
  {act : Act}

theorem supplyOf_blank {k : Pubkey} (h : Blank L k) : supplyOf L k = 0 := by
  unfold supplyOf; rw [h.2]

theorem balanceOf_blank {k : Pubkey} (h : Blank L k) : balanceOf L k = 0 := by
  unfold balanceOf; rw [h.2]

theorem Fresh.inv {bk : Bk} (h : Fresh s L) : Inv bk s L := by
  refine ⟨h.A, .inl h.Es, .inl h.Et, .inl ⟨h.W, h.B⟩, ?_, ?_, ?_⟩
  · intro k t h1 h2 h3; exact absurd h3 (h.noHolder k t h1 h2)
  · intro F
    rw [Finset.sum_eq_zero]
    · exact Nat.zero_le _
    intro k _
    unfold claimOf
    split
    · rename_i ho
      split
      · rename_i t ht
        rw [if_neg (h.noHolder k t ho ht)]
      · rfl
    · rfl
  · intro _; rw [supplyOf_blank h.W]; exact Nat.zero_le _

theorem Step.funded (hf : Funds L) (hs : Step cr ok act L L') :
    Step cr (fun act L => ok act L ∧ Funds L) act L L' :=
  hs.strengthen (fun h1 h2 => h1.baseStep h2) (fun h1 hr h2 => h1.wrapTransfer hr h2) hf

/-- Funded accounts stay funded. -/
theorem History.funds (hf : Funds L0) (h : History cr ok L0 trace L) : Funds L := by
  induction h with
  | start => exact hf
  | step _ _ h2 ih => exact ih.step h2

theorem step_eff' {bk : Bk} (hok : ∀ act L, ok act L → bk → PDIdle cr s.u act L) (hi : Inv bk s L) (hf : Funds L)
    (h0 : ok act L) (hs : Step cr ok act L L') : StepEff bk s act L L' :=
  step_eff (ok := fun act L => ok act L ∧ Funds L) (fun act L h => ⟨hok act L h.1, h.2.all⟩) hi ⟨h0, hf⟩
    (hs.funded hf)

/-- The invariant holds in every history; its backing part needs that no permanent delegate of the
unwrapped mint acts. -/
theorem History.inv {bk : Bk} (hok : ∀ act L, ok act L → bk → PDIdle cr s.u act L) (h0 : Fresh s L0)
    (h : History cr ok L0 trace L) : Inv bk s L := by
  induction h with
  | start => exact h0.inv
  | step h h1 h2 ih => exact (step_eff' hok ih (h.funds h0.funds) h1 h2).inv

/-- With no condition on the unwrapped mint: everything but the backing. -/
theorem History.inv' (h0 : Fresh s L0) (h : History cr ok L0 trace L) : Inv .off s L :=
  h.inv (fun _ _ _ h => h.elim) h0

/-- If no permanent delegate acts: everything. -/
theorem History.invB (h0 : Fresh s L0) (h : History cr (PDIdle cr s.u) L0 trace L) : Inv .full s L :=
  h.inv (fun _ _ h _ => h) h0

/-- The effect of the next step, with no condition on the unwrapped mint. -/
theorem History.eff' (h0 : Fresh s L0) (h : History cr ok L0 trace L) (hk : ok act L)
    (hs : Step cr ok act L L') : StepEff .off s act L L' :=
  step_eff' (fun _ _ _ h => h.elim) (h.inv' h0) (h.funds h0.funds) hk hs

/-- The supply is short of the escrows by at most itself. -/
theorem Inv.short {bk : Bk} (h : Inv bk s L) : Inv (.short (supplyOf L s.W)) s L :=
  ⟨h.a, h.es, h.et, h.w, h.noNative, h.claims, fun _ => Nat.le_add_left _ _⟩

/-- The effect of the next step, if no permanent delegate acts in that step. -/
theorem History.effB (h0 : Fresh s L0) (h : History cr ok L0 trace L) (hk : PDIdle cr s.u act L)
    (hs : Step cr (PDIdle cr s.u) act L L') : StepEff (.short (supplyOf L s.W)) s act L L' :=
  step_eff' (fun _ _ h _ => h) (h.inv' h0).short (h.funds h0.funds) hk hs

/-- Tokens held in the pair's escrows. -/
def escrowed (s : Setting cr) (L : Ledger) : Nat := balanceOf L s.Es + balanceOf L s.Et

/-! ## C15: full backing -/

/-- **C15** As long as no permanent delegate of the unwrapped mint acts (in particular if there is
none), the wrapped supply never exceeds the tokens in escrow. -/
theorem always_backed (h0 : Fresh s L0) (h : History cr (PDIdle cr s.u) L0 trace L) :
    supplyOf L s.W ≤ balanceOf L s.Es + balanceOf L s.Et :=
  (h.invB h0).backed trivial

/-- A plain unwrapped mint keeps the no-permanent-delegate condition true by itself. -/
theorem History.plain {p : Pubkey} {dec : UInt8} (hf : Funds L0) (hm : PlainMint p s.u dec L0)
    (h : History cr ok L0 trace L) :
    History cr (PDIdle cr s.u) L0 trace L ∧ PlainMint p s.u dec L := by
  have := h.strengthen (P := PlainFunds p s.u dec) (fun h1 h2 => h1.baseStep h2)
    (fun h1 hr h2 => h1.wrapTransfer hr h2) (fun h1 h2 => h1.step h2) ⟨hm, hf⟩
  exact ⟨this.1.weaken (fun _ _ h => h.2.1.noPD.idle), this.2.1⟩

/-- A mint without close authority stays what it is. -/
theorem History.stable {p : Pubkey} {dec : UInt8} (hf : Funds L0) (hm : StableMint p s.u dec L0)
    (h : History cr ok L0 trace L) :
    History cr (fun act L => ok act L ∧ StableMint p s.u dec L) L0 trace L ∧
      StableMint p s.u dec L := by
  have := h.strengthen (P := StableFunds p s.u dec) (fun h1 h2 => h1.baseStep h2)
    (fun h1 hr h2 => h1.wrapTransfer hr h2) (fun h1 h2 => h1.step h2) ⟨hm, hf⟩
  exact ⟨this.1.weaken (fun _ _ h => ⟨h.1, h.2.1⟩), this.2.1⟩

/-- The escrow of the token program that owns the unwrapped mint. -/
def Setting.escrowFor (s : Setting cr) (p : Pubkey) : Pubkey := if p = splTokenId then s.Es else s.Et
/-- The escrow address for the other token program. -/
def Setting.escrowOther (s : Setting cr) (p : Pubkey) : Pubkey :=
  if p = splTokenId then s.Et else s.Es

/-- An address nobody signs for, that Token Wrap does not create and that is no associated token
account of an existing mint, never comes into existence. -/
theorem History.blankS {P : Ledger → Prop} {k : Pubkey} {i : PdaInput} (r : Reserved cr i k)
    (hi : ∃ w m p, i = .ata w m p)
    (hs : ¬ CanSign cr k)
    (hP : ∀ {act L L'}, P L → BaseStep cr act L L' → P L')
    (hPt : ∀ {env accounts a m amount fee L L'}, P L →
      (∀ n, 0 < env.rentMin n) → (∀ k, Signs accounts k → CanSign cr k) →
      TokenWrap.wrapTransfer env accounts a m amount fee L = .ok L' → P L')
    (hPs : ∀ {act L L'}, P L → Step cr ok act L L' → P L')
    (hno : ∀ L, P L → ∀ wallet mint prog, associatedTokenAddress cr wallet mint prog = some k →
      (L mint).owner ≠ prog)
    (hb : Blank L0 k) (hp : P L0) (h : History cr ok L0 trace L) : Blank L k ∧ P L := by
  obtain ⟨w, m, p, rfl⟩ := hi
  induction h with
  | start => exact ⟨hb, hp⟩
  | step _ _ h2 ih =>
    refine ⟨?_, hPs ih.2 h2⟩
    have hold : Held _ k := .inl ih.1
    cases hold.stepS hs hP hPt hno ih.2 h2 with
    | kept hk => exact ih.1.kept hk
    | mint u' p' ha => have := r.unique (j := .wrappedMint u' p') ha; cases this
    | backpointer w' ha => have := r.unique (j := .backpointer w') ha; cases this
    | metaplex w' ha => have := r.unique (j := .metaplex w') ha; cases this
    | pointer env accounts p' a m' hcr _ _ _ e hk =>
      have := e.pointer
      rw [hcr, hk] at this
      have := r.unique (j := .canonicalPointer _) this
      cases this

theorem History.blank {P : Ledger → Prop} {k : Pubkey} {i : PdaInput} (r : Reserved cr i k)
    (hi : ∃ w m p, i = .ata w m p)
    (hs : ¬ CanSign cr k)
    (hP : ∀ {act L L'}, P L → BaseStep cr act L L' → P L')
    (hPt : ∀ {env accounts a m amount fee L L'}, P L →
      (∀ n, 0 < env.rentMin n) → TokenWrap.wrapTransfer env accounts a m amount fee L = .ok L' → P L')
    (hPs : ∀ {act L L'}, P L → Step cr ok act L L' → P L')
    (hno : ∀ L, P L → ∀ wallet mint prog, associatedTokenAddress cr wallet mint prog = some k →
      (L mint).owner ≠ prog)
    (hb : Blank L0 k) (hp : P L0) (h : History cr ok L0 trace L) : Blank L k ∧ P L :=
  h.blankS r hi hs hP (fun q hr _ ht => hPt q hr ht) hPs hno hb hp

/-- If the unwrapped mint has no close authority, the escrow address of the other token program stays empty. -/
theorem History.other_blank {p : Pubkey} {dec : UInt8} (h0 : Fresh s L0)
    (hm : StableMint p s.u dec L0) (h : History cr ok L0 trace L) :
    Blank L (s.escrowOther p) := by
  have hno : ∀ {q E}, Reserved cr (.ata s.A s.u q) E → p ≠ q → ∀ L, StableMint p s.u dec L →
      ∀ wallet mint prog, associatedTokenAddress cr wallet mint prog = some E →
      (L mint).owner ≠ prog := by
    intro q E r hpq L hL wallet mint prog ha hown
    have := r.unique (j := .ata wallet mint prog) ha
    injection this with _ h2 h3
    subst h2 h3
    exact hpq (hL.2.1.symm.trans hown)
  unfold Setting.escrowOther
  by_cases hp : p = splTokenId
  · rw [if_pos hp]
    exact (h.blank s.rEt ⟨_, _, _, rfl⟩ s.Et_noSign (P := StableFunds p s.u dec)
      (fun h1 h2 => h1.baseStep h2) (fun h1 hr h2 => h1.wrapTransfer hr h2) (fun h1 h2 => h1.step h2)
      (fun L hL => hno s.rEt (by rw [hp]; exact spl_ne_2022) L hL.1) h0.Et ⟨hm, h0.funds⟩).1
  · rw [if_neg hp]
    exact (h.blank s.rEs ⟨_, _, _, rfl⟩ s.Es_noSign (P := StableFunds p s.u dec)
      (fun h1 h2 => h1.baseStep h2) (fun h1 hr h2 => h1.wrapTransfer hr h2) (fun h1 h2 => h1.step h2)
      (fun L hL => hno s.rEs hp L hL.1) h0.Es ⟨hm, h0.funds⟩).1

theorem Setting.escrowed_eq {p : Pubkey} (h : Blank L (s.escrowOther p)) :
    escrowed s L = balanceOf L (s.escrowFor p) := by
  have := balanceOf_blank h
  unfold escrowed Setting.escrowFor
  unfold Setting.escrowOther at this
  split at this <;> simp_all

/-- **C15** For an unwrapped mint without close authority, as long as no permanent delegate acts, the
wrapped supply is covered by the one escrow account. -/
theorem always_backed_stable {p : Pubkey} {dec : UInt8} (h0 : Fresh s L0)
    (hm : StableMint p s.u dec L0) (h : History cr (PDIdle cr s.u) L0 trace L) :
    supplyOf L s.W ≤ balanceOf L (s.escrowFor p) := by
  have := always_backed h0 h
  rw [← Setting.escrowed_eq (h.other_blank h0 hm)]
  exact this

/-- **C15** For an unwrapped mint that initially has neither permanent delegate nor close authority
(every SPL Token mint, for instance), in every history whatsoever the wrapped supply is covered by
the one escrow account. -/
theorem always_backed_plain {p : Pubkey} {dec : UInt8} (h0 : Fresh s L0)
    (hm : PlainMint p s.u dec L0) (h : History cr ok L0 trace L) :
    supplyOf L s.W ≤ balanceOf L (s.escrowFor p) :=
  always_backed_stable h0 hm.stable (h.plain h0.funds hm).1

/-! ## C16: surplus -/

theorem StepEff.surplus {d : Nat} (h : StepEff (.short d) s act L L') :
    escrowed s L + supplyOf L' s.W ≤ escrowed s L' + supplyOf L s.W := by
  unfold escrowed
  cases h with
  | quiet h => have := h.es trivial; have := h.et trivial; have := h.supply; omega
  | sync _ _ _ h1 h2 h3 => omega
  | wrap amount x _ _ _ _ h1 h2 h3 h4 => have := h4 trivial; omega
  | unwrap amount _ _ _ h1 h2 h3 h4 => omega

/-- **C16** In every history, a step in which no permanent delegate of the unwrapped mint acts does not
lower the surplus (escrowed tokens minus wrapped supply). -/
theorem surplus_never_decreases (h0 : Fresh s L0) (h : History cr ok L0 trace L)
    (hnp : PDIdle cr s.u act L) (hs : Step cr (PDIdle cr s.u) act L L') :
    (escrowed s L : Int) - supplyOf L s.W ≤ (escrowed s L' : Int) - supplyOf L' s.W := by
  have := (h.effB h0 hnp hs).surplus
  omega

/-- A later part of a history. -/
theorem surplus_monotone {trace' : List Act} {L1 : Ledger} (h0 : Fresh s L0)
    (h : History cr ok L0 trace L1) (h' : History cr (PDIdle cr s.u) L1 trace' L) :
    (escrowed s L1 : Int) - supplyOf L1 s.W ≤ (escrowed s L : Int) - supplyOf L s.W := by
  have hi := (h.inv' h0).short
  have hf := h.funds h0.funds
  have : Inv (.short (supplyOf L1 s.W)) s L ∧ (escrowed s L1 : Int) - supplyOf L1 s.W ≤ (escrowed s L : Int) - supplyOf L s.W := by
    clear h h0
    induction h' with
    | start => exact ⟨hi, by omega⟩
    | step h h1 h2 ih =>
      have e := step_eff' (fun _ _ h _ => h) ih.1 (h.funds hf) h1 h2
      have := e.surplus
      exact ⟨e.inv, by omega⟩
  exact this.2

/-! ## C17: all claims at once -/

/-- A wrapped token account. -/
def HoldsWrapped (s : Setting cr) (L : Ledger) (k : Pubkey) (t : TokenAcct) : Prop :=
  (L k).owner = s.wp ∧ (L k).data = .token t ∧ t.mint = s.W

theorem claimOf_holds {k : Pubkey} {t : TokenAcct} (h : HoldsWrapped s L k t) :
    claimOf s.wp s.W L k = t.amount + t.confidential := by
  rw [claimOf_token h.1 h.2.1, if_pos h.2.2]

/-- The balances (public plus confidential) of any finite set of distinct wrapped token accounts add
up to at most the wrapped supply. -/
theorem claims_within_supply (h0 : Fresh s L0) (h : History cr ok L0 trace L)
    (F : Finset Pubkey) (bal : Pubkey → TokenAcct) (hF : ∀ k ∈ F, HoldsWrapped s L k (bal k)) :
    ∑ k ∈ F, ((bal k).amount + (bal k).confidential) ≤ supplyOf L s.W := by
  have h1 : ∑ k ∈ F, ((bal k).amount + (bal k).confidential) = ∑ k ∈ F, claimOf s.wp s.W L k :=
    Finset.sum_congr rfl fun k hk => (claimOf_holds (hF k hk)).symm
  have := (h.inv' h0).claims F
  omega

/-- **C17** The balances (public plus confidential) of any finite set of distinct wrapped token
accounts add up to at most the wrapped supply and, if no permanent delegate acts, at most the escrowed
tokens. -/
theorem all_claims_covered (h0 : Fresh s L0) (h : History cr (PDIdle cr s.u) L0 trace L)
    (F : Finset Pubkey) (bal : Pubkey → TokenAcct) (hF : ∀ k ∈ F, HoldsWrapped s L k (bal k)) :
    ∑ k ∈ F, ((bal k).amount + (bal k).confidential) ≤ supplyOf L s.W ∧
    ∑ k ∈ F, ((bal k).amount + (bal k).confidential) ≤ balanceOf L s.Es + balanceOf L s.Et := by
  have h1 := claims_within_supply h0 h F bal hF
  have := always_backed h0 h
  omega

/-- One holder. -/
theorem Inv.holder_le {bk : Bk} {k : Pubkey} {t : TokenAcct} (hi : Inv bk s L) (h : HoldsWrapped s L k t) :
    t.amount + t.confidential ≤ supplyOf L s.W := by
  have := hi.claims {k}
  rw [Finset.sum_singleton, claimOf_holds h] at this
  exact this

/-! ## C25, C26: backpointer and mint parameters -/

/-- **C25** In every history the wrapped mint and its backpointer exist together or not at all, and
the backpointer holds exactly the address of the unwrapped mint. -/
theorem backpointer_integrity (h0 : Fresh s L0) (h : History cr ok L0 trace L) :
    ((∃ m, (L s.W).owner = s.wp ∧ (L s.W).data = .mint m) ↔ ¬ Blank L s.W) ∧
    (Blank L s.W ↔ Blank L s.B) ∧
    (¬ Blank L s.B → (L s.B).owner = crateId ∧ (L s.B).data = .bytes s.u.bytes) := by
  have hi := h.inv' h0
  have hu : s.u.bytes ≠ [] := by
    intro h; have := s.u.len; rw [h] at this; simp at this
  rcases hi.w with ⟨h1, h2⟩ | hw
  · refine ⟨⟨?_, fun h => absurd h1 h⟩, ⟨fun _ => h2, fun _ => h1⟩, fun h => absurd h2 h⟩
    rintro ⟨m, _, hm⟩
    rw [h1.2] at hm; cases hm
  · obtain ⟨m, hm, _⟩ := hw.mint
    have n1 : ¬ Blank L s.W := by intro hb; rw [hb.2] at hm; cases hm
    have n2 : ¬ Blank L s.B := by
      intro hb; have := hw.bData; rw [hb.2] at this; injection this with this; exact hu this.symm
    exact ⟨⟨fun _ => n1, fun _ => ⟨m, hw.owner, hm⟩⟩, ⟨fun h => absurd h n1, fun h => absurd h n2⟩,
      fun _ => ⟨hw.bOwner, hw.bData⟩⟩

/-- What is permanent about the wrapped mint once created. -/
structure SameMint (s : Setting cr) (m m' : Mint) : Prop where
  decimals : m'.decimals = m.decimals
  noFreeze : m.freezeAuthority = none → m'.freezeAuthority = none
  mintAuthority : m.mintAuthority = some s.A ∧ m'.mintAuthority = some s.A
  exts : m'.exts.filter (fun e => e.tag ≠ 19) = m.exts.filter (fun e => e.tag ≠ 19)

theorem wrappedExts_filter {A W wp : Pubkey} {exts : List MintExt} (h : WrappedExts A W wp exts) :
    exts.filter (fun e => e.tag ≠ 19) = if wp = token2022Id then defaultExts A W else [] := by
  rcases h with ⟨rfl, rfl⟩ | ⟨rfl, rfl | ⟨md, rfl, _⟩⟩
  · rw [if_neg spl_ne_2022]; rfl
  · simp [defaultExts, MintExt.tag]
  · simp [defaultExts, MintExt.tag]

/-- **C26** Once the wrapped mint exists, in every continuation of the history it stays a mint of the
same program with the same decimals, the authority PDA as mint authority, and the same extensions
(confidential transfer settings, self-pointing metadata pointer), apart from the token metadata;
without freeze authority it never gets one. -/
theorem mint_parameters_permanent {trace' : List Act} {L1 : Ledger} {m : Mint} (h0 : Fresh s L0)
    (h : History cr ok L0 trace L1) (hm : (L1 s.W).data = .mint m)
    (h' : History cr ok L1 trace' L) :
    (L s.W).owner = s.wp ∧ ∃ m', (L s.W).data = .mint m' ∧ SameMint s m m' := by
  have hi1 := h.inv' h0
  have hf := h.funds h0.funds
  have : Inv .off s L ∧ MintStays s.W L1 L := by
    clear h h0
    induction h' with
    | start => exact ⟨hi1, (MintKept.of_kept .rfl').stays⟩
    | step h h1 h2 ih =>
      have e := step_eff' (fun _ _ _ (h : False) => h.elim) ih.1 (h.funds hf) h1 h2
      exact ⟨e.inv, ih.2.trans e.kept⟩
  obtain ⟨hi, hk⟩ := this
  obtain ⟨m', hm', hd, hf⟩ := hk m hm
  have hw1 : WrappedOk s L1 := by
    rcases hi1.w with ⟨h1, _⟩ | h1
    · rw [h1.2] at hm; cases hm
    · exact h1
  have hw : WrappedOk s L := by
    rcases hi.w with ⟨h1, _⟩ | h1
    · rw [h1.2] at hm'; cases hm'
    · exact h1
  obtain ⟨x, hx, a1, _, e1⟩ := hw1.mint
  rw [hm] at hx; cases hx
  obtain ⟨y, hy, a2, _, e2⟩ := hw.mint
  rw [hm'] at hy; cases hy
  exact ⟨hw.owner, m', hm', hd, hf, ⟨a1, a2⟩, by rw [wrappedExts_filter e1, wrappedExts_filter e2]⟩

/-- **C26** The values themselves: in every history an existing wrapped mint has the PDA as mint
authority; under Token-2022 its first two extensions are the confidential transfer settings and the
metadata pointer to itself, and the only other possible one is token metadata whose update authority
is the PDA; under SPL Token it has none. -/
theorem mint_parameters {m : Mint} (h0 : Fresh s L0) (h : History cr ok L0 trace L)
    (hm : (L s.W).data = .mint m) :
    m.mintAuthority = some s.A ∧
    (s.wp = splTokenId → m.exts = []) ∧
    (s.wp = token2022Id → m.exts = [.confidentialTransferMint none true none,
        .metadataPointer (some s.A) (some s.W)] ∨
      ∃ md, m.exts = [.confidentialTransferMint none true none,
        .metadataPointer (some s.A) (some s.W), .tokenMetadata md] ∧
        md.updateAuthority = some s.A ∧ md.mint = s.W ∧ (md.additional.map (·.1)).Nodup) := by
  have hi := h.inv' h0
  rcases hi.w with ⟨h1, _⟩ | hw
  · rw [h1.2] at hm; cases hm
  obtain ⟨x, hx, a1, _, e1⟩ := hw.mint
  rw [hm] at hx; cases hx
  refine ⟨a1, ?_, ?_⟩
  · intro hp
    rcases e1 with ⟨_, h⟩ | ⟨h, _⟩
    · exact h
    · rw [hp] at h; exact absurd h spl_ne_2022
  · intro hp
    rcases e1 with ⟨h, _⟩ | ⟨_, h⟩
    · rw [hp] at h; exact absurd h.symm spl_ne_2022
    · rcases h with h | ⟨md, h, hu⟩
      · exact .inl h
      · exact .inr ⟨md, h, hu⟩

/-! ## C27, C28: what changes supply and escrow -/

/-- **C27** A step that increases the wrapped supply is a Wrap naming this wrapped mint, of at least
that amount. -/
theorem supply_grows_only_by_wrap (h0 : Fresh s L0) (h : History cr ok L0 trace L)
    (hk : ok act L) (hs : Step cr ok act L L') (hlt : supplyOf L s.W < supplyOf L' s.W) :
    ∃ amount, IsWrapOf s.W amount act ∧ supplyOf L' s.W ≤ supplyOf L s.W + amount.toNat := by
  cases h.eff' h0 hk hs with
  | quiet h => have := h.supply; omega
  | sync _ _ _ h1 => omega
  | wrap amount x hw hx _ _ h1 => exact ⟨amount, hw, by omega⟩
  | unwrap amount _ _ _ h1 => omega

/-- **C27** If no permanent delegate acts in the step, the escrows receive at least the increase in that
same step. -/
theorem supply_growth_is_escrowed (h0 : Fresh s L0) (h : History cr ok L0 trace L)
    (hnp : PDIdle cr s.u act L) (hs : Step cr (PDIdle cr s.u) act L L')
    (hlt : supplyOf L s.W < supplyOf L' s.W) :
    escrowed s L + (supplyOf L' s.W - supplyOf L s.W) ≤ escrowed s L' := by
  unfold escrowed
  cases h.effB h0 hnp hs with
  | quiet h => have := h.supply; omega
  | sync _ _ _ h1 => omega
  | wrap amount x hw hx _ _ h1 h2 h3 h4 => have := h4 trivial; omega
  | unwrap amount _ _ _ h1 => omega

/-- **C28** In every history, a step that takes tokens out of an escrow without a permanent delegate of
the unwrapped mint acting is an Unwrap naming this wrapped mint; it takes exactly its amount and burns
exactly as many wrapped tokens. -/
theorem escrow_shrinks_only_by_unwrap (h0 : Fresh s L0) (h : History cr ok L0 trace L)
    (hnp : PDIdle cr s.u act L) (hs : Step cr (PDIdle cr s.u) act L L') {E : Pubkey}
    (hE : E = s.Es ∨ E = s.Et)
    (hlt : balanceOf L' E < balanceOf L E) :
    ∃ amount, IsUnwrapOf s.W amount act ∧ balanceOf L' E + amount.toNat = balanceOf L E ∧
      supplyOf L' s.W + amount.toNat = supplyOf L s.W := by
  cases h.effB h0 hnp hs with
  | quiet h => have := h.es trivial; have := h.et trivial; rcases hE with rfl | rfl <;> omega
  | sync _ _ _ h1 h2 h3 => rcases hE with rfl | rfl <;> omega
  | wrap amount x hw hx _ _ h1 h2 h3 h4 =>
    have := h2 trivial; have := h3 trivial; rcases hE with rfl | rfl <;> omega
  | unwrap amount hu _ _ h1 h2 h3 _ =>
    refine ⟨amount, hu, ?_, h1⟩
    rcases hE with rfl | rfl <;> omega

/-! ## C46: no overflow -/

theorem EscrowOk.fits {u A p E : Pubkey} (h : EscrowOk u A p E L) : balanceOf L E ≤ u64Max := by
  rcases h with h | ⟨_, t, ht, _, _, _, _, h⟩
  · rw [balanceOf_blank h]; exact Nat.zero_le _
  · rw [balanceOf_token ht]; exact h

/-- **C46** In every history the wrapped supply, the escrow balances and every wrapped balance fit in
64 bits. -/
theorem amounts_fit (h0 : Fresh s L0) (h : History cr ok L0 trace L) :
    supplyOf L s.W ≤ u64Max ∧ balanceOf L s.Es ≤ u64Max ∧ balanceOf L s.Et ≤ u64Max ∧
    ∀ k t, HoldsWrapped s L k t → t.amount ≤ u64Max := by
  have hi := h.inv' h0
  have hsup : supplyOf L s.W ≤ u64Max := by
    rcases hi.w with ⟨h1, _⟩ | hw
    · rw [supplyOf_blank h1]; exact Nat.zero_le _
    · obtain ⟨m, hm, _, hs, _⟩ := hw.mint
      rw [supplyOf_mint hm]; exact hs
  refine ⟨hsup, hi.es.fits, hi.et.fits, ?_⟩
  intro k t ht
  have := hi.holder_le ht
  omega

/-! ## C53: decimals -/

/-- **C53** If the unwrapped mint initially has no close authority, then in every history the wrapped mint, once it exists, has the decimals of the unwrapped mint. -/
theorem decimals_agree_always {p : Pubkey} {dec : UInt8} (h0 : Fresh s L0)
    (hm : StableMint p s.u dec L0) (h : History cr ok L0 trace L) {w : Mint}
    (hw : (L s.W).data = .mint w) :
    ∃ m, (L s.u).data = .mint m ∧ w.decimals = m.decimals := by
  obtain ⟨hh, hpl⟩ := h.stable h0.funds hm
  obtain ⟨m, hmd, hdec⟩ : ∃ m, (L s.u).data = .mint m ∧ m.decimals = dec := by
    obtain ⟨_, _, m, h1, h2, _⟩ := hpl; exact ⟨m, h1, h2⟩
  refine ⟨m, hmd, ?_⟩
  rw [hdec]
  clear hmd hdec hpl h m
  revert w
  induction hh with
  | start => intro w hw; rw [h0.W.2] at hw; cases hw
  | step hprev h1 h2 ih =>
    intro w hw
    rename_i L1 L2
    have hi := hprev.inv' h0
    have e := step_eff' (s := s) (fun _ _ _ (h : False) => h.elim) hi (hprev.funds h0.funds) h1 h2
    rcases hi.w with ⟨hb, _⟩ | hwo
    · have hold : Held L1 s.W := .inl hb
      have hk := hold.step s.W_noSign (Q := fun _ => True) (fun _ _ => trivial) (fun _ _ _ => trivial)
        (fun L _ wallet mint prog ha _ => by
          have := s.rW.unique (j := .ata wallet mint prog) ha; cases this) trivial h2
      cases hk with
      | kept hk => rw [hk.2, hb.2] at hw; cases hw
      | mint u' p' ha m0 w0 um wd hd _ =>
        have := s.rW.unique (j := .wrappedMint u' p') ha
        injection this with hu' _
        subst hu'
        rw [hw] at wd; cases wd
        obtain ⟨_, _, m1, hm1, hd1, _⟩ := h1.2
        rw [um] at hm1; cases hm1
        rw [hd, hd1]
      | backpointer w' ha => have := s.rW.unique (j := .backpointer w') ha; cases this
      | metaplex w' ha => have := s.rW.unique (j := .metaplex w') ha; cases this
      | pointer env accounts p' a m' hcr _ _ _ e hk =>
        have := e.pointer
        rw [hcr, hk] at this
        have := s.rW.unique (j := .canonicalPointer _) this
        cases this
    · obtain ⟨m0, hm0, _⟩ := hwo.mint
      obtain ⟨m', hm', hd, _⟩ := e.kept m0 hm0
      rw [hw] at hm'; cases hm'
      rw [hd]; exact ih hm0

end

end TokenWrap
