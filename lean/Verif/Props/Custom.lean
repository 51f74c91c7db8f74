import Verif.CustomInv
import Verif.Props.Redeem
import Verif.Props.CreateMint
import Verif.Props.HistoryExample
/-!
# C106: builds with another mint customizer

The README (lines 112-121) invites to fork the program and to exchange the customizer of the wrapped
mints.  What of the guarantees is left in such a build?  Everything about money, if the customizer adds
neither transfer fees nor a close authority; the three customizers of the repository do not.
-/

set_option linter.unusedSimpArgs false

namespace TokenWrap

open scoped BigOperators

/-- A customizer that gives every wrapped mint a fixed list of extensions, none of which is a transfer
fee or a close authority, and the decimals of the unwrapped mint. -/
def SafeCustomizer (C : Customizer) : Prop :=
  ∃ exts freeze, CustomizerSpec C exts freeze ∧
    ∀ A W, ∀ e ∈ exts A W, (∀ c, e ≠ .transferFeeConfig c) ∧ ∀ d, e ≠ .mintCloseAuthority d

/-- The three customizers of the repository
(/repo/program/src/mint_customizer/{default_token_2022,no_extensions,compliance}.rs). -/
theorem shipped_safe (c : Shipped) : SafeCustomizer c.model := by
  refine ⟨_, _, c.spec, ?_⟩
  intro A W e he
  cases c <;> simp only [Shipped.exts, List.mem_cons, List.not_mem_nil, or_false] at he
  · rcases he with rfl | rfl <;> exact ⟨(by intro _ h; cases h), (by intro _ h; cases h)⟩
  · rcases he with rfl | rfl | rfl | rfl <;> exact ⟨(by intro _ h; cases h), (by intro _ h; cases h)⟩

namespace Custom

theorem safeTags_of {l : List MintExt}
    (h : ∀ e ∈ l, (∀ c, e ≠ .transferFeeConfig c) ∧ ∀ d, e ≠ .mintCloseAuthority d) : SafeTags l := by
  intro e he
  obtain ⟨h1, h2⟩ := h e he
  cases e with
  | transferFeeConfig c => exact absurd rfl (h1 c)
  | mintCloseAuthority d => exact absurd rfl (h2 d)
  | _ => exact ⟨by simp [MintExt.tag] <;> omega, by simp [MintExt.tag] <;> omega⟩

end Custom

section
variable {C : Customizer} {cr : Crypto} {s : Setting cr} {ok : Act → Ledger → Prop} {L0 L L' : Ledger}
  {trace : List Act} {act : Act} {T : List Nat} {p u : Pubkey} {dec : UInt8}

/-- What is new in a build: CreateMint with its customizer. -/
theorem BuildStep.cases' (h : BuildStep C cr ok act L L') :
    Step cr ok act L L' ∨ ∃ env accounts idem, env.cr = cr ∧ env.programId = crateId ∧
      (∀ n, 0 < env.rentMin n) ∧ processCreateMint env C accounts idem L = .ok L' := by
  cases h with
  | base h => exact .inl (.base h)
  | wrapHooked a b c d e f => exact .inl (.wrapHooked a b c d e f)
  | tokenWrap a b c d e =>
    rcases Custom.processInstructionWith_ok d with ⟨idem, _, d⟩ | ⟨_, d⟩
    · exact .inr ⟨_, _, idem, a, b, e, d⟩
    · exact .inl (.tokenWrap a b c d e)

/-- CreateMint writes only to two empty derived accounts. -/
theorem createMint_kept {env : Env} {accounts : List Meta} {idem : Bool} (hC : SafeCustomizer C)
    (h : processCreateMint env C accounts idem L = .ok L') :
    L' = L ∨ ∃ W B u p m A space, wrappedMintAddress env.cr u p = some W ∧
      backpointerAddress env.cr W = some B ∧ (L W).data = .bytes [] ∧ (L B).data = .bytes [] ∧
      env.rentMin space ≤ (L W).lamports ∧ (A : Option Pubkey) = m.mintAuthority ∧
      L' = (L.set W ⟨(L W).lamports, p, .mint m⟩).set B ⟨(L B).lamports, env.programId, .bytes u.bytes⟩ := by
  obtain ⟨exts, freeze, spec, _⟩ := hC
  obtain ⟨a, c, h2⟩ := processCreateMint_inv h
  rcases h2 with ⟨_, rfl, _⟩ | ⟨mb, bb, L1, _, _, _, _, g1, g2⟩
  · exact .inl rfl
  · obtain ⟨m, A, space, _, rw1, _, d1, d2, _, _, _, _, _, rfl⟩ := createMint_fresh spec g1 g2
    exact .inr ⟨_, _, _, _, _, some A, space, c.mint, c.bp, by rw [d1], by rw [d2], rw1, rfl, rfl⟩

theorem NoTags.create {env : Env} {accounts : List Meta} {idem : Bool} (hC : SafeCustomizer C)
    (h : NoTags T p u dec L) (hc : processCreateMint env C accounts idem L = .ok L') :
    NoTags T p u dec L' := by
  rcases createMint_kept hC hc with rfl | ⟨W, B, _, _, _, _, _, _, _, d1, d2, _, _, rfl⟩
  · exact h
  · refine h.kept (.of_eq ?_)
    rw [Ledger.set_ne, Ledger.set_ne]
    · rintro rfl; exact h.data_ne_bytes [] d1
    · rintro rfl; exact h.data_ne_bytes [] d2

theorem Funds.create {env : Env} {accounts : List Meta} {idem : Bool} (hC : SafeCustomizer C)
    (h : Funds L) (hid : env.programId = crateId) (hr : ∀ n, 0 < env.rentMin n)
    (hc : processCreateMint env C accounts idem L = .ok L') : Funds L' := by
  refine ⟨?_, fun nm hnm => by
    obtain ⟨p, dec, hx⟩ := h.native nm hnm
    exact ⟨p, dec, hx.create hC hc⟩⟩
  rcases createMint_kept hC hc with rfl | ⟨W, B, _, _, _, _, space, _, _, d1, d2, r1, _, rfl⟩
  · exact h.all
  · refine (h.all.set (.of_mint rfl ?_)).set (.of_owner (by dsimp only; rw [hid]; exact crate_not_token))
    exact Nat.lt_of_lt_of_le (hr space) r1

theorem BuildStep.funds (hC : SafeCustomizer C) (hf : Funds L) (h : BuildStep C cr ok act L L') :
    Funds L' := by
  rcases h.cases' with h | ⟨_, _, _, _, hid, hr, h⟩
  · exact hf.step h
  · exact hf.create hC hid hr h

theorem BuildHistory.funds (hC : SafeCustomizer C) (hf : Funds L0)
    (h : BuildHistory C cr ok L0 trace L) : Funds L := by
  induction h with
  | start => exact hf
  | step _ _ h2 ih => exact h2.funds hC ih

open Classical in
theorem BuildStep.strengthen {P : Ledger → Prop}
    (hP : ∀ {act L L'}, P L → BaseStep cr act L L' → P L')
    (hPt : ∀ {env accounts a m amount fee L L'}, P L →
      (∀ n, 0 < env.rentMin n) → TokenWrap.wrapTransfer env accounts a m amount fee L = .ok L' → P L')
    (h0 : P L) (hs : BuildStep C cr ok act L L') :
    BuildStep C cr (fun act L => ok act L ∧ P L) act L L' := by
  cases hs with
  | base h => exact .base h
  | tokenWrap a b c d e => exact .tokenWrap a b c d e
  | wrapHooked a b c d e f =>
    rename_i env accounts amount hook
    refine .wrapHooked (hook := fun L1 => if P L1 then hook L1 else L1) a b c ?_ ?_ f
    · intro L1
      by_cases hx : P L1
      · simp only [if_pos hx]
        exact Run.mono_inv hP (fun _ _ h1 h2 => ⟨h1, h2⟩) hx (d L1)
      · simp only [if_neg hx]
        exact .refl
    · rw [← e]
      refine processWrapHooked_congr ?_
      intro a m n fee L1 hL1
      simp only [if_pos (hPt h0 f hL1)]

theorem BuildStep.funded (hf : Funds L) (hs : BuildStep C cr ok act L L') :
    BuildStep C cr (fun act L => ok act L ∧ Funds L) act L L' :=
  hs.strengthen (fun h1 h2 => h1.baseStep h2) (fun h1 hr h2 => h1.wrapTransfer hr h2) hf

theorem BuildStep.weaken {ok' : Act → Ledger → Prop} (hw : ∀ act L, ok act L → ok' act L)
    (h : BuildStep C cr ok act L L') : BuildStep C cr ok' act L L' := by
  cases h with
  | base hb => exact .base hb
  | tokenWrap hcr hid hs hi hr => exact .tokenWrap hcr hid hs hi hr
  | wrapHooked hcr hid hs hhook hi hr =>
    exact .wrapHooked hcr hid hs (fun L1 => (hhook L1).weaken hw) hi hr

/-- A plain unwrapped mint keeps the no-permanent-delegate condition true by itself. -/
theorem BuildHistory.plain (hC : SafeCustomizer C) (hf : Funds L0) (hm : PlainMint p u dec L0)
    (h : BuildHistory C cr ok L0 trace L) :
    BuildHistory C cr (PDIdle cr u) L0 trace L ∧ PlainMint p u dec L := by
  induction h with
  | start => exact ⟨.start, hm⟩
  | step h h1 h2 ih =>
    have hp : PlainFunds p u dec _ := ⟨ih.2, h.funds hC hf⟩
    refine ⟨.step ih.1 hp.1.noPD.idle ?_, ?_⟩
    · exact (h2.strengthen (P := PlainFunds p u dec) (fun h1 h2 => h1.baseStep h2)
        (fun h1 hr h2 => h1.wrapTransfer hr h2) hp).weaken (fun _ _ h => h.2.1.noPD.idle)
    · rcases h2.cases' with h2 | ⟨_, _, _, _, _, _, h2⟩
      · exact (hp.step h2).1
      · exact plainMint_iff.2 ((plainMint_iff.1 ih.2).create hC h2)

theorem Fresh.buildInv {bk : Bk} (h : Fresh s L) : Custom.Inv bk s L := by
  have := h.inv (bk := bk)
  exact ⟨this.a, this.es, this.et, .inl ⟨h.W, h.B⟩, this.noNative, this.claims, this.backed⟩

theorem BuildStep.eff {bk : Bk} (hC : SafeCustomizer C)
    (hok : ∀ act L, ok act L → bk → PDIdle cr s.u act L) (hi : Custom.Inv bk s L) (hf : Funds L)
    (h0 : ok act L) (hs : BuildStep C cr ok act L L') : Custom.StepEff bk s act L L' := by
  obtain ⟨exts, freeze, spec, safe⟩ := hC
  exact Custom.step_eff spec (fun A W => Custom.safeTags_of (safe A W))
    (ok := fun act L => ok act L ∧ Funds L) (fun act L h => ⟨hok act L h.1, h.2.all⟩) hi ⟨h0, hf⟩
    (hs.funded hf)

theorem BuildHistory.inv {bk : Bk} (hC : SafeCustomizer C)
    (hok : ∀ act L, ok act L → bk → PDIdle cr s.u act L) (h0 : Fresh s L0)
    (h : BuildHistory C cr ok L0 trace L) : Custom.Inv bk s L := by
  induction h with
  | start => exact h0.buildInv
  | step h h1 h2 ih => exact (h2.eff hC hok ih (h.funds hC h0.funds) h1).inv

theorem BuildHistory.inv' (hC : SafeCustomizer C) (h0 : Fresh s L0)
    (h : BuildHistory C cr ok L0 trace L) : Custom.Inv .off s L :=
  h.inv hC (fun _ _ _ h => h.elim) h0

theorem BuildHistory.invB (hC : SafeCustomizer C) (h0 : Fresh s L0)
    (h : BuildHistory C cr (PDIdle cr s.u) L0 trace L) : Custom.Inv .full s L :=
  h.inv hC (fun _ _ h _ => h) h0

theorem Custom.Inv.short {bk : Bk} (h : Custom.Inv bk s L) : Custom.Inv (.short (supplyOf L s.W)) s L :=
  ⟨h.a, h.es, h.et, h.w, h.noNative, h.claims, fun _ => Nat.le_add_left _ _⟩

theorem BuildHistory.effB (hC : SafeCustomizer C) (h0 : Fresh s L0) (h : BuildHistory C cr ok L0 trace L)
    (hk : PDIdle cr s.u act L) (hs : BuildStep C cr (PDIdle cr s.u) act L L') :
    Custom.StepEff (.short (supplyOf L s.W)) s act L L' :=
  hs.eff hC (fun _ _ h _ => h) (h.inv' hC h0).short (h.funds hC h0.funds) hk

/-! ## Backing and claims -/

/-- **C106** In every history of the build, as long as no permanent delegate of the unwrapped mint acts,
the wrapped supply never exceeds the tokens in escrow. -/
theorem build_always_backed (hC : SafeCustomizer C) (h0 : Fresh s L0)
    (h : BuildHistory C cr (PDIdle cr s.u) L0 trace L) :
    supplyOf L s.W ≤ balanceOf L s.Es + balanceOf L s.Et :=
  (h.invB hC h0).backed trivial

/-- **C106** In every history of the build, the balances (public plus confidential) of any finite set of
distinct wrapped token accounts add up to at most the wrapped supply and, if no permanent delegate of the
unwrapped mint acts, at most the escrowed tokens. -/
theorem build_claims_covered (hC : SafeCustomizer C) (h0 : Fresh s L0)
    (h : BuildHistory C cr ok L0 trace L)
    (F : Finset Pubkey) (bal : Pubkey → TokenAcct) (hF : ∀ k ∈ F, HoldsWrapped s L k (bal k)) :
    ∑ k ∈ F, ((bal k).amount + (bal k).confidential) ≤ supplyOf L s.W ∧
    (BuildHistory C cr (PDIdle cr s.u) L0 trace L →
      ∑ k ∈ F, ((bal k).amount + (bal k).confidential) ≤ balanceOf L s.Es + balanceOf L s.Et) := by
  have h1 : ∑ k ∈ F, ((bal k).amount + (bal k).confidential) = ∑ k ∈ F, claimOf s.wp s.W L k :=
    Finset.sum_congr rfl fun k hk => (claimOf_holds (hF k hk)).symm
  have h2 := (h.inv' hC h0).claims F
  refine ⟨by omega, fun hb => ?_⟩
  have := build_always_backed hC h0 hb
  omega

/-- **C106** In every history of the build, a step in which no permanent delegate of the unwrapped mint
acts does not lower the surplus (escrowed tokens minus wrapped supply). -/
theorem build_surplus_never_decreases (hC : SafeCustomizer C) (h0 : Fresh s L0)
    (h : BuildHistory C cr ok L0 trace L) (hnp : PDIdle cr s.u act L)
    (hs : BuildStep C cr (PDIdle cr s.u) act L L') :
    (escrowed s L : Int) - supplyOf L s.W ≤ (escrowed s L' : Int) - supplyOf L' s.W := by
  unfold escrowed
  cases h.effB hC h0 hnp hs with
  | quiet h => have := h.es trivial; have := h.et trivial; have := h.supply; omega
  | sync _ _ _ h1 h2 h3 => omega
  | wrap amount x _ _ _ _ h1 h2 h3 h4 => have := h4 trivial; omega
  | unwrap amount _ _ _ h1 h2 h3 h4 => omega

/-- **C106** In every history of the build, only a Wrap of this wrapped mint increases the wrapped
supply, by at most its amount. -/
theorem build_supply_grows_only_by_wrap (hC : SafeCustomizer C) (h0 : Fresh s L0)
    (h : BuildHistory C cr ok L0 trace L) (hk : ok act L) (hs : BuildStep C cr ok act L L')
    (hlt : supplyOf L s.W < supplyOf L' s.W) :
    ∃ amount, IsWrapOf s.W amount act ∧ supplyOf L' s.W ≤ supplyOf L s.W + amount.toNat := by
  cases hs.eff (bk := .off) (s := s) hC (fun _ _ _ (h : False) => h.elim) (h.inv' hC h0)
      (h.funds hC h0.funds) hk with
  | quiet h => have := h.supply; omega
  | sync _ _ _ h1 => omega
  | wrap amount x hw hx _ _ h1 => exact ⟨amount, hw, by omega⟩
  | unwrap amount _ _ _ h1 => omega

/-- **C106** In every history of the build, only an Unwrap of this wrapped mint takes tokens out of an
escrow (unless a permanent delegate of the unwrapped mint acts): exactly its amount, burning as many
wrapped tokens. -/
theorem build_escrow_shrinks_only_by_unwrap (hC : SafeCustomizer C) (h0 : Fresh s L0)
    (h : BuildHistory C cr ok L0 trace L) (hnp : PDIdle cr s.u act L)
    (hs : BuildStep C cr (PDIdle cr s.u) act L L') {E : Pubkey} (hE : E = s.Es ∨ E = s.Et)
    (hlt : balanceOf L' E < balanceOf L E) :
    ∃ amount, IsUnwrapOf s.W amount act ∧ balanceOf L' E + amount.toNat = balanceOf L E ∧
      supplyOf L' s.W + amount.toNat = supplyOf L s.W := by
  cases h.effB hC h0 hnp hs with
  | quiet h => have := h.es trivial; have := h.et trivial; rcases hE with rfl | rfl <;> omega
  | sync _ _ _ h1 h2 h3 => rcases hE with rfl | rfl <;> omega
  | wrap amount x hw hx _ _ h1 h2 h3 h4 =>
    have := h2 trivial; have := h3 trivial; rcases hE with rfl | rfl <;> omega
  | unwrap amount hu _ _ h1 h2 h3 _ =>
    refine ⟨amount, hu, ?_, h1⟩
    rcases hE with rfl | rfl <;> omega

/-! ## The wrapped mint -/

/-- **C106** In every history of the build the wrapped mint and its backpointer exist together or not at
all, and the backpointer holds the address of the unwrapped mint. -/
theorem build_backpointer_integrity (hC : SafeCustomizer C) (h0 : Fresh s L0)
    (h : BuildHistory C cr ok L0 trace L) :
    ((∃ m, (L s.W).owner = s.wp ∧ (L s.W).data = .mint m) ↔ ¬ Blank L s.W) ∧
    (Blank L s.W ↔ Blank L s.B) ∧
    (¬ Blank L s.B → (L s.B).owner = crateId ∧ (L s.B).data = .bytes s.u.bytes) := by
  have hi := h.inv' hC h0
  have hu : s.u.bytes ≠ [] := by
    intro h; have := s.u.len; rw [h] at this; simp at this
  rcases hi.w with ⟨h1, h2⟩ | hw
  · refine ⟨⟨?_, fun h => absurd h1 h⟩, ⟨fun _ => h2, fun _ => h1⟩, fun h => absurd h2 h⟩
    rintro ⟨m, _, hm⟩
    rw [h1.2] at hm; cases hm
  · obtain ⟨m, hm, _⟩ := hw.mint
    have n1 : ¬ Blank L s.W := by intro hb; rw [hb.2] at hm; cases hm
    have n2 : ¬ Blank L s.B := by
      intro hb; have := hw.bData; rw [hb.2] at this; injection this with this; exact hu this.symm
    exact ⟨⟨fun _ => n1, fun _ => ⟨m, hw.owner, hm⟩⟩, ⟨fun h => absurd h n1, fun h => absurd h n2⟩,
      fun _ => ⟨hw.bOwner, hw.bData⟩⟩

/-- **C106** Once the wrapped mint exists, in every continuation of the history it stays a mint of the
same program with the same decimals and the authority PDA as mint authority; it never gets a transfer fee
or a close authority, and no freeze authority if it has none. -/
theorem build_mint_permanent {trace' : List Act} {L1 : Ledger} {m : Mint} (hC : SafeCustomizer C)
    (h0 : Fresh s L0) (h : BuildHistory C cr ok L0 trace L1) (hm : (L1 s.W).data = .mint m)
    (h' : BuildHistory C cr ok L1 trace' L) :
    (L s.W).owner = s.wp ∧ ∃ m', (L s.W).data = .mint m' ∧ m'.decimals = m.decimals ∧
      m'.mintAuthority = some s.A ∧ m'.transferFee? = none ∧ m'.closeAuthority? = none ∧
      (m.freezeAuthority = none → m'.freezeAuthority = none) := by
  have hi1 := h.inv' hC h0
  have hf := h.funds hC h0.funds
  have : Custom.Inv .off s L ∧ Custom.MintKept s.W L1 L := by
    clear h h0 hm
    induction h' with
    | start => exact ⟨hi1, .of_kept Kept.rfl'⟩
    | step h h1 h2 ih =>
      have e := h2.eff hC (fun _ _ _ (h : False) => h.elim) ih.1 (h.funds hC hf) h1
      exact ⟨e.inv, ih.2.trans e.kept⟩
  obtain ⟨m', hm', hd, hfz⟩ := this.2 m hm
  rcases this.1.w with ⟨hb, _⟩ | hw
  · rw [hb.2] at hm'; cases hm'
  · obtain ⟨m2, hm2, ha, _, hx⟩ := hw.mint
    rw [hm'] at hm2; cases hm2
    exact ⟨hw.owner, m', hm', hd, ha, Custom.safeTags_noFee hx, Custom.safeTags_noClose hx, hfz⟩

/-! ## One escrow, and redemption -/

theorem BuildHistory.stable (hC : SafeCustomizer C) (hf : Funds L0) (hm : StableMint p u dec L0)
    (h : BuildHistory C cr ok L0 trace L) : StableMint p u dec L := by
  rw [stableMint_iff] at *
  induction h with
  | start => exact hm
  | step h _ h2 ih =>
    rcases h2.cases' with h2 | ⟨_, _, _, _, _, _, h2⟩
    · exact ih.step (h.funds hC hf) h2
    · exact ih.create hC h2

theorem BuildHistory.blank {k : Pubkey} {w m q : Pubkey} (hC : SafeCustomizer C)
    (r : Reserved cr (.ata w m q) k) (hs : ¬ CanSign cr k) (hmd : StableMint p m dec L0) (hq : p ≠ q)
    (hb : Blank L0 k) (hf : Funds L0) (h : BuildHistory C cr ok L0 trace L) : Blank L k := by
  induction h with
  | start => exact hb
  | step h _ h2 ih =>
    have hst := h.stable hC hf hmd
    rcases h2.cases' with h2 | ⟨_, _, _, hcr, _, _, h2⟩
    · have hold : Held _ k := .inl ih
      have hno : ∀ L, StableFunds p m dec L → ∀ wallet mint prog,
          associatedTokenAddress cr wallet mint prog = some k → (L mint).owner ≠ prog := by
        intro L hL wallet mint prog ha hown
        have := r.unique (j := .ata wallet mint prog) ha
        injection this with _ h2 h3
        subst h2 h3
        exact hq (hL.1.2.1.symm.trans hown)
      cases hold.step hs (fun h1 h2 => h1.baseStep h2) (fun h1 hr h2 => h1.wrapTransfer hr h2) hno
          (⟨hst, h.funds hC hf⟩ : StableFunds p m dec _) h2 with
      | kept hk => exact ih.kept hk
      | mint u' p' ha => have := r.unique (j := .wrappedMint u' p') ha; cases this
      | backpointer w' ha => have := r.unique (j := .backpointer w') ha; cases this
      | metaplex w' ha => have := r.unique (j := .metaplex w') ha; cases this
      | pointer env accounts p' a m' hcr _ _ _ e hk =>
        have := e.pointer
        rw [hcr, hk] at this
        have := r.unique (j := .canonicalPointer _) this
        cases this
    · rcases createMint_kept hC h2 with rfl | ⟨W, B, u', p', _, _, _, hW, hB, _, _, _, _, rfl⟩
      · exact ih
      · rw [hcr] at hW hB
        refine ih.kept (.of_eq ?_)
        rw [Ledger.set_ne, Ledger.set_ne]
        · rintro rfl; have := r.unique (j := .wrappedMint u' p') hW; cases this
        · rintro rfl; have := r.unique (j := .backpointer W) hB; cases this

/-- **C106** For an unwrapped mint without close authority, the wrapped supply is covered by the one
escrow account of its token program. -/
theorem build_backed_by_one_escrow (hC : SafeCustomizer C) (h0 : Fresh s L0)
    (hm : StableMint p s.u dec L0) (h : BuildHistory C cr (PDIdle cr s.u) L0 trace L) :
    supplyOf L s.W ≤ balanceOf L (s.escrowFor p) := by
  have := build_always_backed hC h0 h
  have hb : Blank L (s.escrowOther p) := by
    unfold Setting.escrowOther
    by_cases hp : p = splTokenId
    · rw [if_pos hp]
      exact h.blank hC s.rEt s.Et_noSign hm (by rw [hp]; exact spl_ne_2022) h0.Et h0.funds
    · rw [if_neg hp]
      exact h.blank hC s.rEs s.Es_noSign hm hp h0.Es h0.funds
  rw [← Setting.escrowed_eq hb]
  exact this

/-- **C106** For an unwrapped mint that initially has neither permanent delegate nor close authority
(every SPL Token mint, for instance), in every history whatsoever of the build. -/
theorem build_backed_plain (hC : SafeCustomizer C) (h0 : Fresh s L0)
    (hm : PlainMint p s.u dec L0) (h : BuildHistory C cr ok L0 trace L) :
    supplyOf L s.W ≤ balanceOf L (s.escrowFor p) :=
  build_backed_by_one_escrow hC h0 hm.stable (h.plain hC h0.funds hm).1

/-- **C106** Redemption in every build: whoever may spend an unfrozen wrapped token account can unwrap any
positive part of its balance, under the conditions of `always_redeemable` (C18).  What a build can add to
stand in the way is in these conditions: a freeze authority of the wrapped mint (`thawed`) and a veto of
the token program (`hrej`: a paused wrapped mint, for instance). -/
theorem build_redeemable {env : Env} {holder rcp tauth : Pubkey}
    {members : List Pubkey} {t : TokenAcct} {amount : UInt64} {m : Mint} (hC : SafeCustomizer C)
    (h0 : Fresh s L0) (hm : StableMint p s.u dec L0)
    (h : BuildHistory C cr (PDIdle cr s.u) L0 trace L)
    (hcr : env.cr = cr) (hid : env.programId = crateId)
    (hrej : ∀ p ix sg L, env.reject p ix sg L = none)
    (hold : HoldsWrapped s L holder t) (thawed : t.frozen = false)
    (pos : amount ≠ 0) (enough : amount.toNat ≤ t.amount)
    (spend : CanSpend t none tauth amount.toNat) (approval : BuiltApproval s.wp L tauth members)
    (umint : (L s.u).data = .mint m) (spl : p = splTokenId → m.exts = []) (fees : FeesValid m)
    (wspl : ∀ w, s.wp = splTokenId → (L s.W).data = .mint w → w.exts = [])
    (usable : EscrowUsable L (s.escrowFor p))
    (recv : CanReceive L p s.u rcp m amount.toNat) :
    ∃ L', processInstructionWith C env
      (Build.unwrap crateId (s.escrowFor p) rcp s.A s.u s.wp p holder s.W tauth members amount).accounts
      (Build.unwrap crateId (s.escrowFor p) rcp s.A s.u s.wp p holder s.W tauth members amount).data L =
        .ok L' := by
  have hi := h.invB hC h0
  have hpl := h.stable hC h0.funds hm
  have hp := hpl.1
  have hback := build_backed_by_one_escrow hC h0 hm h
  have hle : t.amount + t.confidential ≤ supplyOf L s.W := by
    have := hi.claims {holder}
    rw [Finset.sum_singleton, claimOf_holds hold] at this
    exact this
  have hpos : 0 < amount.toNat := by
    rcases Nat.eq_zero_or_pos amount.toNat with h | h
    · exact absurd (UInt64.toNat_inj.1 (by simpa using h)) pos
    · exact h
  have key : EscrowOk s.u s.A p (s.escrowFor p) L := by
    unfold Setting.escrowFor
    rcases hp with rfl | rfl
    · rw [if_pos rfl]; exact hi.es
    · rw [if_neg (Ne.symm spl_ne_2022)]; exact hi.et
  obtain ⟨eo, e, ed, em, eow, edel, eam⟩ : (L (s.escrowFor p)).owner = p ∧
      ∃ e, (L (s.escrowFor p)).data = .token e ∧ e.mint = s.u ∧
      e.owner = s.A ∧ e.delegate = none ∧ e.amount = balanceOf L (s.escrowFor p) := by
    rcases key with hb | ⟨ho, e, he, h1, h2, h3, _⟩
    · rw [balanceOf_blank hb] at hback; omega
    · exact ⟨ho, e, he, h1, h2, h3, (balanceOf_token he).symm⟩
  have ef := usable e ed
  have en : e.isNative = none ∨ amount.toNat ≤ (L (s.escrowFor p)).lamports := by
    have f := ((h.funds hC h0.funds).all (s.escrowFor p)).tok e
      (by rw [eo]; rcases hp with rfl | rfl <;> rfl) ed
    cases hn : e.isNative with
    | none => exact .inl rfl
    | some r => have := (f.reserve r hn).2; exact .inr (by omega)
  obtain ⟨fee, hfee, hfl, hf0⟩ := feeOf_valid (prog := p) (epoch := env.epoch) fees
    (show amount.toNat ≤ u64Max by have := amount.toNat_lt; unfold u64Max; omega)
  obtain ⟨d, r1, r2, r3, r4, r5, r6⟩ := recv.acct
  have hw : Custom.WrappedOk s L := by
    rcases hi.w with ⟨h1, _⟩ | h1
    · rw [supplyOf_blank h1] at hle; omega
    · exact h1
  obtain ⟨w, hwd, hwa, _, hwe⟩ := hw.mint
  have hsup := supplyOf_mint hwd
  have addrE : associatedTokenAddress cr s.A s.u p = some (s.escrowFor p) := by
    unfold Setting.escrowFor
    rcases hp with rfl | rfl
    · rw [if_pos rfl]; exact s.rEs.address
    · rw [if_neg (Ne.symm spl_ne_2022)]; exact s.rEt.address
  have run : ∃ L', processInstruction env
      (Build.unwrap crateId (s.escrowFor p) rcp s.A s.u s.wp p holder s.W tauth members amount).accounts
      (Build.unwrap crateId (s.escrowFor p) rcp s.A s.u s.wp p holder s.W tauth members amount).data L =
        .ok L' := by
    refine unwrap_succeeds (fee := fee) (e := e) (d := d) (h := t) (m := m) (w := w) hid pos hrej
      { uprogOk := hp, wprogOk := s.wpOk, addrW := by rw [hcr]; exact s.rW.address
        addrA := by rw [hcr]; exact s.rA.address, addrE := by rw [hcr]; exact addrE
        wNeU := fun h => s.uFree.1 h.symm, hOwner := hold.1, hData := hold.2.1, hMint := hold.2.2
        hThawed := thawed, hNative := hi.noNative _ _ hold.1 hold.2.1 hold.2.2, enough := enough
        spend := ?_, approval := approval, wOwner := hw.owner, wData := hwd
        wExts := fun h => wspl w h hwd, supply := by omega, escOwner := eo, escData := ed, escMint := em
        escTokenOwner := eow, escThawed := ef, escDelegate := edel, escEnough := by omega
        escNative := en, aData := hi.a.2, mintOwner := hpl.2.1, mintData := umint, splExts := spl
        feeEq := hfee, feeLe := hfl, rOwner := r1, rData := r2, rMint := r3, rThawed := r4
        rFee := ?_, rRoom := by omega }
    · rcases spend with h | h
      · cases h
      · exact .inr h
    · rcases r6 with h | h
      · exact .inl (hf0 h)
      · exact .inr h
  obtain ⟨L', hL'⟩ := run
  refine ⟨L', ?_⟩
  have hd : (Build.unwrap crateId (s.escrowFor p) rcp s.A s.u s.wp p holder s.W tauth members amount).data =
    (TokenWrapInstruction.unwrap amount).pack := rfl
  rw [hd] at hL' ⊢
  rw [processInstruction_pack] at hL'
  unfold processInstructionWith
  rw [TokenWrap.unpack_pack]
  exact hL'

end

/-! ## A history of the compliance build -/

namespace Example.Hist.Forked

open TokenWrap.Example (ok get get_eq)
/-- The build that uses the compliance customizer. -/
abbrev C : Customizer := complianceCustomizer

def r2 := processInstructionWith C env mintAccs (TokenWrapInstruction.createMint false).pack L1
def L2 := get r2
def r3 := sysAllocate (fun k => k = rcp) rcp 170 L2
def L3 := get r3
def r4 := sysAssign (fun k => k = rcp) rcp token2022Id L3
def L4 := get r4
def r5 := tokenExec env token2022Id initIx (fun _ => false) L4
def L5 := get r5
def r6 := processInstructionWith C env wrapAccs (TokenWrapInstruction.wrap 1000).pack L5
def L6 := get r6
/-- the permanent delegate of the wrapped mint burns 400 of the user's wrapped tokens -/
def seizeIx : TokenIx := .burn rcp W compliancePermanentDelegate [] 400
def seizeSigned (k : Pubkey) : Bool := k = compliancePermanentDelegate
def r7 := tokenExec env token2022Id seizeIx seizeSigned L6
def L7 := get r7
def r8 := processInstructionWith C env unwrapAccs (TokenWrapInstruction.unwrap 300).pack L7
def L8 := get r8

def tr6 : List Act :=
  [.tokenWrap env wrapAccs (TokenWrapInstruction.wrap 1000).pack,
   .token env token2022Id initIx (fun _ => false), .assign rcp token2022Id, .allocate rcp 170,
   .tokenWrap env mintAccs (TokenWrapInstruction.createMint false).pack,
   .createAta env A u splTokenId]

def tr8 : List Act :=
  .tokenWrap env unwrapAccs (TokenWrapInstruction.unwrap 300).pack ::
  .token env token2022Id seizeIx seizeSigned :: tr6

variable {ok' : Act → Ledger → Prop}

theorem st1 : BuildStep C cr ok' (.createAta env A u splTokenId) L0 L1 :=
  .base (.createAta rfl ⟨by decide, L0_lamports⟩ (get_eq (by decide +kernel)) rent_pos)
theorem st2 : BuildStep C cr ok' (.tokenWrap env mintAccs (TokenWrapInstruction.createMint false).pack)
    L1 L2 :=
  .tokenWrap rfl rfl (signs_of (by decide +kernel)) (get_eq (by decide +kernel)) rent_pos
theorem st3 : BuildStep C cr ok' (.allocate rcp 170) L2 L3 :=
  .base (.allocate (.keypair (by decide +kernel)) (get_eq (by decide +kernel)))
theorem st4 : BuildStep C cr ok' (.assign rcp token2022Id) L3 L4 :=
  .base (.assign (.keypair (by decide +kernel)) ⟨List.replicate 170 0, by decide +kernel,
    by decide +kernel⟩ (get_eq (by decide +kernel)))
theorem st5 : BuildStep C cr ok' (.token env token2022Id initIx (fun _ => false)) L4 L5 :=
  .base (.token (by decide) (by simp) (get_eq (by decide +kernel)) rent_pos)
theorem st6 : BuildStep C cr ok' (.tokenWrap env wrapAccs (TokenWrapInstruction.wrap 1000).pack) L5 L6 :=
  .tokenWrap rfl rfl (signs_of (by decide +kernel)) (get_eq (by decide +kernel)) rent_pos
theorem st7 : BuildStep C cr ok' (.token env token2022Id seizeIx seizeSigned) L6 L7 :=
  .base (.token (by decide)
    (by intro k hk; exact .keypair (by rw [of_decide_eq_true hk]; decide +kernel))
    (get_eq (by decide +kernel)) rent_pos)
theorem st8 : BuildStep C cr ok' (.tokenWrap env unwrapAccs (TokenWrapInstruction.unwrap 300).pack)
    L7 L8 :=
  .tokenWrap rfl rfl (signs_of (by decide +kernel)) (get_eq (by decide +kernel)) rent_pos

theorem hist6 : BuildHistory C cr (fun _ _ => True) L0 tr6 L6 :=
  .step (.step (.step (.step (.step (.step .start trivial st1) trivial st2) trivial st3) trivial st4)
    trivial st5) trivial st6

theorem hist8 : BuildHistory C cr (fun _ _ => True) L0 tr8 L8 :=
  .step (.step hist6 trivial st7) trivial st8

theorem safe : SafeCustomizer C := shipped_safe .compliance

-- 1000 wrapped; the delegate of the *wrapped* mint burns 400, the user redeems 300; 700 stay in escrow
example : supplyOf L6 s.W = 1000 ∧ balanceOf L6 s.Es = 1000 ∧ supplyOf L7 s.W = 600 ∧
    supplyOf L8 s.W = 300 ∧ balanceOf L8 s.Es = 700 := by decide +kernel
example : supplyOf L8 s.W ≤ balanceOf L8 (s.escrowFor splTokenId) :=
  build_backed_plain safe fresh plain hist8
example : supplyOf L8 s.W ≤ balanceOf L8 s.Es + balanceOf L8 s.Et :=
  build_always_backed safe fresh (hist8.plain safe fresh.funds plain).1
-- the wrapped mint is that of the compliance build
example : (L8 W).data = .mint
    { mintAuthority := some A
      supply := 300
      decimals := 6
      freezeAuthority := some complianceFreezeAuthority
      exts := Shipped.exts A W .compliance } := by decide +kernel
example : (L8 s.W).owner = s.wp := by
  have := build_mint_permanent (m := ⟨some A, 1000, 6, some complianceFreezeAuthority,
    Shipped.exts A W .compliance⟩) safe fresh hist6 (by decide +kernel)
    (.step (.step .start trivial st7) trivial st8)
  exact this.1
-- the user can redeem in this build, too
example : ∃ L', processInstructionWith C env
    (Build.unwrap crateId (s.escrowFor splTokenId) src s.A s.u s.wp splTokenId rcp s.W user [] 300).accounts
    (Build.unwrap crateId (s.escrowFor splTokenId) src s.A s.u s.wp splTokenId rcp s.W user [] 300).data L6 =
      .ok L' := by
  have hd : (L6 rcp).data = .token (TokenWrap.Example.acct W user 1000 [.pausableAccount]) := by decide +kernel
  refine build_redeemable (t := TokenWrap.Example.acct W user 1000 [.pausableAccount])
    (m := TokenWrap.Example.uMint []) safe fresh plain.stable (hist6.plain safe fresh.funds plain).1 rfl rfl
    (fun _ _ _ _ => rfl)
    ⟨by decide +kernel, hd, rfl⟩ rfl (by decide) (by decide) (.inr (.inr ⟨by decide, rfl⟩))
    (.inl ⟨rfl, ?_⟩) (by decide +kernel) (fun _ => rfl) ?_ (fun _ h => absurd h (by decide +kernel)) ?_
    ⟨⟨TokenWrap.Example.acct u user 4000 [],
      by decide +kernel, by decide +kernel, rfl, rfl, by decide, .inl rfl⟩⟩
  · intro ms; have : (L6 user).data = .bytes [] := by decide +kernel
    rw [this]; simp
  · intro c hc; cases hc
  · intro e he
    have h1 : (L6 (s.escrowFor splTokenId)).data =
      .token (TokenWrap.Example.acct u A 1000 []) := by decide +kernel
    rw [h1] at he; cases he
    rfl

end Example.Hist.Forked

/-! ## The condition on the customizer is needed -/

namespace Example.Hist.Closable

open TokenWrap.Example (ok get get_eq)

/-- A customizer that gives `user` the close authority over the wrapped mint. -/
def closable : Customizer where
  token2022MintSpace := .ok (mintAccountLen [32])
  initializeExtensions env caller wrappedMint wrappedTokenProgram L :=
    invokeToken env caller [] [] wrappedTokenProgram
      (.initMintExt wrappedMint (.mintCloseAuthority (some user))) L
  freezeAuthAndDecimals := copyFreezeAndDecimals

def r1 := processInstructionWith closable env mintAccs (TokenWrapInstruction.createMint false).pack L0
def L1 := get r1
def closeIx : TokenIx := .closeAccount W src user []
def closeSigned (k : Pubkey) : Bool := k = user
def r2 := tokenExec env token2022Id closeIx closeSigned L1
def L2 := get r2

theorem hist : BuildHistory closable cr (fun _ _ => True) L0
    [.token env token2022Id closeIx closeSigned,
     .tokenWrap env mintAccs (TokenWrapInstruction.createMint false).pack] L2 :=
  .step (L := L1) (.step .start trivial
    (.tokenWrap rfl rfl (signs_of (by decide +kernel)) (get_eq (by decide +kernel)) rent_pos)) trivial
    (.base (.token (by decide)
      (by intro k hk; exact .keypair (by rw [of_decide_eq_true hk]; decide +kernel))
      (get_eq (by decide +kernel)) rent_pos))

end Example.Hist.Closable

open Example.Hist Example.Hist.Closable in
/-- **C106** The condition cannot be dropped: with a customizer that sets a close authority, there is a
history after which the wrapped mint is gone while its backpointer is left, and CreateMint can neither
create it again nor does it do anything when asked to be idempotent: the pair is dead for good. -/
theorem close_authority_kills_pair :
    ∃ (C : Customizer) (cr : Crypto) (s : Setting cr) (L0 L : Ledger) (trace : List Act),
      Fresh s L0 ∧ BuildHistory C cr (fun _ _ => True) L0 trace L ∧ Blank L s.W ∧ ¬ Blank L s.B ∧
      ∀ env accounts (wmint bp : Meta) rest, accounts = wmint :: bp :: rest → wmint.key = s.W →
        bp.key = s.B → ∀ L', (processInstructionWith C env accounts
          (TokenWrapInstruction.createMint false).pack L ≠ .ok L') ∧
        (processInstructionWith C env accounts (TokenWrapInstruction.createMint true).pack L = .ok L' →
          L' = L) := by
  refine ⟨closable, Example.Hist.cr, Example.Hist.s, Example.Hist.L0, Closable.L2, _, fresh, hist,
    by unfold Blank; decide +kernel, by unfold Blank; decide +kernel, ?_⟩
  intro env accounts wmint bp rest ha hw hb L'
  have hlen : 0 < (Closable.L2 bp.key).data.len := by rw [hb]; decide +kernel
  have key : ∀ idem, processInstructionWith closable env accounts
      (TokenWrapInstruction.createMint idem).pack Closable.L2 = .ok L' → idem = true ∧ L' = Closable.L2 := by
    intro idem h
    rcases Custom.processInstructionWith_ok h with ⟨idem', hp, h⟩ | ⟨hne, _⟩
    · have hi := pack_injective hp
      injection hi with hi
      subst hi
      obtain ⟨a, c, h2⟩ := processCreateMint_inv h
      have hkey : a.backpointer = bp := by
        obtain ⟨more, hs⟩ := c.accounts_eq
        rw [ha] at hs
        injection hs with _ hs
        injection hs with hs _
        exact hs.symm
      rcases h2 with ⟨h1, h2, _⟩ | ⟨_, _, _, _, h2, _⟩
      · exact ⟨h1, h2⟩
      · rw [hkey] at h2; omega
    · exact absurd rfl (hne idem)
  exact ⟨fun h => Bool.noConfusion (key false h).1, fun h => (key true h).2⟩

end TokenWrap
