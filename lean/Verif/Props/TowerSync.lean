import Verif.Props.Descent
import Verif.Props.NeverBlocked
import Verif.Props.TwoPairs
/-!
# C110: metadata travels up a tower

A wrapped Token-2022 mint keeps its metadata in itself and its metadata pointer says so.  Hence, if it
is wrapped again, the layer above can be synced without any extra account, and one transaction of syncs,
from the bottom up, shows the metadata of the bottom mint in every layer of a tower of any height.
-/

set_option linter.unusedSimpArgs false

namespace TokenWrap

section
variable {cr : Crypto} {s s' s0 z : Setting cr} {ok : Act → Ledger → Prop} {L0 L L1 L' : Ledger}
  {trace : List Act} {env : Env} {sk op : Option Pubkey}

/-! ## Specification -/

/-- The instruction that copies the metadata of the unwrapped to the wrapped mint of the pair. -/
def syncOf (s : Setting cr) (sk op : Option Pubkey) : Call :=
  ⟨(Build.syncMetadataToToken2022 crateId s.W s.A s.u sk op).accounts,
    (Build.syncMetadataToToken2022 crateId s.W s.A s.u sk op).data⟩

/-- Instructions `is` that sync the pair `s`, `i` layers above the pair `s0`, from the bottom up; only
the bottom one may name accounts the metadata comes from.  `ls` are the pairs, the highest first. -/
inductive SyncUp (L0 L : Ledger) (s0 : Setting cr) (sk op : Option Pubkey) :
    Nat → Setting cr → List (Setting cr) → List Call → Prop
  | bottom (fresh : Fresh s0 L0) (h22 : s0.wp = token2022Id) (created : ∃ m, (L s0.W).data = .mint m) :
      SyncUp L0 L s0 sk op 0 s0 [s0] [syncOf s0 sk op]
  | up {i : Nat} {s s' : Setting cr} {ls : List (Setting cr)} {is : List Call}
      (below : SyncUp L0 L s0 sk op i s ls is) (fresh : Fresh s' L0) (hu : s'.u = s.W)
      (h22 : s'.wp = token2022Id) (created : ∃ m, (L s'.W).data = .mint m) :
      SyncUp L0 L s0 sk op (i + 1) s' (s' :: ls) (is ++ [syncOf s' none none])

/-- The wrapped mint of `s` shows the same metadata as `src`. -/
def Shows (s : Setting cr) (L : Ledger) (src : TokenMetadata) : Prop :=
  ∃ m md, (L s.W).data = .mint m ∧ m.tokenMetadata? = some md ∧ SameMetadata md src

/-! ## Proof -/

theorem SameFields.trans {a b c : List (String × String)} (h : SameFields a b) (h' : SameFields b c) :
    SameFields a c := by
  rw [sameFields_iff] at *
  exact ⟨h.1, fun k => by rw [h.2, lastValue_of_nodup h'.1, h'.2]⟩

theorem SameMetadata.trans {a b c : TokenMetadata} (h : SameMetadata a b) (h' : SameMetadata b c) :
    SameMetadata a c :=
  ⟨h.1.trans h'.1, h.2.1.trans h'.2.1, h.2.2.1.trans h'.2.2.1, h.2.2.2.trans h'.2.2.2⟩

theorem syncOf_unsigned (k : Pubkey) : ¬ Signs (syncOf s sk op).accounts k := by
  rintro ⟨m, hm, _, hs⟩
  simp only [syncOf, Build.syncMetadataToToken2022, List.mem_append, List.mem_cons, List.not_mem_nil,
    or_false, List.mem_map] at hm
  rcases hm with (rfl | rfl | rfl | rfl) | ⟨_, _, rfl⟩ <;> cases hs

theorem syncOf_keys (h : op.isSome → sk.isSome) :
    ((syncOf s sk op).accounts[4]?.map (·.key)) = sk ∧
      ((syncOf s sk op).accounts[5]?.map (·.key)) = op := by
  cases sk <;> cases op <;> simp_all [syncOf, Build.syncMetadataToToken2022, Meta.ro]

/-- One sync, in every history: what it leaves behind. -/
theorem sync_layer {src : TokenMetadata} {w : Mint} (h0 : Fresh s L0) (h : History cr ok L0 trace L)
    (h22 : s.wp = token2022Id) (hcr : env.cr = cr) (hid : env.programId = crateId)
    (hord : FairOrder env) (hacc : AcceptsMetadata env) (created : (L s.W).data = .mint w)
    (hso : op.isSome → sk.isSome) (hsrc : MetadataSource env L s.u sk op src) :
    ∃ L', processInstruction env (syncOf s sk op).accounts (syncOf s sk op).data L = .ok L' ∧
      Shows s L' src ∧ OnlyChanged [s.W] L L' := by
  obtain ⟨L', hx⟩ := sync22_never_blocked h0 h h22 hcr hid hord hacc created hso hsrc
  refine ⟨L', hx, ?_, ?_⟩
  · obtain ⟨src', m', md', h1, h2, h3, h4⟩ :=
      sync22_equals_source_always (accounts := (syncOf s sk op).accounts) h0 h h22 hcr hord hx rfl
    rw [(syncOf_keys hso).1, (syncOf_keys hso).2] at h1
    rw [h1.unique hsrc] at h4
    exact ⟨m', md', h2, h3, h4⟩
  · obtain ⟨W, A, rest, _, _, _, e, _, h1, _⟩ :=
      sync22_changes_only_metadata (accounts := (syncOf s sk op).accounts) hx
    have e : W.key = s.W := by
      have := congrArg (fun l => (l[0]?).map Meta.key) e
      simp [syncOf, Build.syncMetadataToToken2022, Meta.rw] at this
      exact this.symm
    rw [e] at h1; exact h1

/-- In every history, a wrapped mint that shows metadata is the source of a layer above it. -/
theorem layer_source {src : TokenMetadata} (h0 : Fresh s L0) (h : History cr ok L0 trace L)
    (h22 : s.wp = token2022Id) (hs : Shows s L src) (sk op : Option Pubkey) :
    ∃ md, MetadataSource env L s.W sk op md ∧ SameMetadata md src := by
  obtain ⟨m, md, hm, hmd, same⟩ := hs
  refine ⟨md, .self ?_ hm hmd, same⟩
  rcases (h.inv' h0).w with ⟨hb, _⟩ | hw
  · rw [hb.2] at hm; cases hm
  obtain ⟨x, hx, _, _, he⟩ := hw.mint
  obtain rfl := Data.mint.inj (hx.symm.trans hm)
  refine ⟨hw.owner.trans h22, x, hx, ?_⟩
  rcases he with ⟨h, _⟩ | ⟨_, h | ⟨md', h, _⟩⟩
  · rw [h22] at h; exact absurd h.symm spl_ne_2022
  · simp [Mint.metadataPointer?, h, defaultExts]
  · simp [Mint.metadataPointer?, h, defaultExts]

theorem SyncUp.level {i : Nat} {ls : List (Setting cr)} {is : List Call}
    (h : SyncUp L0 L s0 sk op i s ls is) : Level L0 s0 i s := by
  induction h with
  | bottom fresh => exact .zero fresh
  | up _ fresh hu _ _ ih => exact .succ ih fresh hu

theorem SyncUp.levels {i : Nat} {ls : List (Setting cr)} {is : List Call}
    (h : SyncUp L0 L s0 sk op i s ls is) : ∀ z ∈ ls, ∃ j, j ≤ i ∧ Level L0 s0 j z := by
  induction h with
  | bottom fresh =>
    intro z hz
    rw [List.mem_singleton.1 hz]
    exact ⟨0, Nat.le_refl _, .zero fresh⟩
  | up below fresh hu _ _ ih =>
    intro z hz
    rcases List.mem_cons.1 hz with rfl | hz
    · exact ⟨_, Nat.le_refl _, .succ below.level fresh hu⟩
    · obtain ⟨j, hj, h⟩ := ih z hz
      exact ⟨j, by omega, h⟩

theorem runCalls_append {a b : List Call} (h : runCalls env a L = .ok L1) :
    runCalls env (a ++ b) L = runCalls env b L1 := by
  induction a generalizing L with
  | nil => cases h; rfl
  | cons c rest ih =>
    obtain ⟨L2, h1, h2⟩ := bind_ok_iff.1 h
    rw [← ih h2, List.cons_append]
    exact (congrArg (fun r => r >>= runCalls env (rest ++ b)) h1 :)

/-- **C110** In every history, if the source of the bottom mint's metadata can be read, the one
transaction that syncs layer by layer from the bottom up succeeds; then every layer shows exactly that
metadata, and nothing but the wrapped mints of the layers has changed. -/
theorem metadata_climbs {src : TokenMetadata} {i : Nat} {top : Setting cr} {ls : List (Setting cr)}
    {is : List Call} (hm : ∃ m, (L0 s0.u).data = .mint m)
    (hist : History cr (fun _ _ => True) L0 trace L) (hcr : env.cr = cr) (hid : env.programId = crateId)
    (hr : ∀ n, 0 < env.rentMin n) (hord : FairOrder env) (hacc : AcceptsMetadata env)
    (hso : op.isSome → sk.isSome) (hsrc : MetadataSource env L s0.u sk op src)
    (climb : SyncUp L0 L s0 sk op i top ls is) :
    ∃ L', runCalls env is L = .ok L' ∧ (∀ z ∈ ls, Shows z L' src) ∧
      OnlyChanged (ls.map (·.W)) L L' := by
  have hstep : ∀ {s : Setting cr} {sk op L L' trace}, History cr (fun _ _ => True) L0 trace L →
      processInstruction env (syncOf s sk op).accounts (syncOf s sk op).data L = .ok L' →
      ∃ trace', History cr (fun _ _ => True) L0 trace' L' := fun h hx =>
    ⟨_, .step h trivial (.tokenWrap hcr hid (fun k hk => absurd hk (syncOf_unsigned k)) hx hr)⟩
  suffices H : ∃ L' trace', runCalls env is L = .ok L' ∧ History cr (fun _ _ => True) L0 trace' L' ∧
      (∀ z ∈ ls, Shows z L' src) ∧ OnlyChanged (ls.map (·.W)) L L' ∧ top ∈ ls ∧
      top.wp = token2022Id by
    obtain ⟨L', _, h1, _, h2, h3, _⟩ := H
    exact ⟨L', h1, h2, h3⟩
  induction climb with
  | bottom fresh h22 created =>
    obtain ⟨w, created⟩ := created
    obtain ⟨L', hx, hs, hc⟩ := sync_layer fresh hist h22 hcr hid hord hacc created hso hsrc
    obtain ⟨tr, hist'⟩ := hstep hist hx
    refine ⟨L', tr, ?_, hist', ?_, hc, List.mem_singleton.2 rfl, h22⟩
    · unfold runCalls
      rw [hx]; rfl
    · intro z hz
      rw [List.mem_singleton.1 hz]; exact hs
  | @up i s s' ls is below fresh hu h22 created ih =>
    obtain ⟨L1, tr, hrun, hist1, hsh, honly, hmem, hwp⟩ := ih
    have hne : ∀ z ∈ ls, z.W ≠ s'.W := by
      intro z hz e
      obtain ⟨j, hj, hlv⟩ := below.levels z hz
      have := Level.inj hm hlv (.succ below.level fresh hu) e
      omega
    obtain ⟨w, created⟩ := created
    have created1 : (L1 s'.W).data = .mint w := by
      rw [honly s'.W (by
        intro hin
        obtain ⟨z, hz, e⟩ := List.mem_map.1 hin
        exact hne z hz e)]
      exact created
    obtain ⟨md, hsrc1, same⟩ :=
      layer_source (env := env) below.level.fresh hist1 hwp (hsh s hmem) none none
    rw [← hu] at hsrc1
    obtain ⟨L', hx, ⟨m2, md2, g1, g2, g3⟩, hc⟩ :=
      sync_layer (sk := none) (op := none) fresh hist1 h22 hcr hid hord hacc created1 (by simp) hsrc1
    obtain ⟨tr', hist'⟩ := hstep hist1 hx
    refine ⟨L', tr', ?_, hist', ?_, ?_, List.mem_cons_self, h22⟩
    · rw [runCalls_append hrun]
      unfold runCalls
      rw [hx]; rfl
    · intro z hz
      rcases List.mem_cons.1 hz with rfl | hz
      · exact ⟨m2, md2, g1, g2, g3.trans same⟩
      · unfold Shows
        rw [hc z.W (by rw [List.mem_singleton]; exact hne z hz)]
        exact hsh z hz
    · intro k hk
      rw [List.map_cons, List.mem_cons, not_or] at hk
      rw [hc k (by rw [List.mem_singleton]; exact hk.1), honly k hk.2]

/-- **C110** Without metadata below there is none to climb: a layer whose mint below shows no metadata
cannot be synced, whatever accounts are supplied. -/
theorem no_metadata_to_climb {accounts : List Meta} {w : Mint} (h0 : Fresh s L0) (h0' : Fresh s' L0)
    (hist : History cr ok L0 trace L) (hu : s'.u = s.W) (h22 : s.wp = token2022Id)
    (h22' : s'.wp = token2022Id) (hcr : env.cr = cr)
    (created : (L s.W).data = .mint w) (hnone : w.tokenMetadata? = none) (hord : FairOrder env)
    (hW : (accounts[0]?).map Meta.key = some s'.W) :
    ∀ L', processInstruction env accounts TokenWrapInstruction.syncMetadataToToken2022.pack L ≠ .ok L' := by
  intro L' hx
  obtain ⟨src, _, _, h1, _⟩ := sync22_equals_source_always h0' hist h22' hcr hord hx hW
  rw [hu] at h1
  have hptr : HasPointer L s.W (some (some s.W)) := by
    rcases (hist.inv' h0).w with ⟨hb, _⟩ | hw
    · rw [hb.2] at created; cases created
    obtain ⟨x, hx, _, _, he⟩ := hw.mint
    obtain rfl := Data.mint.inj (hx.symm.trans created)
    refine ⟨hw.owner.trans h22, x, hx, ?_⟩
    rcases he with ⟨h, _⟩ | ⟨_, h | ⟨md', h, _⟩⟩
    · rw [h22] at h; exact absurd h.symm spl_ne_2022
    · simp [Mint.metadataPointer?, h, defaultExts]
    · simp [Mint.metadataPointer?, h, defaultExts]
  generalize accounts[4]?.map (·.key) = a at h1
  generalize accounts[5]?.map (·.key) = b at h1
  cases h1 with
  | metaplexPda h _ _ _ =>
    rcases h with h | h
    · rw [hptr.1] at h; exact spl_ne_2022 h.symm
    · have := h.mint created; rw [hptr.mint created] at this; cases this
  | self _ h2 h3 =>
    obtain rfl := Data.mint.inj (h2.symm.trans created)
    rw [hnone] at h3; cases h3
  | pointed h hne _ _ =>
    have := h.mint created; rw [hptr.mint created] at this
    exact hne (Option.some.inj (Option.some.inj this)).symm
  | external h hne _ _ _ _ =>
    have := h.mint created; rw [hptr.mint created] at this
    exact hne (Option.some.inj (Option.some.inj this)).symm

end

/-! ## A concrete tower of two Token-2022 layers over an SPL Token mint with Metaplex metadata -/

namespace Example.Hist.Two.Climb

open TokenWrap.Example (ok get get_eq)

def s4 : Setting cr where
  u := W
  wp := token2022Id
  W := W4
  A := A4
  B := B4
  Es := Es4
  Et := Et4
  wpOk := .inr rfl
  rW := reserved (by simp [table]) (by decide +kernel) (by decide +kernel)
  rA := reserved (by simp [table]) (by decide +kernel) (by decide +kernel)
  rB := reserved (by simp [table]) (by decide +kernel) (by decide +kernel)
  rEs := reserved (by simp [table]) (by decide +kernel) (by decide +kernel)
  rEt := reserved (by simp [table]) (by decide +kernel) (by decide +kernel)
  uFree := by decide +kernel
  aFree := by decide +kernel
  wFree := by decide +kernel

theorem fresh4 : Fresh s4 Two.L0 where
  W := by unfold Blank; decide +kernel
  A := by unfold Blank; decide +kernel
  B := by unfold Blank; decide +kernel
  Es := by unfold Blank; decide +kernel
  Et := by unfold Blank; decide +kernel
  noHolder := fun k t _ hd => Two.noHolder (by decide +kernel) k t hd
  funds := Two.L0_funds

def mintAccs4 : List Meta := (Build.createMint crateId W4 B4 W token2022Id false).accounts

/-- Rent for the second layer. -/
def C1 : Ledger := fun k => if k ∈ [W4, B4] then { Two.L0 k with lamports := 200 } else Two.L0 k
def C2 := get (processInstruction Two.env Two.mintAccs (TokenWrapInstruction.createMint false).pack C1)
def C3 := get (processInstruction Two.env mintAccs4 (TokenWrapInstruction.createMint false).pack C2)

theorem c1 : Step cr (fun _ _ => True) .lamports Two.L0 C1 := by
  refine .base (.lamports ?_ ?_)
  · intro k; unfold C1; split_ifs <;> exact ⟨rfl, rfl⟩
  · intro k h
    unfold C1 at h
    split_ifs at h with hk
    · exfalso
      simp only [List.mem_cons, List.not_mem_nil, or_false] at hk
      rcases hk with rfl | rfl <;> revert h <;> decide +kernel
    · exact absurd h (Nat.lt_irrefl _)

theorem hist : History cr (fun _ _ => True) Two.L0
    [.tokenWrap Two.env mintAccs4 (TokenWrapInstruction.createMint false).pack,
     .tokenWrap Two.env Two.mintAccs (TokenWrapInstruction.createMint false).pack, .lamports] C3 :=
  .step (.step (.step .start trivial c1) trivial
      (.tokenWrap rfl rfl (signs_of (by decide +kernel)) (get_eq (by decide +kernel)) Two.rent_pos))
    trivial
    (.tokenWrap rfl rfl (signs_of (by decide +kernel)) (get_eq (by decide +kernel)) Two.rent_pos)

def mintOf : Data → Option Mint
  | .mint m => some m
  | _ => none

theorem created_of {k : Pubkey} {L : Ledger} (h : (mintOf (L k).data).isSome = true) :
    ∃ m, (L k).data = .mint m := by
  cases hd : (L k).data <;> rw [hd] at h <;> first | exact ⟨_, rfl⟩ | cases h

theorem climb : SyncUp Two.L0 C3 s (some Xu) none 1 s4 [s4, s]
    [syncOf s (some Xu) none, syncOf s4 none none] :=
  .up (.bottom Two.fresh rfl (created_of (by decide +kernel))) fresh4 rfl rfl
    (created_of (by decide +kernel))

-- both layers show the Metaplex metadata of the SPL Token mint after the one transaction
example : ∃ L' src, MetadataSource Two.env C3 u (some Xu) none src ∧
    runCalls Two.env [syncOf s (some Xu) none, syncOf s4 none none] C3 = .ok L' ∧
    Shows s L' src ∧ Shows s4 L' src ∧ OnlyChanged [W4, W] C3 L' := by
  obtain ⟨src, _, h1, _⟩ := Two.source (L := C3) (by decide +kernel) (by decide +kernel)
  obtain ⟨L', h2, h3, h4⟩ := metadata_climbs ⟨TokenWrap.Example.uMint [], by decide +kernel⟩ hist rfl rfl
    Two.rent_pos (fun l => by exact List.Perm.refl _) (fun _ _ _ _ => rfl) (by simp) h1 climb
  exact ⟨L', src, h1, h2, h3 s (by simp), h3 s4 (by simp), h4⟩

-- before the first layer was synced the second cannot be
example : ((mintOf (C3 W).data).bind Mint.tokenMetadata?) = none ∧
    (mintOf (C3 W).data).isSome = true := by decide +kernel
example (L' : Ledger) : processInstruction Two.env (syncOf s4 none none).accounts
    TokenWrapInstruction.syncMetadataToToken2022.pack C3 ≠ .ok L' := by
  obtain ⟨w, hw⟩ := created_of (k := W) (L := C3) (by decide +kernel)
  refine no_metadata_to_climb (s := s) (s' := s4) (w := w) Two.fresh fresh4 hist rfl rfl rfl rfl hw ?_
    (fun l => by exact List.Perm.refl _) rfl L'
  have h : ((mintOf (C3 W).data).bind Mint.tokenMetadata?) = none := by decide +kernel
  rw [hw] at h; exact h

end Example.Hist.Two.Climb

end TokenWrap
