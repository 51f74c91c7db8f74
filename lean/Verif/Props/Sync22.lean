import Verif.Sync22Lemmas
import Verif.Props.Source
/-!
# C35–C37: SyncMetadataToToken2022

Account order: wrapped mint, authority, unwrapped mint, Token-2022 program, then optionally the
source metadata account and its owner program.
-/

set_option linter.unusedSimpArgs false

namespace TokenWrap

open TokenWrapInstruction

/-- Specification: the value a list of key–value pairs gives to a key when later entries override
earlier ones. -/
inductive LastValue : List (String × String) → String → String → Prop
  | here {l k v} : (∀ p ∈ l, p.1 ≠ k) → LastValue ((k, v) :: l) k v
  | there {p l k v} : LastValue l k v → LastValue (p :: l) k v

/-- Specification: the stored fields are, as a key–value map, those of the source: a pair is stored
exactly if it is the source's last word on that key, and no key is stored twice. -/
def SameFields (stored src : List (String × String)) : Prop :=
  (∀ k v, (k, v) ∈ stored ↔ LastValue src k v) ∧ (stored.map (·.1)).Nodup

/-- Specification: `stored` shows the same as `src`. -/
def SameMetadata (stored src : TokenMetadata) : Prop :=
  stored.name = src.name ∧ stored.symbol = src.symbol ∧ stored.uri = src.uri ∧
  SameFields stored.additional src.additional

/-- `HashMap` iteration visits every key exactly once, in whatever order. -/
def FairOrder (env : Env) : Prop := ∀ l, (env.hashOrder l).Perm l

theorem lastValue_iff {l : List (String × String)} {k v : String} :
    LastValue l k v ↔ lastValue l k = some v := by
  induction l with
  | nil =>
    constructor
    · intro h; cases h
    · intro h; simp [lastValue] at h
  | cons p rest ih =>
    rw [lastValue_cons]
    constructor
    · intro h
      cases h with
      | here h =>
        have : lastValue rest k = none := by
          rw [lastValue_eq_none]
          intro hk
          obtain ⟨q, hq, he⟩ := List.mem_map.1 hk
          exact h q hq he
        simp [this]
      | there h => rw [ih.1 h]; rfl
    · intro h
      cases hr : lastValue rest k with
      | some v' =>
        rw [hr] at h
        simp only [Option.some_or, Option.some.injEq] at h
        subst h
        exact .there (ih.2 hr)
      | none =>
        rw [hr] at h
        obtain ⟨a, b⟩ := p
        simp only [Option.none_or] at h
        split at h
        · rename_i hk
          subst hk
          cases h
          refine .here fun q hq he => lastValue_eq_none.1 hr (List.mem_map.2 ⟨q, hq, he⟩)
        · cases h

theorem mem_iff_lookup {l : List (String × String)} (h : (l.map (·.1)).Nodup) {k v : String} :
    (k, v) ∈ l ↔ l.lookup k = some v := by
  induction l with
  | nil => simp
  | cons p rest ih =>
    obtain ⟨a, b⟩ := p
    simp only [List.map_cons, List.nodup_cons] at h
    rw [List.mem_cons, ih h.2]
    by_cases hk : k = a
    · subst hk
      rw [lookup_eq_none.2 h.1]
      simp [List.lookup]
      exact eq_comm
    · simp [List.lookup, hk, beq_false_of_ne hk]

theorem sameFields_iff {st src : List (String × String)} :
    SameFields st src ↔ (st.map (·.1)).Nodup ∧ ∀ k, st.lookup k = lastValue src k := by
  unfold SameFields
  constructor
  · rintro ⟨h1, h2⟩
    refine ⟨h2, fun k => ?_⟩
    apply Option.ext
    intro v
    rw [← mem_iff_lookup h2, h1, lastValue_iff]
  · rintro ⟨h1, h2⟩
    refine ⟨fun k v => ?_, h1⟩
    rw [mem_iff_lookup h1, h2, lastValue_iff]

theorem syncedMd_same {W A : Pubkey} {src : TokenMetadata} {order : List String → List String}
    (hord : ∀ l, (order l).Perm l) {old : Option TokenMetadata}
    (hold : ∀ w, old = some w → (w.additional.map (·.1)).Nodup) :
    SameMetadata (syncedMd W A src order old) src := by
  cases old with
  | none =>
    refine ⟨rfl, rfl, rfl, sameFields_iff.2 ⟨collectMap_nodup _, collectMap_lookup _⟩⟩
  | some w =>
    have hn := hold w rfl
    refine ⟨rfl, rfl, rfl, sameFields_iff.2 ⟨?_, ?_⟩⟩
    · exact dropKeys_nodup _ (syncAddPure_nodup _ _ hn)
    · intro k
      show (dropKeys _ _).lookup k = _
      rw [dropKeys_lookup]
      have hm : k ∈ order ((syncAddPure src.additional (collectMap w.additional)
          w.additional).1.map (·.1)) ↔ k ∉ src.additional.map (·.1) ∧
          k ∈ w.additional.map (·.1) := by
        rw [(hord _).mem_iff, ← lookup_isSome_iff, syncAddPure_map]
        split
        · rename_i hk; simp [hk]
        · rename_i hk
          rw [collectMap_lookup, lastValue_of_nodup hn, lookup_isSome_iff]
          simp [hk]
      have hl := syncAddPure_lookup src.additional (collectMap w.additional) w.additional
        (fun k v h => by rw [collectMap_lookup, lastValue_of_nodup hn] at h; exact h) k
      by_cases hs : k ∈ src.additional.map (·.1)
      · rw [if_neg (by rw [hm]; exact fun h => h.1 hs), hl]
        cases hv : lastValue src.additional k with
        | some v => rfl
        | none => exact absurd hs (lastValue_eq_none.1 hv)
      · rw [lastValue_eq_none.2 hs]
        by_cases hw : k ∈ w.additional.map (·.1)
        · rw [if_pos (hm.2 ⟨hs, hw⟩)]
        · rw [if_neg (by rw [hm]; exact fun h => hw h.2), hl, lastValue_eq_none.2 hs,
            lookup_eq_none.2 hw]
          rfl

section sync22
variable {env : Env} {accounts : List Meta} {L L' : Ledger}

/-- The old metadata of the wrapped mint, if any, names no key twice (always so for metadata
written through the token program). -/
def UniqueKeys (L : Ledger) (W : Pubkey) : Prop :=
  ∀ m md, (L W).data = .mint m → m.tokenMetadata? = some md → (md.additional.map (·.1)).Nodup

/-- **C35** After a successful sync the wrapped mint shows exactly the metadata of the source:
name, symbol, URI, and the additional fields as a map, whether the metadata was created or updated
and whatever the hash-map iteration order.  The wrapped mint is the one of the unwrapped mint and
the Token-2022 program. -/
theorem sync22_equals_source (hord : FairOrder env)
    (h : processInstruction env accounts TokenWrapInstruction.syncMetadataToToken2022.pack L =
      .ok L') :
    ∃ W A u t rest src m' md', accounts = W :: A :: u :: t :: rest ∧
      wrappedMintAddress env.cr u.key token2022Id = some W.key ∧
      MetadataSource env L u.key (rest[0]?.map (·.key)) (rest[1]?.map (·.key)) src ∧
      (L' W.key).data = .mint m' ∧ m'.tokenMetadata? = some md' ∧
      (UniqueKeys L W.key → SameMetadata md' src) := by
  rw [processInstruction_pack] at h
  obtain ⟨a, src, m, m', e⟩ := processSync22_effect h
  obtain ⟨rest, hacc, hs, ho⟩ := parseSync22_ok_iff.1 e.parsed
  refine ⟨a.wrappedMint, a.authority, a.unwrappedMint, a.tokenProgram, rest, src, m',
    _, hacc, e.mint, ?_, by rw [e.final]; simp, e.stored, ?_⟩
  · rw [← hs, ← ho]; exact source_sound e.source
  · intro hu
    exact syncedMd_same hord fun w hw => hu m w e.wData hw

/-- The mint without its metadata extension. -/
def Mint.sansMetadata (m : Mint) : Mint :=
  { m with exts := m.exts.filter fun | .tokenMetadata _ => false | _ => true }

/-- **C36** A successful sync changes only the wrapped mint, and of it only the metadata: lamports,
owner, supply, decimals, authorities and all other extensions stay.  Existing metadata keeps its
update authority and its mint; new metadata is given the authority PDA and the wrapped mint. -/
theorem sync22_changes_only_metadata
    (h : processInstruction env accounts TokenWrapInstruction.syncMetadataToToken2022.pack L =
      .ok L') :
    ∃ W A rest m m' md', accounts = W :: A :: rest ∧
      authorityAddress env.cr W.key = some A.key ∧
      OnlyChanged [W.key] L L' ∧
      (L' W.key).lamports = (L W.key).lamports ∧ (L' W.key).owner = (L W.key).owner ∧
      (L W.key).data = .mint m ∧ (L' W.key).data = .mint m' ∧
      m'.sansMetadata = m.sansMetadata ∧
      m'.tokenMetadata? = some md' ∧
      (∀ md, m.tokenMetadata? = some md →
        md'.updateAuthority = md.updateAuthority ∧ md'.mint = md.mint) ∧
      (m.tokenMetadata? = none →
        m.mintAuthority = some A.key ∧ md'.updateAuthority = some A.key ∧ md'.mint = W.key) := by
  rw [processInstruction_pack] at h
  obtain ⟨a, src, m, m', e⟩ := processSync22_effect h
  obtain ⟨rest, hacc, hs, ho⟩ := parseSync22_ok_iff.1 e.parsed
  refine ⟨a.wrappedMint, a.authority, a.unwrappedMint :: a.tokenProgram :: rest, m, m', _, hacc,
    e.auth, ?_, by rw [e.final]; simp, by rw [e.final]; simp, e.wData, by rw [e.final]; simp, ?_,
    e.stored, ?_, ?_⟩
  · intro k hk
    rw [e.final]
    exact Ledger.setData_ne _ _ (by simpa using hk)
  · obtain ⟨h1, h2⟩ := e.same
    rw [h1]
    show Mint.mk _ _ _ _ (otherExts m'.exts) = Mint.mk _ _ _ _ (otherExts m.exts)
    rw [h2]
  · intro md hmd; rw [hmd]; exact ⟨rfl, rfl⟩
  · intro hmd
    rcases e.shape with ⟨md, h1, _⟩ | ⟨_, h2, _⟩
    · rw [hmd] at h1; cases h1
    · rw [hmd]; exact ⟨h2, rfl, rfl⟩

/-! ## Repeating a sync -/

theorem syncAdditional_noop {pda prog W A : Pubkey} {src : List (String × String)} {map : StrMap}
    (hn : (src.map (·.1)).Nodup) (h : ∀ p ∈ src, List.lookup p.1 map = some p.2) :
    ∃ map', syncAdditional env accounts pda prog W A src map L = .ok (map', L) ∧
      ∀ k, List.lookup k map' = if k ∈ src.map (·.1) then none else List.lookup k map := by
  induction src generalizing map with
  | nil => exact ⟨map, rfl, by simp⟩
  | cons p rest ih =>
    obtain ⟨a, b⟩ := p
    simp only [List.map_cons, List.nodup_cons] at hn
    have h0 := h (a, b) (by simp)
    dsimp only at h0
    obtain ⟨map', h1, h2⟩ := ih (map := map.erase a) hn.2 (by
      intro q hq
      simp only [StrMap.erase]
      rw [lookup_filter_ne]
      have hne : q.1 ≠ a := fun he => hn.1 (List.mem_map.2 ⟨q, hq, he⟩)
      rw [if_neg hne]
      exact h q (List.mem_cons_of_mem _ hq))
    refine ⟨map', ?_, ?_⟩
    · simp only [syncAdditional, h0, ne_eq, not_true_eq_false, if_false, ok_bind]
      exact h1
    · intro k
      rw [h2]
      simp only [StrMap.erase]
      rw [lookup_filter_ne]
      by_cases hk : k = a
      · simp [hk]
      · simp only [List.map_cons, List.mem_cons, hk, false_or, if_false]

theorem eq_nil_of_lookup {l : StrMap} (h : ∀ k, List.lookup k l = none) : l = [] := by
  cases l with
  | nil => rfl
  | cons p rest =>
    have := h p.1
    rw [lookup_eq_none] at this
    simp at this

/-- The update half of the sync does nothing when the stored metadata already shows the source. -/
theorem syncWrapped_noop {pda prog W A : Pubkey} {md src : TokenMetadata} (hord : FairOrder env)
    (hsame : SameMetadata md src) (hnd : (src.additional.map (·.1)).Nodup) :
    (do
      let L1 ← updateFieldsIfChanged env accounts pda prog W A md src baseFields L
      let (rest, L2) ← syncAdditional env accounts pda prog W A src.additional
        (collectMap md.additional) L1
      removeStale env accounts pda prog W A (env.hashOrder (List.map (fun p : String × String => p.1) rest)) L2) = .ok L := by
  obtain ⟨h1, h2, h3, h4⟩ := hsame
  obtain ⟨h5, h6⟩ := sameFields_iff.1 h4
  simp only [baseFields, updateFieldsIfChanged, h1, h2, h3, ne_eq, not_true_eq_false, if_false,
    ok_bind]
  obtain ⟨map', h7, h8⟩ := syncAdditional_noop (env := env) (accounts := accounts) (pda := pda)
    (prog := prog) (W := W) (A := A) (L := L)
    (map := collectMap md.additional) hnd (by
      intro p hp
      rw [collectMap_lookup, lastValue_of_nodup h5, h6, lastValue_of_nodup hnd]
      exact (mem_iff_lookup hnd).1 hp)
  rw [h7, ok_bind]
  have : map' = [] := by
    apply eq_nil_of_lookup
    intro k
    rw [h8, collectMap_lookup, lastValue_of_nodup h5, h6]
    split
    · rfl
    · rename_i hk; exact lastValue_eq_none.2 hk
  subst this
  have : env.hashOrder [] = [] := (hord []).eq_nil
  simp only [List.map_nil, this]
  rfl

/-- **C37** Repeating a sync against a source that still says the same and names no key twice
succeeds and changes nothing. -/
theorem sync22_idempotent (hord : FairOrder env)
    (h : processInstruction env accounts TokenWrapInstruction.syncMetadataToToken2022.pack L =
      .ok L')
    (hu : ∀ W rest, accounts = W :: rest → UniqueKeys L W.key)
    (hsrc : ∀ W A u t rest, accounts = W :: A :: u :: t :: rest →
      ∃ src, (src.additional.map (·.1)).Nodup ∧
        extractTokenMetadata env accounts u.key rest[0]? rest[1]? L = .ok src ∧
        extractTokenMetadata env accounts u.key rest[0]? rest[1]? L' = .ok src) :
    processInstruction env accounts TokenWrapInstruction.syncMetadataToToken2022.pack L' =
      .ok L' := by
  rw [processInstruction_pack] at h ⊢
  have hrun := h
  obtain ⟨a, src, m, m', e⟩ := processSync22_effect h
  obtain ⟨rest, hacc, hs, ho⟩ := parseSync22_ok_iff.1 e.parsed
  obtain ⟨src', hnd, hx1, hx2⟩ := hsrc _ _ _ _ rest hacc
  rw [← hs, ← ho] at hx1 hx2
  rw [e.source] at hx1
  cases hx1
  have hsame := syncedMd_same (W := a.wrappedMint.key) (A := a.authority.key) (src := src) hord
    (old := m.tokenMetadata?) (fun w hw => hu _ _ hacc m w e.wData hw)
  simp only [dispatch, processSyncToToken2022] at hrun ⊢
  inv_ok at hrun
  obtain ⟨a', ha', _, hp, _, hwo, em, hem, _, rfl, ⟨ea, bump⟩, hea, hrun⟩ := hrun
  rw [e.parsed] at ha'; cases ha'
  dsimp only at hrun
  obtain ⟨_, rfl, _, _, _, _, pda, hpda, _⟩ := hrun
  have hwo' : (L' a.wrappedMint.key).owner = token2022Id := by rw [e.final]; simpa using e.wOwner
  have hd : (L' a.wrappedMint.key).data = .mint m' := by rw [e.final]; simp
  have um : unpackMint (L' a.wrappedMint.key).data = .ok m' := by simpa using hd
  simp only [e.parsed, ok_bind, hp, decide_true, require_true, hwo', hem, okOr_some, hea, hx2,
    um, hpda, e.stored]
  generalize hmd : syncedMd a.wrappedMint.key a.authority.key src env.hashOrder
    m.tokenMetadata? = md at hsame
  exact syncWrapped_noop hord hsame hnd

/-- The source says the same before and after a sync whenever it is not the wrapped mint itself and
no foreign metadata program is asked. -/
theorem extract_unaffected {u W : Pubkey} {d : Data} {source op : Option Meta} {src : TokenMetadata}
    (hu : u ≠ W) (hs : ∀ s, source = some s → s.key ≠ W ∧
      ((L s.key).owner = metaplexId ∨ (L s.key).owner = token2022Id))
    (h : extractTokenMetadata env accounts u source op L = .ok src) :
    extractTokenMetadata env accounts u source op (L.setData W d) = .ok src := by
  have hu' : L.setData W d u = L u := Ledger.setData_ne _ _ hu
  have e0 : extractTokenMetadata env accounts u source op (L.setData W d) =
      extractTokenMetadata env accounts u source op L := by
    cases source with
    | none =>
      unfold extractTokenMetadata resolveToken2022Source readMetaplexForMint
      rw [hu']
      rfl
    | some s =>
      obtain ⟨h1, h2⟩ := hs s rfl
      have hs' : L.setData W d s.key = L s.key := Ledger.setData_ne _ _ h1
      have hr : readMetaplexForMint env u (some s) (L.setData W d) =
          readMetaplexForMint env u (some s) L := by
        unfold readMetaplexForMint
        simp only [okOr_some, ok_bind, hs']
      unfold extractTokenMetadata resolveToken2022Source
      rw [hu', hr]
      simp only [okOr_some, ok_bind, hs']
      rcases h2 with h2 | h2
      · simp [h2, mpl_ne_t22]
      · simp [h2]
  rw [e0, h]

end sync22

/-! ## A sync goes through -/

/-- The token program does not refuse (for size, rent, ...) any metadata instruction. -/
def AcceptsMetadata (env : Env) : Prop := ∀ ix s L,
  ((∃ m a f v, ix = .updateField m a f v) ∨ (∃ m a k, ix = .removeKey m a k false) ∨
    (∃ m a b n y u, ix = .initializeMetadata m a b n y u)) →
  env.reject token2022Id ix s L = none

section live
variable {env : Env} {accounts : List Meta} {W A : Pubkey} {L : Ledger} {m : Mint}

/-- The caller's accounts allow metadata CPIs for `W` signed by the PDA `A`. -/
structure MetaCaller (accounts : List Meta) (W A : Pubkey) : Prop where
  program : ∃ c ∈ accounts, c.key = token2022Id
  mint : ∃ c ∈ accounts, c.key = W ∧ c.writable = true
  auth : ∃ c ∈ accounts, c.key = A

theorem MetaCaller.enter (hc : MetaCaller accounts W A) {ix : TokenIx} {L : Ledger}
    (hm : ∀ x ∈ ix.metas, x.key = W ∧ x.signer = false ∨ x.key = A ∧ x.writable = false) :
    metaCpi env accounts A token2022Id ix L = tokenExec env token2022Id ix (signedBy ix.metas) L := by
  unfold metaCpi
  refine invokeToken_enter (.inr rfl) (by simp) hc.program ?_
  intro x hx
  obtain ⟨c, c1, c2, c3⟩ := hc.mint
  obtain ⟨d, d1, d2⟩ := hc.auth
  rcases hm x hx with ⟨h1, h2⟩ | ⟨h1, h2⟩
  · exact metaAllowed_of_mem c1 (c2.trans h1.symm) (fun _ => c3) (fun h => by rw [h2] at h; cases h)
  · exact metaAllowed_of_mem d1 (d2.trans h1.symm) (fun h => by rw [h2] at h; cases h)
      (fun _ => .inl (by rw [h1]; simp))

theorem metadataUpdateExec_ok {signed : Pubkey → Bool} {f : TokenMetadata → Res TokenMetadata}
    {md md' : TokenMetadata} (ho : (L W).owner = token2022Id)
    (hm : m.tokenMetadata?.isSome = true) (ha : md.updateAuthority = some A)
    (hs : signed A = true) (hf : f md = .ok md') :
    metadataUpdateExec token2022Id signed (L.setData W (.mint (withMd m md))) W A f =
      .ok (L.setData W (.mint (withMd m md'))) := by
  unfold metadataUpdateExec
  have hg : getMint token2022Id (L.setData W (.mint (withMd m md))) W = .ok (withMd m md) := by
    rw [getMint_ok_iff]
    exact ⟨by simpa using ho, by simp, fun h => absurd h.symm spl_ne_2022⟩
  simp only [hg, ok_bind, withMd_tokenMetadata hm, okOr_some, hs, ha, hf, decide_true, require_true]
  show Except.ok _ = _
  have hx : ({ withMd m md with exts := mapMetadata (fun _ => md') (withMd m md).exts } : Mint) =
      withMd m md' := withMd_withMd m md md'
  rw [hx]
  congr 1
  funext x; simp only [Ledger.setData_apply]; split <;> simp

theorem updateField_cpi_ok (hacc : AcceptsMetadata env) (hc : MetaCaller accounts W A)
    {md : TokenMetadata} (ho : (L W).owner = token2022Id)
    (hm : m.tokenMetadata?.isSome = true) (ha : md.updateAuthority = some A) (f : Field)
    (v : String) :
    metaCpi env accounts A token2022Id (.updateField W A f v)
        (L.setData W (.mint (withMd m md))) =
      .ok (L.setData W (.mint (withMd m (md.update f v)))) := by
  rw [hc.enter (by
    intro x hx
    simp only [TokenIx.metas, List.mem_cons, List.not_mem_nil, or_false] at hx
    rcases hx with rfl | rfl
    · exact .inl ⟨rfl, rfl⟩
    · exact .inr ⟨rfl, rfl⟩)]
  unfold tokenExec
  rw [hacc _ _ _ (.inl ⟨_, _, _, _, rfl⟩)]
  exact metadataUpdateExec_ok ho hm ha (by simp [signedBy, TokenIx.metas, Meta.ro]) rfl

theorem removeKey_cpi_ok (hacc : AcceptsMetadata env) (hc : MetaCaller accounts W A)
    {md : TokenMetadata} (ho : (L W).owner = token2022Id)
    (hm : m.tokenMetadata?.isSome = true) (ha : md.updateAuthority = some A) {k : String}
    (hk : md.hasKey k = true) :
    metaCpi env accounts A token2022Id (.removeKey W A k false)
        (L.setData W (.mint (withMd m md))) =
      .ok (L.setData W (.mint (withMd m (md.removeKey k)))) := by
  rw [hc.enter (by
    intro x hx
    simp only [TokenIx.metas, List.mem_cons, List.not_mem_nil, or_false] at hx
    rcases hx with rfl | rfl
    · exact .inl ⟨rfl, rfl⟩
    · exact .inr ⟨rfl, rfl⟩)]
  unfold tokenExec
  rw [hacc _ _ _ (.inr (.inl ⟨_, _, _, rfl⟩))]
  exact metadataUpdateExec_ok ho hm ha (by simp [signedBy, TokenIx.metas, Meta.ro])
    (by simp [removeKeyRes, hk]; rfl)

variable (hacc : AcceptsMetadata env) (hc : MetaCaller accounts W A)
  (ho : (L W).owner = token2022Id) (hm : m.tokenMetadata?.isSome = true)
include hacc hc ho hm

theorem updateFields_live {wrapped src : TokenMetadata}
    (fs : List (Field × (TokenMetadata → String))) {md : TokenMetadata}
    (ha : md.updateAuthority = some A) :
    ∃ md', md'.updateAuthority = some A ∧
      updateFieldsIfChanged env accounts A token2022Id W A wrapped src fs
        (L.setData W (.mint (withMd m md))) = .ok (L.setData W (.mint (withMd m md'))) := by
  induction fs generalizing md with
  | nil => exact ⟨md, ha, rfl⟩
  | cons p rest ih =>
    obtain ⟨f, x⟩ := p
    simp only [updateFieldsIfChanged]
    split
    · rw [updateField_cpi_ok hacc hc ho hm ha, ok_bind]
      exact ih (by cases f <;> exact ha)
    · rw [ok_bind]; exact ih ha

theorem syncAdditional_live (src : List (String × String)) (map : StrMap) {md : TokenMetadata}
    (ha : md.updateAuthority = some A) :
    ∃ md' map', md'.updateAuthority = some A ∧
      syncAdditional env accounts A token2022Id W A src map
        (L.setData W (.mint (withMd m md))) = .ok (map', L.setData W (.mint (withMd m md'))) := by
  induction src generalizing md map with
  | nil => exact ⟨md, map, ha, rfl⟩
  | cons p rest ih =>
    obtain ⟨f, x⟩ := p
    simp only [syncAdditional]
    split
    · rw [updateField_cpi_ok hacc hc ho hm ha, ok_bind]
      exact ih _ ha
    · rw [ok_bind]; exact ih _ ha

theorem addFields_live (src : List (String × String)) {md : TokenMetadata}
    (ha : md.updateAuthority = some A) :
    ∃ L', addFields env accounts A token2022Id W A src
        (L.setData W (.mint (withMd m md))) = .ok L' := by
  induction src generalizing md with
  | nil => exact ⟨_, rfl⟩
  | cons p rest ih =>
    obtain ⟨f, x⟩ := p
    simp only [addFields]
    rw [updateField_cpi_ok hacc hc ho hm ha, ok_bind]
    exact ih ha

theorem removeStale_live (ks : List String) (hn : ks.Nodup) {md : TokenMetadata}
    (ha : md.updateAuthority = some A) (hk : ∀ k ∈ ks, k ∈ md.additional.map (·.1)) :
    ∃ L', removeStale env accounts A token2022Id W A ks
        (L.setData W (.mint (withMd m md))) = .ok L' := by
  induction ks generalizing md with
  | nil => exact ⟨_, rfl⟩
  | cons k rest ih =>
    simp only [removeStale]
    have : md.hasKey k = true := by
      obtain ⟨p, h1, h2⟩ := List.mem_map.1 (hk k (by simp))
      exact List.any_eq_true.2 ⟨p, h1, by simpa using h2⟩
    rw [removeKey_cpi_ok hacc hc ho hm ha this, ok_bind]
    rw [List.nodup_cons] at hn
    refine ih hn.2 (md := md.removeKey k) ha ?_
    intro k' hk'
    have h1 := hk k' (List.mem_cons_of_mem _ hk')
    rw [← lookup_isSome_iff] at h1 ⊢
    show ((md.additional.filter (fun p => p.1 ≠ k)).lookup k').isSome = true
    have hne : k' ≠ k := fun e => hn.1 (e ▸ hk')
    rw [lookup_filter_ne, if_neg hne]
    exact h1

end live

/-- The instruction built for the derived addresses succeeds whenever the source can be read and the
wrapped mint either has no metadata, but the pointer for it and the authority PDA as mint authority,
or metadata which the authority PDA may update or which is up to date. -/
theorem sync22_ok {env : Env} {u W A : Pubkey} {sk ok : Option Pubkey} {L : Ledger} {m : Mint}
    {src : TokenMetadata} (hid : env.programId = crateId) (hord : FairOrder env)
    (hacc : AcceptsMetadata env) (hso : ok.isSome → sk.isSome)
    (hW : wrappedMintAddress env.cr u token2022Id = some W)
    (hA : authorityAddress env.cr W = some A)
    (hsrc : MetadataSource env L u sk ok src)
    (ho : (L W).owner = token2022Id) (hd : (L W).data = .mint m)
    (hnone : m.tokenMetadata? = none → m.mintAuthority = some A ∧ m.metadataPointer?.isSome = true)
    (hmd : ∀ md, m.tokenMetadata? = some md → (md.additional.map (·.1)).Nodup ∧
      (md.updateAuthority = some A ∨
        SameMetadata md src ∧ (src.additional.map (·.1)).Nodup)) :
    ∃ L', processInstruction env (Build.syncMetadataToToken2022 crateId W A u sk ok).accounts
      (Build.syncMetadataToToken2022 crateId W A u sk ok).data L = .ok L' := by
  obtain ⟨bump, hA'⟩ := authorityAddress_some.1 hA
  simp only [Build.syncMetadataToToken2022]
  rw [processInstruction_pack]
  have hx : ∃ s o : Option Meta, parseSync22 ([Meta.rw W false, .ro A false, .ro u false,
        .ro token2022Id false] ++ (sk.toList ++ ok.toList).map (fun k => Meta.ro k false)) =
        .ok ⟨.rw W false, .ro A false, .ro u false, .ro token2022Id false, s, o⟩ ∧
      s.map (·.key) = sk ∧ o.map (·.key) = ok ∧
      (∀ x, s = some x → x ∈ ([Meta.rw W false, .ro A false, .ro u false, .ro token2022Id false] ++
        (sk.toList ++ ok.toList).map (fun k => Meta.ro k false))) ∧
      (∀ x, o = some x → x ∈ ([Meta.rw W false, .ro A false, .ro u false, .ro token2022Id false] ++
        (sk.toList ++ ok.toList).map (fun k => Meta.ro k false))) := by
    cases sk with
    | none =>
      cases ok with
      | none => exact ⟨none, none, rfl, rfl, rfl, by simp, by simp⟩
      | some o => simp at hso
    | some s =>
      cases ok with
      | none => exact ⟨some (.ro s false), none, rfl, rfl, rfl, by simp, by simp⟩
      | some o => exact ⟨some (.ro s false), some (.ro o false), rfl, rfl, rfl, by simp, by simp⟩
  generalize hlist : ([Meta.rw W false, .ro A false, .ro u false, .ro token2022Id false] ++
    (sk.toList ++ ok.toList).map (fun k => Meta.ro k false)) = accounts at hx
  obtain ⟨s, o, hp, hs, ho', hsm, hom⟩ := hx
  rw [← hs, ← ho'] at hsrc
  have hex := source_complete hsm hom hsrc
  have hcall : MetaCaller accounts W A := by
    refine ⟨⟨.ro token2022Id false, ?_, rfl⟩, ⟨.rw W false, ?_, rfl, rfl⟩, ⟨.ro A false, ?_, rfl⟩⟩ <;>
      rw [← hlist] <;> simp
  have hsg : signerPda env (authoritySignerSeeds W bump) = .ok A := by
    rw [signerPda_ok_iff, hid]; exact findProgramAddress_spec hA'
  have um : unpackMint (L W).data = .ok m := by simpa using hd
  have hself : L = L.setData W (.mint m) := by
    rw [← hd]; exact (Ledger.set_self L _).symm
  simp only [dispatch, processSyncToToken2022, hp, ok_bind, Meta.ro, Meta.rw, decide_true,
    require_true, ho, hW, okOr_some, hA', hex, um, hsg]
  cases htm : m.tokenMetadata? with
  | some wrapped =>
    have hsm' : m.tokenMetadata?.isSome = true := by rw [htm]; rfl
    obtain ⟨hnd, hau⟩ := hmd wrapped htm
    dsimp only
    rcases hau with hau | ⟨hsame, hsnd⟩
    case inr => exact ⟨L, syncWrapped_noop hord hsame hsnd⟩
    have hstart : L = L.setData W (.mint (withMd m wrapped)) := by rw [withMd_self htm]; exact hself
    obtain ⟨md1, a1, h1⟩ := updateFields_live (L := L) hacc hcall ho hsm' (wrapped := wrapped)
      (src := src) baseFields hau
    rw [← hstart] at h1
    have e1 := updateFields_inv (L := L) hsm' (md := wrapped) rfl (by rw [← hstart]; exact h1)
    rw [h1, ok_bind, e1]
    obtain ⟨md2, map', a2, h2⟩ := syncAdditional_live (L := L) hacc hcall ho hsm' src.additional
      (collectMap wrapped.additional)
      (md := { wrapped with name := src.name, symbol := src.symbol, uri := src.uri }) hau
    obtain ⟨e2, e3⟩ := syncAdditional_inv hsm' h2
    rw [h2, ok_bind]
    dsimp only
    rw [e3, e2]
    refine removeStale_live hacc hcall ho hsm' _ ?_ hau ?_
    · rw [(hord _).nodup_iff]
      exact syncAddPure_map_nodup _ _ (collectMap_nodup _)
    · intro k hk
      rw [(hord _).mem_iff, ← lookup_isSome_iff, syncAddPure_map] at hk
      split at hk
      · cases hk
      · rw [← lookup_isSome_iff]
        show (List.lookup k (syncAddPure _ _ _).2).isSome = true
        rw [syncAddPure_lookup _ _ _ (fun k v h => by
          rw [collectMap_lookup, lastValue_of_nodup hnd] at h; exact h)]
        rw [collectMap_lookup, lastValue_of_nodup hnd] at hk
        cases lastValue src.additional k with
        | some _ => rfl
        | none => exact hk
  | none =>
    obtain ⟨hma, hptr⟩ := hnone htm
    dsimp only
    have h1 : metaCpi env accounts A token2022Id
        (.initializeMetadata W A A src.name src.symbol src.uri) L =
        .ok (L.setData W (.mint { m with exts := m.exts ++ [.tokenMetadata ⟨some A, W, src.name,
          src.symbol, src.uri, []⟩] })) := by
      rw [hcall.enter (by
        intro x hx
        simp only [TokenIx.metas, List.mem_cons, List.not_mem_nil, or_false] at hx
        rcases hx with rfl | rfl | rfl | rfl
        · exact .inl ⟨rfl, rfl⟩
        · exact .inr ⟨rfl, rfl⟩
        · exact .inl ⟨rfl, rfl⟩
        · exact .inr ⟨rfl, rfl⟩)]
      unfold tokenExec
      rw [hacc _ _ _ (.inr (.inr ⟨_, _, _, _, _, _, rfl⟩))]
      have hg : getMint token2022Id L W = .ok m := by
        rw [getMint_ok_iff]
        exact ⟨ho, hd, fun h => absurd h.symm spl_ne_2022⟩
      have hsb : signedBy (TokenIx.initializeMetadata W A A src.name src.symbol src.uri).metas A =
          true := by simp [signedBy, TokenIx.metas, Meta.ro]
      simp only [initializeMetadataExec, hg, ok_bind, hsb, hma, hptr, htm, decide_true,
        require_true, Option.isNone_none]
      rfl
    rw [h1, ok_bind]
    have hs1 : ({ m with exts := m.exts ++ [.tokenMetadata ⟨some A, W, src.name, src.symbol,
        src.uri, []⟩] } : Mint).tokenMetadata? =
        some ⟨some A, W, src.name, src.symbol, src.uri, []⟩ := by
      have := htm
      unfold Mint.tokenMetadata? at this ⊢
      simp [List.findSome?_append, this]
    rw [← withMd_self hs1]
    exact addFields_live hacc hcall ho (by rw [hs1]; rfl) src.additional rfl

/-- **C35** (liveness) The instruction built for the derived addresses succeeds whenever the source
can be read and the wrapped mint is as CreateMint and earlier syncs leave it. -/
theorem sync22_succeeds {env : Env} {u W A : Pubkey} {sk ok : Option Pubkey} {L : Ledger} {m : Mint}
    {src : TokenMetadata} (hid : env.programId = crateId) (hord : FairOrder env)
    (hacc : AcceptsMetadata env) (hso : ok.isSome → sk.isSome)
    (hW : wrappedMintAddress env.cr u token2022Id = some W)
    (hA : authorityAddress env.cr W = some A)
    (hsrc : MetadataSource env L u sk ok src)
    (ho : (L W).owner = token2022Id) (hd : (L W).data = .mint m)
    (hma : m.mintAuthority = some A) (hptr : m.metadataPointer?.isSome = true)
    (hmd : ∀ md, m.tokenMetadata? = some md →
      md.updateAuthority = some A ∧ (md.additional.map (·.1)).Nodup) :
    ∃ L', processInstruction env (Build.syncMetadataToToken2022 crateId W A u sk ok).accounts
      (Build.syncMetadataToToken2022 crateId W A u sk ok).data L = .ok L' :=
  sync22_ok hid hord hacc hso hW hA hsrc ho hd (fun _ => ⟨hma, hptr⟩)
    (fun md h => ⟨(hmd md h).2, .inl (hmd md h).1⟩)

namespace Example

/-- wrapped Token-2022 mint of `u` and its authority -/
def Ws : Pubkey := (wrappedMintAddress toyCrypto u token2022Id).getD default
def As : Pubkey := (authorityAddress toyCrypto Ws).getD default

/-- The wrapped mint after CreateMint, with the given further extensions. -/
def w22Mint (exts : List MintExt) : Mint :=
  { mintAuthority := some As, supply := 7, decimals := 6, freezeAuthority := none,
    exts := defaultExts As Ws ++ exts }

/-- An unwrapped mint with metadata in the mint, and its wrapped Token-2022 mint. -/
def Lsync (exts : List MintExt) : Ledger :=
  Lself.set Ws ⟨500, token2022Id, .mint (w22Mint exts)⟩

def oldMd : TokenMetadata :=
  { updateAuthority := some As, mint := Ws, name := "Old", symbol := "C", uri := "y",
    additional := [("stale", "1"), ("k2", "v2"), ("k1", "0")] }

def syncIx : Instr := Build.syncMetadataToToken2022 crateId Ws As u none none

def mdAt (L : Ledger) (k : Pubkey) : Option TokenMetadata :=
  match (L k).data with
  | .mint m => m.tokenMetadata?
  | _ => none

example : ok (processInstruction env syncIx.accounts syncIx.data (Lsync [])) = true := by
  decide +kernel
example : mdAt (get (processInstruction env syncIx.accounts syncIx.data (Lsync []))) Ws =
    some ⟨some As, Ws, "Coin", "C", "x", [("k1", "v3"), ("k2", "v2")]⟩ := by decide +kernel
example : mdAt (get (processInstruction env syncIx.accounts syncIx.data
      (Lsync [.tokenMetadata oldMd]))) Ws =
    some ⟨some As, Ws, "Coin", "C", "x", [("k2", "v2"), ("k1", "v3")]⟩ := by decide +kernel
example : AcceptsMetadata env := fun _ _ _ _ => rfl
example : FairOrder env := fun l => List.Perm.refl l
example : UniqueKeys (Lsync [.tokenMetadata oldMd]) Ws := by
  intro m md h1 h2
  have : (Lsync [.tokenMetadata oldMd] Ws).data = .mint (w22Mint [.tokenMetadata oldMd]) := by
    decide +kernel
  rw [this] at h1
  cases h1
  have : (w22Mint [.tokenMetadata oldMd]).tokenMetadata? = some oldMd := by decide +kernel
  rw [this] at h2
  cases h2
  decide +kernel

end Example

end TokenWrap
