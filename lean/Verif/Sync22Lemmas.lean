import Verif.CreateMintLemmas
import Verif.CpiLemmas
import Verif.Examples
/-! # Effects of SyncMetadataToToken2022 -/

set_option linter.unusedSimpArgs false

namespace TokenWrap

/-! ## Association lists -/

theorem lookup_setKeyValue (k v : String) (l : List (String × String)) (k' : String) :
    (setKeyValue k v l).lookup k' = if k' = k then some v else l.lookup k' := by
  induction l with
  | nil =>
    simp only [setKeyValue, List.lookup]
    by_cases h : k' = k
    · simp [h]
    · simp [h, beq_false_of_ne h]
  | cons p rest ih =>
    obtain ⟨a, b⟩ := p
    simp only [setKeyValue]
    split
    · rename_i ha
      subst ha
      by_cases h : k' = a
      · simp [List.lookup, h]
      · simp [List.lookup, h, beq_false_of_ne h]
    · rename_i ha
      by_cases h : k' = a
      · subst h
        simp [List.lookup, ha]
      · simp [List.lookup, beq_false_of_ne h, ih]

theorem keys_setKeyValue (k v : String) (l : List (String × String)) :
    (setKeyValue k v l).map (·.1) =
      if k ∈ l.map (·.1) then l.map (·.1) else l.map (·.1) ++ [k] := by
  induction l with
  | nil => simp [setKeyValue]
  | cons p rest ih =>
    obtain ⟨a, b⟩ := p
    simp only [setKeyValue]
    split
    · rename_i ha; subst ha; simp
    · rename_i ha
      simp only [List.map_cons, ih, List.mem_cons, Ne.symm ha, false_or]
      split <;> simp_all

theorem nodup_setKeyValue {k v : String} {l : List (String × String)} (h : (l.map (·.1)).Nodup) :
    ((setKeyValue k v l).map (·.1)).Nodup := by
  rw [keys_setKeyValue]
  split
  · exact h
  · rename_i hk
    rw [List.nodup_append]
    refine ⟨h, by simp, ?_⟩
    intro x hx y hy hxy
    subst hxy
    simp only [List.mem_cons, List.not_mem_nil, or_false] at hy
    exact hk (hy ▸ hx)

theorem lookup_isSome_iff {l : List (String × String)} {k : String} :
    (l.lookup k).isSome = true ↔ k ∈ l.map (·.1) := by
  induction l with
  | nil => simp
  | cons p rest ih =>
    obtain ⟨a, b⟩ := p
    by_cases h : k = a
    · simp [List.lookup, h]
    · simp [List.lookup, h, beq_false_of_ne h, ih]

theorem lookup_eq_none {l : List (String × String)} {k : String} :
    l.lookup k = none ↔ k ∉ l.map (·.1) := by
  rw [← lookup_isSome_iff]; cases l.lookup k <;> simp

theorem lookup_filter_ne {l : List (String × String)} {k k' : String} :
    (l.filter (fun p => p.1 ≠ k)).lookup k' = if k' = k then none else l.lookup k' := by
  induction l with
  | nil => simp
  | cons p rest ih =>
    obtain ⟨a, b⟩ := p
    by_cases ha : a = k
    · subst ha
      simp only [List.filter_cons, ne_eq, not_true_eq_false, decide_false, Bool.false_eq_true,
        if_false, List.lookup]
      rw [ih]
      by_cases h : k' = a
      · simp [h]
      · simp [h, beq_false_of_ne h]
    · have hd : decide (a ≠ k) = true := by simpa using ha
      simp only [List.filter_cons, hd, if_true, List.lookup]
      by_cases h : k' = a
      · subst h; simp [ha]
      · simp only [beq_false_of_ne h]
        exact ih

theorem lookup_append {l1 l2 : List (String × String)} {k : String} :
    (l1 ++ l2).lookup k = (l1.lookup k).or (l2.lookup k) := by
  induction l1 with
  | nil => simp
  | cons p rest ih =>
    obtain ⟨a, b⟩ := p
    by_cases h : k = a
    · simp [List.lookup, h]
    · simp [List.lookup, beq_false_of_ne h, ih]

/-- The last value given to a key. -/
def lastValue (l : List (String × String)) (k : String) : Option String := l.reverse.lookup k

theorem lastValue_cons (p : String × String) (l : List (String × String)) (k : String) :
    lastValue (p :: l) k = (lastValue l k).or (if k = p.1 then some p.2 else none) := by
  unfold lastValue
  rw [List.reverse_cons, lookup_append]
  congr 1
  obtain ⟨a, b⟩ := p
  by_cases h : k = a
  · simp [List.lookup, h]
  · simp [List.lookup, h, beq_false_of_ne h]

theorem lastValue_eq_none {l : List (String × String)} {k : String} :
    lastValue l k = none ↔ k ∉ l.map (·.1) := by
  unfold lastValue; rw [lookup_eq_none]; simp

theorem lookup_foldl_setKeyValue (l m : List (String × String)) (k : String) :
    (l.foldl (fun m p => setKeyValue p.1 p.2 m) m).lookup k = (lastValue l k).or (m.lookup k) := by
  induction l generalizing m with
  | nil => simp [lastValue]
  | cons p rest ih =>
    rw [List.foldl_cons, ih, lookup_setKeyValue, lastValue_cons]
    cases lastValue rest k with
    | some v => simp
    | none =>
      simp only [Option.none_or]
      split <;> simp

theorem nodup_foldl_setKeyValue (l : List (String × String)) {m : List (String × String)}
    (h : (m.map (·.1)).Nodup) :
    ((l.foldl (fun m p => setKeyValue p.1 p.2 m) m).map (·.1)).Nodup := by
  induction l generalizing m with
  | nil => exact h
  | cons p rest ih => exact ih (nodup_setKeyValue h)

theorem collectMap_lookup (l : List (String × String)) (k : String) :
    (collectMap l).lookup k = lastValue l k := by
  unfold collectMap; rw [lookup_foldl_setKeyValue]; simp

theorem collectMap_nodup (l : List (String × String)) : ((collectMap l).map (·.1)).Nodup :=
  nodup_foldl_setKeyValue l (by simp)

theorem lastValue_of_nodup {l : List (String × String)} (h : (l.map (·.1)).Nodup) (k : String) :
    lastValue l k = l.lookup k := by
  induction l with
  | nil => rfl
  | cons p rest ih =>
    obtain ⟨a, b⟩ := p
    simp only [List.map_cons, List.nodup_cons] at h
    rw [lastValue_cons, ih h.2]
    by_cases hk : k = a
    · subst hk
      rw [lookup_eq_none.2 h.1]
      simp [List.lookup]
    · simp [List.lookup, hk, beq_false_of_ne hk]

/-! ## The loops, on the metadata alone -/

/-- What the loop over the source's additional fields does to (remaining map, stored fields). -/
def syncAddPure : List (String × String) → StrMap → List (String × String) →
    StrMap × List (String × String)
  | [], map, add => (map, add)
  | (k, v) :: rest, map, add =>
    syncAddPure rest (map.erase k) (if map.lookup k ≠ some v then setKeyValue k v add else add)

theorem syncAddPure_map (src : List (String × String)) (map : StrMap)
    (add : List (String × String)) (k : String) :
    (syncAddPure src map add).1.lookup k = if k ∈ src.map (·.1) then none else map.lookup k := by
  induction src generalizing map add with
  | nil => simp [syncAddPure]
  | cons p rest ih =>
    obtain ⟨a, b⟩ := p
    rw [syncAddPure, ih]
    simp only [List.map_cons, List.mem_cons, StrMap.erase]
    rw [lookup_filter_ne]
    by_cases h : k = a
    · simp [h]
    · simp only [h, false_or, if_false]

theorem syncAddPure_nodup (src : List (String × String)) (map : StrMap)
    {add : List (String × String)} (h : (add.map (·.1)).Nodup) :
    ((syncAddPure src map add).2.map (·.1)).Nodup := by
  induction src generalizing map add with
  | nil => exact h
  | cons p rest ih =>
    obtain ⟨a, b⟩ := p
    rw [syncAddPure]
    apply ih
    split
    · exact nodup_setKeyValue h
    · exact h

/-- As long as the map agrees with what is stored, every source key ends up with its last value and
the others keep theirs. -/
theorem syncAddPure_lookup (src : List (String × String)) (map : StrMap)
    (add : List (String × String))
    (h : ∀ k v, map.lookup k = some v → add.lookup k = some v) (k : String) :
    (syncAddPure src map add).2.lookup k = (lastValue src k).or (add.lookup k) := by
  induction src generalizing map add with
  | nil => simp [syncAddPure, lastValue]
  | cons p rest ih =>
    obtain ⟨a, b⟩ := p
    rw [syncAddPure, ih, lastValue_cons]
    · cases lastValue rest k with
      | some v => simp
      | none =>
        simp only [Option.none_or]
        split
        · rw [lookup_setKeyValue]; split <;> simp
        · rename_i hs
          have hs : map.lookup a = some b := Decidable.byContradiction hs
          by_cases hk : k = a
          · subst hk; simp [h _ _ hs]
          · simp [hk]
    · intro k' v' hk'
      simp only [StrMap.erase] at hk'
      rw [lookup_filter_ne] at hk'
      split at hk'
      · cases hk'
      · rename_i hne
        have := h _ _ hk'
        split
        · rw [lookup_setKeyValue, if_neg hne]; exact this
        · exact this

theorem map_erase_nodup {map : StrMap} {k : String} (h : (map.map (·.1)).Nodup) :
    ((map.erase k).map (·.1)).Nodup :=
  h.sublist (List.filter_sublist.map _)

theorem syncAddPure_map_nodup (src : List (String × String)) {map : StrMap}
    (add : List (String × String)) (h : (map.map (·.1)).Nodup) :
    ((syncAddPure src map add).1.map (·.1)).Nodup := by
  induction src generalizing map add with
  | nil => exact h
  | cons p rest ih =>
    obtain ⟨a, b⟩ := p
    rw [syncAddPure]
    exact ih _ (map_erase_nodup h)

/-- Dropping the listed keys. -/
def dropKeys (ks : List String) (add : List (String × String)) : List (String × String) :=
  ks.foldl (fun add k => add.filter (fun p => p.1 ≠ k)) add

theorem dropKeys_lookup (ks : List String) (add : List (String × String)) (k : String) :
    (dropKeys ks add).lookup k = if k ∈ ks then none else add.lookup k := by
  unfold dropKeys
  induction ks generalizing add with
  | nil => simp
  | cons a rest ih =>
    rw [List.foldl_cons, ih, lookup_filter_ne]
    by_cases h : k = a
    · simp [h]
    · simp [h]

theorem dropKeys_nodup (ks : List String) {add : List (String × String)}
    (h : (add.map (·.1)).Nodup) : ((dropKeys ks add).map (·.1)).Nodup := by
  unfold dropKeys
  induction ks generalizing add with
  | nil => exact h
  | cons a rest ih => exact ih (map_erase_nodup h)

/-! ## Metadata inside the mint -/

/-- The mint with its metadata replaced. -/
def withMd (m : Mint) (md : TokenMetadata) : Mint :=
  { m with exts := mapMetadata (fun _ => md) m.exts }

theorem mapMetadata_mapMetadata (f g : TokenMetadata → TokenMetadata) (l : List MintExt) :
    mapMetadata f (mapMetadata g l) = mapMetadata (fun md => f (g md)) l := by
  induction l with
  | nil => rfl
  | cons e rest ih => cases e <;> simp [mapMetadata, ih]

theorem withMd_withMd (m : Mint) (a b : TokenMetadata) : withMd (withMd m a) b = withMd m b := by
  simp [withMd, mapMetadata_mapMetadata]

theorem findSome_mapMetadata (md : TokenMetadata) (l : List MintExt)
    (h : (l.findSome? fun | .tokenMetadata md => some md | _ => none).isSome = true) :
    (mapMetadata (fun _ => md) l).findSome? (fun | .tokenMetadata md => some md | _ => none) =
      some md := by
  induction l with
  | nil => simp at h
  | cons e rest ih =>
    cases e
    case tokenMetadata => simp [mapMetadata]
    all_goals
      simp only [mapMetadata, List.findSome?_cons] at h ⊢
      exact ih h

theorem withMd_tokenMetadata {m : Mint} (h : m.tokenMetadata?.isSome = true) (md : TokenMetadata) :
    (withMd m md).tokenMetadata? = some md := findSome_mapMetadata md m.exts h

theorem mapMetadata_self {md : TokenMetadata} {l : List MintExt}
    (h : (l.findSome? fun | .tokenMetadata md => some md | _ => none) = some md) :
    mapMetadata (fun _ => md) l = l := by
  induction l with
  | nil => rfl
  | cons e rest ih =>
    cases e
    case tokenMetadata =>
      simp at h
      simp [mapMetadata, h]
    all_goals
      simp only [List.findSome?_cons] at h
      simp only [mapMetadata, ih h]

theorem withMd_self {m : Mint} {md : TokenMetadata} (h : m.tokenMetadata? = some md) :
    withMd m md = m := by
  unfold withMd
  rw [mapMetadata_self h]

theorem mapMetadata_append {f : TokenMetadata → TokenMetadata} {l : List MintExt} {md : TokenMetadata}
    (h : (l.findSome? fun | .tokenMetadata md => some md | _ => none) = none) :
    mapMetadata f (l ++ [.tokenMetadata md]) = l ++ [.tokenMetadata (f md)] := by
  induction l with
  | nil => rfl
  | cons e rest ih =>
    cases e
    case tokenMetadata => simp at h
    all_goals
      simp only [List.findSome?_cons] at h
      simp only [List.cons_append, mapMetadata, ih h]

/-- The non-metadata extensions. -/
def otherExts (l : List MintExt) : List MintExt :=
  l.filter fun | .tokenMetadata _ => false | _ => true

theorem otherExts_mapMetadata (f : TokenMetadata → TokenMetadata) (l : List MintExt) :
    otherExts (mapMetadata f l) = otherExts l := by
  induction l with
  | nil => rfl
  | cons e rest ih =>
    cases e
    case tokenMetadata => simp [mapMetadata, otherExts]
    all_goals
      simp only [otherExts, mapMetadata, List.filter_cons, if_true] at ih ⊢
      rw [ih]

/-! ## The CPIs -/

theorem metadataUpdateExec_inv {prog : Pubkey} {signed : Pubkey → Bool} {L L' : Ledger}
    {mint ua : Pubkey} {f : TokenMetadata → Res TokenMetadata}
    (h : metadataUpdateExec prog signed L mint ua f = .ok L') :
    prog = token2022Id ∧ ∃ m md md', (L mint).owner = prog ∧ (L mint).data = .mint m ∧
      m.tokenMetadata? = some md ∧ signed ua = true ∧ md.updateAuthority = some ua ∧
      f md = .ok md' ∧ L' = L.setData mint (.mint (withMd m md')) := by
  unfold metadataUpdateExec at h
  simp only [bind_ok_iff, require_ok_iff, decide_eq_true_eq, getMint_ok_iff, okOr_ok_iff,
    pure_ok_iff] at h
  obtain ⟨_, h1, m, ⟨h2, h3, _⟩, md, h4, _, h5, _, h6, md', h7, h8⟩ := h
  exact ⟨h1, m, md, md', h2, h3, h4, h5, h6, h7, h8.symm⟩

theorem initializeMetadataExec_inv {prog : Pubkey} {signed : Pubkey → Bool} {L L' : Ledger}
    {mint ua ma : Pubkey} {name symbol uri : String}
    (h : initializeMetadataExec prog signed L mint ua ma name symbol uri = .ok L') :
    prog = token2022Id ∧ ∃ m, (L mint).owner = prog ∧ (L mint).data = .mint m ∧
      signed ma = true ∧ m.mintAuthority = some ma ∧ m.metadataPointer?.isSome = true ∧
      m.tokenMetadata? = none ∧ L' = L.setData mint (.mint { m with exts := m.exts ++
        [.tokenMetadata ⟨some ua, mint, name, symbol, uri, []⟩] }) := by
  unfold initializeMetadataExec at h
  simp only [bind_ok_iff, require_ok_iff, decide_eq_true_eq, getMint_ok_iff,
    pure_ok_iff] at h
  obtain ⟨_, h1, m, ⟨h2, h3, _⟩, _, h4, _, h5, _, h6, _, h7, h8⟩ := h
  exact ⟨h1, m, h2, h3, h4, h5, h6, by simpa using h7, h8.symm⟩

/-- A metadata CPI of the sync that changes the stored metadata from `md` to `md'`. -/
theorem metaCpi_update_inv {env : Env} {accounts : List Meta} {pda prog W A : Pubkey}
    {ix : TokenIx} {L L' : Ledger} {m : Mint} {md : TokenMetadata}
    (hm : m.tokenMetadata?.isSome = true) (hix : (∃ f v, ix = .updateField W A f v) ∨
      (∃ k, ix = .removeKey W A k false))
    (h : metaCpi env accounts pda prog ix (L.setData W (.mint (withMd m md))) = .ok L') :
    ∃ md', L' = L.setData W (.mint (withMd m md')) ∧ md'.updateAuthority = md.updateAuthority ∧
      md.updateAuthority = some A ∧
      ((∃ f v, ix = .updateField W A f v ∧ md' = md.update f v) ∨
       (∃ k, ix = .removeKey W A k false ∧ md.hasKey k = true ∧ md' = md.removeKey k)) := by
  unfold metaCpi at h
  obtain ⟨_, _, _, _, h⟩ := invokeToken_inv h
  have hrej := tokenExec_not_rejected h
  unfold tokenExec at h
  rw [hrej] at h
  rcases hix with ⟨f, v, rfl⟩ | ⟨k, rfl⟩
  · obtain ⟨_, m1, md1, md', h2, h3, h4, h5, h6, h7, h8⟩ := metadataUpdateExec_inv h
    simp only [Ledger.setData_same, Data.mint.injEq] at h3
    subst h3
    rw [withMd_tokenMetadata hm] at h4
    cases h4
    cases h7
    refine ⟨md.update f v, ?_, ?_, h6, .inl ⟨f, v, rfl, rfl⟩⟩
    · rw [h8, withMd_withMd]
      funext x; simp only [Ledger.setData_apply]; split <;> simp
    · cases f <;> rfl
  · obtain ⟨_, m1, md1, md', h2, h3, h4, h5, h6, h7, h8⟩ := metadataUpdateExec_inv h
    simp only [Ledger.setData_same, Data.mint.injEq] at h3
    subst h3
    rw [withMd_tokenMetadata hm] at h4
    cases h4
    unfold removeKeyRes at h7
    simp only [bind_ok_iff, require_ok_iff, pure_ok_iff, Bool.or_false] at h7
    obtain ⟨_, h9, h10⟩ := h7
    subst h10
    refine ⟨md.removeKey k, ?_, rfl, h6, .inr ⟨k, rfl, h9, rfl⟩⟩
    rw [h8, withMd_withMd]
    funext x; simp only [Ledger.setData_apply]; split <;> simp

section loops

variable {env : Env} {accounts : List Meta} {pda prog W A : Pubkey} {L : Ledger} {m : Mint}

theorem updateFields_inv (hm : m.tokenMetadata?.isSome = true) {wrapped src md : TokenMetadata}
    {L' : Ledger} (h1 : md = wrapped)
    (h : updateFieldsIfChanged env accounts pda prog W A wrapped src baseFields
      (L.setData W (.mint (withMd m md))) = .ok L') :
    L' = L.setData W (.mint (withMd m
      { md with name := src.name, symbol := src.symbol, uri := src.uri })) := by
  subst h1
  simp only [baseFields, updateFieldsIfChanged, bind_ok_iff] at h
  obtain ⟨La, ha, Lb, hb, Lc, hc, hd⟩ := h
  cases hd
  have ea : La = L.setData W (.mint (withMd m { md with name := src.name })) := by
    split at ha
    · obtain ⟨md', h1, h2, _, ⟨f, v, h3, h4⟩ | ⟨k, h3, _⟩⟩ :=
        metaCpi_update_inv hm (.inl ⟨_, _, rfl⟩) ha
      · cases h3; rw [h1, h4]; rfl
      · cases h3
    · rename_i heq
      have heq := Decidable.not_not.1 heq
      cases ha
      rw [← heq]
  subst ea
  have eb : Lb = L.setData W (.mint (withMd m
      { md with name := src.name, symbol := src.symbol })) := by
    split at hb
    · obtain ⟨md', h1, h2, _, ⟨f, v, h3, h4⟩ | ⟨k, h3, _⟩⟩ :=
        metaCpi_update_inv hm (.inl ⟨_, _, rfl⟩) hb
      · cases h3; rw [h1, h4]; rfl
      · cases h3
    · rename_i heq
      have heq := Decidable.not_not.1 heq
      cases hb
      rw [← heq]
  subst eb
  split at hc
  · obtain ⟨md', h1, h2, _, ⟨f, v, h3, h4⟩ | ⟨k, h3, _⟩⟩ :=
      metaCpi_update_inv hm (.inl ⟨_, _, rfl⟩) hc
    · cases h3; rw [h1, h4]; rfl
    · cases h3
  · rename_i heq
    have heq := Decidable.not_not.1 heq
    cases hc
    rw [← heq]

theorem syncAdditional_inv (hm : m.tokenMetadata?.isSome = true) {src : List (String × String)}
    {map map' : StrMap} {md : TokenMetadata} {L' : Ledger}
    (h : syncAdditional env accounts pda prog W A src map (L.setData W (.mint (withMd m md))) =
      .ok (map', L')) :
    map' = (syncAddPure src map md.additional).1 ∧
    L' = L.setData W (.mint (withMd m
      { md with additional := (syncAddPure src map md.additional).2 })) := by
  induction src generalizing map md with
  | nil =>
    simp only [syncAdditional, Except.ok.injEq, Prod.mk.injEq] at h
    obtain ⟨rfl, rfl⟩ := h
    exact ⟨rfl, rfl⟩
  | cons p rest ih =>
    obtain ⟨k, v⟩ := p
    simp only [syncAdditional, bind_ok_iff] at h
    obtain ⟨L1, h1, h2⟩ := h
    have e1 : L1 = L.setData W (.mint (withMd m { md with additional :=
        (if List.lookup k map ≠ some v then setKeyValue k v md.additional else md.additional) })) := by
      split at h1
      · obtain ⟨md', e1, e2, _, ⟨f, v', h3, h4⟩ | ⟨k', h3, _⟩⟩ :=
          metaCpi_update_inv hm (.inl ⟨_, _, rfl⟩) h1
        · cases h3; rw [e1, h4]; rw [if_pos (by assumption)]; rfl
        · cases h3
      · cases h1
        rw [if_neg (by assumption)]
    subst e1
    obtain ⟨r1, r2⟩ := ih h2
    exact ⟨r1, r2⟩

theorem removeStale_inv (hm : m.tokenMetadata?.isSome = true) {ks : List String}
    {md : TokenMetadata} {L' : Ledger}
    (h : removeStale env accounts pda prog W A ks (L.setData W (.mint (withMd m md))) = .ok L') :
    L' = L.setData W (.mint (withMd m { md with additional := dropKeys ks md.additional })) := by
  induction ks generalizing md with
  | nil =>
    simp only [removeStale, Except.ok.injEq] at h
    exact h.symm
  | cons k rest ih =>
    simp only [removeStale, bind_ok_iff] at h
    obtain ⟨L1, h1, h2⟩ := h
    obtain ⟨md', e1, e2, _, ⟨f, v', h3, h4⟩ | ⟨k', h3, _, h4⟩⟩ :=
      metaCpi_update_inv hm (.inr ⟨_, rfl⟩) h1
    · cases h3
    · cases h3
      subst e1
      rw [ih h2, h4]
      rfl

theorem addFields_inv (hm : m.tokenMetadata?.isSome = true) {src : List (String × String)}
    {md : TokenMetadata} {L' : Ledger}
    (h : addFields env accounts pda prog W A src (L.setData W (.mint (withMd m md))) = .ok L') :
    L' = L.setData W (.mint (withMd m { md with additional :=
      (src.foldl (fun m p => setKeyValue p.1 p.2 m) md.additional) })) := by
  induction src generalizing md with
  | nil =>
    simp only [addFields, Except.ok.injEq] at h
    exact h.symm
  | cons p rest ih =>
    obtain ⟨k, v⟩ := p
    simp only [addFields, bind_ok_iff] at h
    obtain ⟨L1, h1, h2⟩ := h
    obtain ⟨md', e1, e2, _, ⟨f, v', h3, h4⟩ | ⟨k', h3, _⟩⟩ :=
      metaCpi_update_inv hm (.inl ⟨_, _, rfl⟩) h1
    · cases h3
      subst e1
      rw [ih h2, h4]
      rfl
    · cases h3

end loops

/-! ## The whole instruction -/

theorem parseSync22_ok_iff {accounts : List Meta} {a : Sync22Accounts} :
    parseSync22 accounts = .ok a ↔ ∃ rest,
      accounts = [a.wrappedMint, a.authority, a.unwrappedMint, a.tokenProgram] ++ rest ∧
      a.source = rest[0]? ∧ a.ownerProgram = rest[1]? := by
  unfold parseSync22
  split
  · rename_i a1 a2 a3 a4 rest
    constructor
    · intro h; cases h; exact ⟨rest, rfl, rfl, rfl⟩
    · rintro ⟨r, h, hs, ho⟩; cases a; simp at h hs ho ⊢; obtain ⟨h1, h2, h3, h4, h5⟩ := h
      subst h5
      exact ⟨h1, h2, h3, h4, hs.symm, ho.symm⟩
  · rename_i hno
    constructor
    · intro h; cases h
    · rintro ⟨r, h, _⟩; exact absurd h (by simpa using hno _ _ _ _ _)

/-- The metadata a sync stores, given what was there (`none`: nothing) and the stale keys. -/
def syncedMd (W A : Pubkey) (src : TokenMetadata) (order : List String → List String) :
    Option TokenMetadata → TokenMetadata
  | none => { updateAuthority := some A, mint := W, name := src.name, symbol := src.symbol,
              uri := src.uri, additional := collectMap src.additional }
  | some w => { w with
      name := src.name, symbol := src.symbol, uri := src.uri
      additional := dropKeys
        (order ((syncAddPure src.additional (collectMap w.additional) w.additional).1.map (·.1)))
        (syncAddPure src.additional (collectMap w.additional) w.additional).2 }

/-- Everything a successful SyncMetadataToToken2022 establishes and does. -/
structure Sync22Effect (env : Env) (accounts : List Meta) (L L' : Ledger) (a : Sync22Accounts)
    (src : TokenMetadata) (m m' : Mint) : Prop where
  parsed : parseSync22 accounts = .ok a
  prog : a.tokenProgram.key = token2022Id
  wOwner : (L a.wrappedMint.key).owner = token2022Id
  mint : wrappedMintAddress env.cr a.unwrappedMint.key token2022Id = some a.wrappedMint.key
  auth : authorityAddress env.cr a.wrappedMint.key = some a.authority.key
  source : extractTokenMetadata env accounts a.unwrappedMint.key a.source a.ownerProgram L = .ok src
  wData : (L a.wrappedMint.key).data = .mint m
  final : L' = L.setData a.wrappedMint.key (.mint m')
  stored : m'.tokenMetadata? = some (syncedMd a.wrappedMint.key a.authority.key src env.hashOrder
    m.tokenMetadata?)
  same : m' = { m with exts := m'.exts } ∧ otherExts m'.exts = otherExts m.exts
  shape : (∃ md, m.tokenMetadata? = some md ∧ m' = withMd m (syncedMd a.wrappedMint.key
      a.authority.key src env.hashOrder (some md))) ∨
    (m.tokenMetadata? = none ∧ m.mintAuthority = some a.authority.key ∧
      m.metadataPointer?.isSome = true ∧
      m' = { m with exts := m.exts ++ [.tokenMetadata (syncedMd a.wrappedMint.key
        a.authority.key src env.hashOrder none)] })

theorem processSync22_effect {env : Env} {accounts : List Meta} {L L' : Ledger}
    (h : processSyncToToken2022 env accounts L = .ok L') :
    ∃ a src m m', Sync22Effect env accounts L L' a src m m' := by
  unfold processSyncToToken2022 at h
  inv_ok at h
  obtain ⟨a, ha, _, hp, _, hwo, em, hem, _, rfl, ⟨ea, bump⟩, hea, h⟩ := h
  dsimp only at h
  obtain ⟨_, rfl, src, hsrc, m, hm, pda, hpda, h⟩ := h
  have hself : L = L.setData a.wrappedMint.key (.mint m) := by
    rw [← hm]; exact (Ledger.set_self L _).symm
  cases hmd : m.tokenMetadata? with
  | some wrapped =>
    rw [hmd] at h
    dsimp only at h
    inv_ok at h
    obtain ⟨L1, h1, ⟨rest, L2⟩, h2, h3⟩ := h
    dsimp only at h3
    have hs : m.tokenMetadata?.isSome = true := by rw [hmd]; rfl
    rw [hself, ← withMd_self hmd] at h1
    have e1 := updateFields_inv (L := L) hs rfl h1
    subst e1
    obtain ⟨e2, e3⟩ := syncAdditional_inv (L := L) hs h2
    subst e2; subst e3
    have e4 := removeStale_inv (L := L) hs h3
    refine ⟨a, src, m, _, ⟨ha, hp, hwo, hem, authorityAddress_some.2 ⟨_, hea⟩, hsrc, hm, e4, ?_,
      ⟨?_, ?_⟩, ?_⟩⟩
    · rw [withMd_tokenMetadata hs, hmd]; rfl
    · rfl
    · exact otherExts_mapMetadata _ _
    · exact .inl ⟨wrapped, hmd, rfl⟩
  | none =>
    rw [hmd] at h
    dsimp only at h
    inv_ok at h
    obtain ⟨L1, h1, h2⟩ := h
    have h1' := h1
    unfold metaCpi at h1'
    obtain ⟨_, _, _, _, h3⟩ := invokeToken_inv h1'
    have hrej := tokenExec_not_rejected h3
    unfold tokenExec at h3
    rw [hrej] at h3
    obtain ⟨_, m1, i1, i2, i3, i4, i5, i6, i7⟩ := initializeMetadataExec_inv h3
    rw [hm] at i2; cases i2
    have hs : ({ m with exts := m.exts ++ [.tokenMetadata ⟨some a.authority.key,
        a.wrappedMint.key, src.name, src.symbol, src.uri, []⟩] } : Mint).tokenMetadata? =
        some ⟨some a.authority.key, a.wrappedMint.key, src.name, src.symbol, src.uri, []⟩ := by
      have := hmd
      unfold Mint.tokenMetadata? at this ⊢
      simp [List.findSome?_append, this]
    rw [i7, ← withMd_self hs] at h2
    have e4 := addFields_inv (L := L) (by rw [hs]; rfl) h2
    refine ⟨a, src, m, _, ⟨ha, hp, hwo, hem, authorityAddress_some.2 ⟨_, hea⟩, hsrc, hm, e4, ?_,
      ⟨?_, ?_⟩, ?_⟩⟩
    · rw [withMd_tokenMetadata (by rw [hs]; rfl), hmd]; rfl
    · rfl
    · show otherExts (mapMetadata _ _) = _
      rw [otherExts_mapMetadata]
      simp [otherExts]
    · refine .inr ⟨hmd, i4, i5, ?_⟩
      unfold withMd
      dsimp only
      rw [mapMetadata_append hmd]
      rfl

end TokenWrap
