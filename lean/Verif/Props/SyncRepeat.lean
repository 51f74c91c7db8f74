import Verif.Props.ExactSync
import Verif.Props.NeverBlocked
/-!
# C37: repeated syncs, whatever the source looks like

`sync22_idempotent` asks for a source that names no key twice: then a repeated sync does nothing at all.  A
source that names a key twice makes a repeated sync write intermediate values, but what is left behind is the
same: the theorems here need no condition on the source.
-/

namespace TokenWrap

/-- Lists of pairs with the same keys in the same order and the same values are equal. -/
theorem eq_of_keys_lookup {l l' : List (String × String)} (hk : l.map (·.1) = l'.map (·.1))
    (hn : (l.map (·.1)).Nodup) (hl : ∀ k, l.lookup k = l'.lookup k) : l = l' := by
  induction l generalizing l' with
  | nil =>
    cases l' with
    | nil => rfl
    | cons _ _ => simp at hk
  | cons p r ih =>
    cases l' with
    | nil => simp at hk
    | cons p' r' =>
      obtain ⟨a, b⟩ := p
      obtain ⟨a', b'⟩ := p'
      simp only [List.map_cons, List.cons.injEq] at hk
      obtain ⟨rfl, hk⟩ := hk
      have hb := hl a
      simp only [List.lookup_cons_self, Option.some.injEq] at hb
      subst hb
      simp only [List.map_cons, List.nodup_cons] at hn
      rw [ih hk hn.2]
      intro k
      by_cases hka : k = a
      · subst hka
        rw [lookup_eq_none.2 hn.1, lookup_eq_none.2 (hk ▸ hn.1)]
      · have := hl k
        simpa [List.lookup, beq_false_of_ne hka] using this

theorem syncAddPure_keys (src : List (String × String)) (map : StrMap) (add : List (String × String))
    (h : ∀ k ∈ src.map (·.1), k ∈ add.map (·.1)) :
    (syncAddPure src map add).2.map (·.1) = add.map (·.1) := by
  induction src generalizing map add with
  | nil => rfl
  | cons p rest ih =>
    obtain ⟨a, b⟩ := p
    have ha : a ∈ add.map (·.1) := h a (by simp)
    have he : ((if map.lookup a ≠ some b then setKeyValue a b add else add).map (·.1)) = add.map (·.1) := by
      split
      · rw [keys_setKeyValue, if_pos ha]
      · rfl
    rw [syncAddPure, ih _ _ (by
      intro k hk
      rw [he]
      exact h k (by simp only [List.map_cons, List.mem_cons]; exact Or.inr hk)), he]

/-- Metadata that shows the source already is left as it is. -/
theorem syncedMd_stable {W A : Pubkey} {w src : TokenMetadata} {order : List String → List String}
    (hord : ∀ l, (order l).Perm l) (h : SameMetadata w src) : syncedMd W A src order (some w) = w := by
  obtain ⟨h1, h2, h3, h4⟩ := h
  obtain ⟨hn, hl⟩ := sameFields_iff.1 h4
  have hkeys : ∀ k, k ∈ src.additional.map (·.1) ↔ k ∈ w.additional.map (·.1) := by
    intro k
    rw [← lookup_isSome_iff (l := w.additional), hl]
    cases hv : lastValue src.additional k with
    | some v =>
      refine ⟨fun _ => rfl, fun _ => ?_⟩
      exact Decidable.byContradiction fun hc => by rw [lastValue_eq_none.2 hc] at hv; cases hv
    | none => exact ⟨fun hk => absurd hk (lastValue_eq_none.1 hv), fun hk => by cases hk⟩
  have hmap : (syncAddPure src.additional (collectMap w.additional) w.additional).1 = [] := by
    apply eq_nil_of_lookup
    intro k
    rw [syncAddPure_map]
    split
    · rfl
    · rename_i hk
      rw [collectMap_lookup, lastValue_of_nodup hn, lookup_eq_none]
      exact fun hc => hk ((hkeys k).2 hc)
  have hadd : (syncAddPure src.additional (collectMap w.additional) w.additional).2 = w.additional := by
    apply eq_of_keys_lookup
    · exact syncAddPure_keys _ _ _ fun k hk => (hkeys k).1 hk
    · exact syncAddPure_nodup _ _ hn
    · intro k
      rw [syncAddPure_lookup _ _ _ (fun k v h => by
        rw [collectMap_lookup, lastValue_of_nodup hn] at h; exact h), ← hl]
      cases w.additional.lookup k <;> rfl
  have hnil : order [] = [] := (hord []).eq_nil
  simp only [syncedMd, hmap, List.map_nil, hnil, hadd, dropKeys, List.foldl_nil, ← h1, ← h2, ← h3]

variable {env env2 : Env} {accounts accounts2 : List Meta} {L L1 L2 : Ledger}

/-- **C37** Two successful syncs of the same wrapped mint, one after the other, from sources that say the same:
the second leaves the ledger as it is.  The two may come from different people, with different accounts and
different hash orders, and the source may name a key twice. -/
theorem sync22_settled {W u u2 : Pubkey} {src : TokenMetadata} (hord : FairOrder env) (hord2 : FairOrder env2)
    (h1 : processInstruction env accounts TokenWrapInstruction.syncMetadataToToken2022.pack L = .ok L1)
    (h2 : processInstruction env2 accounts2 TokenWrapInstruction.syncMetadataToToken2022.pack L1 = .ok L2)
    (hW : (accounts[0]?).map Meta.key = some W) (hW2 : (accounts2[0]?).map Meta.key = some W)
    (hu : (accounts[2]?).map Meta.key = some u) (hu2 : (accounts2[2]?).map Meta.key = some u2)
    (hk : UniqueKeys L W)
    (before : MetadataSource env L u (accounts[4]?.map (·.key)) (accounts[5]?.map (·.key)) src)
    (after : MetadataSource env2 L1 u2 (accounts2[4]?.map (·.key)) (accounts2[5]?.map (·.key)) src) :
    L2 = L1 := by
  rw [processInstruction_pack] at h1 h2
  obtain ⟨a, s1, m, m1, e⟩ := processSync22_effect h1
  obtain ⟨b, s2, n, n2, f⟩ := processSync22_effect h2
  obtain ⟨rest, hacc, hs, ho⟩ := parseSync22_ok_iff.1 e.parsed
  obtain ⟨rest2, hacc2, hs2, ho2⟩ := parseSync22_ok_iff.1 f.parsed
  subst hacc
  subst hacc2
  simp only [List.cons_append, List.nil_append] at h1 h2 e f hW hW2 hu hu2 before after
  simp only [List.getElem?_cons_zero, List.getElem?_cons_succ, Option.map_some, Option.some.injEq]
    at hW hW2 hu hu2 before after
  subst hW
  subst hu
  subst hu2
  have hs1 : s1 = src := by
    have := source_complete (accounts := a.wrappedMint :: a.authority :: a.unwrappedMint :: a.tokenProgram :: rest)
      (source := rest[0]?) (op := rest[1]?)
      (fun s hs => by simp [List.mem_of_getElem? hs]) (fun s hs => by simp [List.mem_of_getElem? hs]) before
    rw [← hs, ← ho, e.source] at this
    cases this
    rfl
  have hs2' : s2 = src := by
    have := source_complete (accounts := b.wrappedMint :: b.authority :: b.unwrappedMint :: b.tokenProgram :: rest2)
      (source := rest2[0]?) (op := rest2[1]?)
      (fun s hs => by simp [List.mem_of_getElem? hs]) (fun s hs => by simp [List.mem_of_getElem? hs]) after
    rw [← hs2, ← ho2, f.source] at this
    cases this
    rfl
  subst hs1
  subst hs2'
  have hd : (L1 a.wrappedMint.key).data = .mint m1 := by rw [e.final]; simp
  have hn : m1 = n := by
    have := f.wData
    rw [hW2, hd] at this
    exact Data.mint.inj this
  subst hn
  have hsame := syncedMd_same (W := a.wrappedMint.key) (A := a.authority.key) (src := s2) hord
    (old := m.tokenMetadata?) (fun w hw => hk m w e.wData hw)
  have hst := e.stored
  generalize syncedMd a.wrappedMint.key a.authority.key s2 env.hashOrder m.tokenMetadata? = md at hsame hst
  have hn2 : n2 = m1 := by
    rcases f.shape with ⟨md', hmd', hsh⟩ | ⟨hno, _⟩
    · rw [hst] at hmd'
      cases hmd'
      rw [hsh, syncedMd_stable hord2 hsame]
      exact withMd_self hst
    · rw [hst] at hno
      cases hno
  rw [f.final, hn2, hW2]
  funext k
  by_cases hka : k = a.wrappedMint.key
  · subst hka
    rw [Ledger.setData_same, ← hd]
  · rw [Ledger.setData_ne _ _ hka]

/-- **C37** In every history, a sync of the wrapped mint followed by another one whose source says the same
leaves the ledger as the first one left it; nothing is assumed about the metadata before or about the source. -/
theorem sync22_settled_always {cr : Crypto} {ok : Act → Ledger → Prop} {s : Setting cr} {L0 : Ledger}
    {trace : List Act} {u2 : Pubkey} {src : TokenMetadata} (h0 : Fresh s L0) (h : History cr ok L0 trace L)
    (hord : FairOrder env) (hord2 : FairOrder env2)
    (h1 : processInstruction env accounts TokenWrapInstruction.syncMetadataToToken2022.pack L = .ok L1)
    (h2 : processInstruction env2 accounts2 TokenWrapInstruction.syncMetadataToToken2022.pack L1 = .ok L2)
    (hW : (accounts[0]?).map Meta.key = some s.W) (hW2 : (accounts2[0]?).map Meta.key = some s.W)
    (hu : (accounts[2]?).map Meta.key = some s.u) (hu2 : (accounts2[2]?).map Meta.key = some u2)
    (before : MetadataSource env L s.u (accounts[4]?.map (·.key)) (accounts[5]?.map (·.key)) src)
    (after : MetadataSource env2 L1 u2 (accounts2[4]?.map (·.key)) (accounts2[5]?.map (·.key)) src) :
    L2 = L1 :=
  sync22_settled hord hord2 h1 h2 hW hW2 hu hu2 (h.inv' h0).uniqueKeys before after

namespace Example
namespace SyncTwice

/-- First and second sync of a mint whose source names `k1` twice. -/
def first : Ledger := get (processInstruction Example.env syncIx.accounts TokenWrapInstruction.syncMetadataToToken2022.pack (Lsync [.tokenMetadata oldMd]))
def second : Ledger := get (processInstruction Example.env syncIx.accounts TokenWrapInstruction.syncMetadataToToken2022.pack first)

/-- The theorem applied: its hypotheses hold here. -/
example : second = first := by
  have a1 : ok (processInstruction Example.env syncIx.accounts TokenWrapInstruction.syncMetadataToToken2022.pack (Lsync [.tokenMetadata oldMd])) = true := by
    decide +kernel
  have a2 : ok (processInstruction Example.env syncIx.accounts TokenWrapInstruction.syncMetadataToToken2022.pack first) = true := by decide +kernel
  have hk : UniqueKeys (Lsync [.tokenMetadata oldMd]) Ws := by
    intro m md h1 h2
    have : (Lsync [.tokenMetadata oldMd] Ws).data = .mint (w22Mint [.tokenMetadata oldMd]) := by
      decide +kernel
    rw [this] at h1
    cases h1
    have : (w22Mint [.tokenMetadata oldMd]).tokenMetadata? = some oldMd := by decide +kernel
    rw [this] at h2
    cases h2
    decide +kernel
  have s0 : extractTokenMetadata Example.env syncIx.accounts u none none (Lsync [.tokenMetadata oldMd]) =
      .ok someMd := by decide +kernel
  have s1 : extractTokenMetadata Example.env syncIx.accounts u none none first = .ok someMd := by decide +kernel
  have r1 := get_eq a1
  have r2 := get_eq a2
  change _ = Except.ok first at r1
  change _ = Except.ok second at r2
  exact sync22_settled (W := Ws) (u := u) (u2 := u) (src := someMd) (fun l => List.Perm.refl l)
    (fun l => List.Perm.refl l) r1 r2 rfl rfl rfl rfl hk (source_sound s0) (source_sound s1)

/-- The source does name a key twice, and the second run does write it twice. -/
example : ¬ (someMd.additional.map (·.1)).Nodup := by decide +kernel

end SyncTwice
end Example

end TokenWrap
