import Verif.Props.Sync22
import Verif.Props.SyncSpl
/-!
# Exactly when the metadata syncs succeed

Necessary and sufficient conditions for the two sync instructions as the public builders make them,
and repetition of a sync in terms of the specification of metadata sources. Used for C37 and C78.
-/

set_option linter.unusedSimpArgs false

namespace TokenWrap

open TokenWrapInstruction

section loops
variable {env : Env} {accounts : List Meta} {pda prog W A : Pubkey} {L : Ledger} {m : Mint}

/-- If the base fields could be brought up to date, the authority may update or nothing was to do. -/
theorem updateFields_who (hm : m.tokenMetadata?.isSome = true) {wrapped src : TokenMetadata}
    {L' : Ledger}
    (h : updateFieldsIfChanged env accounts pda prog W A wrapped src baseFields
      (L.setData W (.mint (withMd m wrapped))) = .ok L') :
    wrapped.updateAuthority = some A ∨
      (wrapped.name = src.name ∧ wrapped.symbol = src.symbol ∧ wrapped.uri = src.uri) := by
  simp only [baseFields, updateFieldsIfChanged, bind_ok_iff] at h
  obtain ⟨La, ha, Lb, hb, Lc, hc, hd⟩ := h
  split at ha
  · obtain ⟨_, _, _, h1, _⟩ := metaCpi_update_inv hm (.inl ⟨_, _, rfl⟩) ha
    exact .inl h1
  · rename_i n1
    cases ha
    split at hb
    · obtain ⟨_, _, _, h1, _⟩ := metaCpi_update_inv hm (.inl ⟨_, _, rfl⟩) hb
      exact .inl h1
    · rename_i n2
      cases hb
      split at hc
      · obtain ⟨_, _, _, h1, _⟩ := metaCpi_update_inv hm (.inl ⟨_, _, rfl⟩) hc
        exact .inl h1
      · rename_i n3
        exact .inr ⟨Decidable.not_not.1 n1, Decidable.not_not.1 n2, Decidable.not_not.1 n3⟩

/-- The same for the additional fields: without the right to update, every source pair was there
already and no key occurs twice. -/
theorem syncAdditional_who (hm : m.tokenMetadata?.isSome = true) {src : List (String × String)}
    {map map' : StrMap} {md : TokenMetadata} {L' : Ledger}
    (h : syncAdditional env accounts pda prog W A src map (L.setData W (.mint (withMd m md))) =
      .ok (map', L')) :
    md.updateAuthority = some A ∨
      ((src.map (·.1)).Nodup ∧ ∀ p ∈ src, List.lookup p.1 map = some p.2) := by
  induction src generalizing map md with
  | nil => exact .inr ⟨by simp, by simp⟩
  | cons p rest ih =>
    obtain ⟨k, v⟩ := p
    simp only [syncAdditional, bind_ok_iff] at h
    obtain ⟨L1, h1, h2⟩ := h
    split at h1
    · obtain ⟨_, _, _, h3, _⟩ := metaCpi_update_inv hm (.inl ⟨_, _, rfl⟩) h1
      exact .inl h3
    · rename_i hn
      have hn : List.lookup k map = some v := Decidable.not_not.1 hn
      cases h1
      rcases ih h2 with h3 | ⟨h3, h4⟩
      · exact .inl h3
      · refine .inr ⟨?_, ?_⟩
        · rw [List.map_cons, List.nodup_cons]
          refine ⟨?_, h3⟩
          intro hk
          obtain ⟨q, hq, he⟩ := List.mem_map.1 hk
          have := h4 q hq
          simp only [StrMap.erase] at this
          have he : q.1 = k := he
          rw [lookup_filter_ne, if_pos he] at this
          cases this
        · intro q hq
          rcases List.mem_cons.1 hq with rfl | hq
          · exact hn
          · have := h4 q hq
            simp only [StrMap.erase] at this
            rw [lookup_filter_ne] at this
            split at this
            · cases this
            · exact this

/-- Removing keys needs the right to update. -/
theorem removeStale_who (hm : m.tokenMetadata?.isSome = true) {ks : List String}
    {md : TokenMetadata} {L' : Ledger}
    (h : removeStale env accounts pda prog W A ks (L.setData W (.mint (withMd m md))) = .ok L') :
    md.updateAuthority = some A ∨ ks = [] := by
  cases ks with
  | nil => exact .inr rfl
  | cons k rest =>
    simp only [removeStale, bind_ok_iff] at h
    obtain ⟨L1, h1, h2⟩ := h
    obtain ⟨_, _, _, h3, _⟩ := metaCpi_update_inv hm (.inr ⟨_, rfl⟩) h1
    exact .inl h3

end loops

/-- The situation in which the metadata of `u` can be copied into its wrapped Token-2022 mint `W`:
derived addresses, a readable source, and on `W` either no metadata yet, but a metadata pointer and
the authority PDA as mint authority, or metadata that the authority PDA may update, or metadata that
is already the same (as long as the source names no key twice). -/
structure CanSync22 (env : Env) (L : Ledger) (u W A : Pubkey) (sk op : Option Pubkey) (m : Mint)
    (src : TokenMetadata) : Prop where
  mint : wrappedMintAddress env.cr u token2022Id = some W
  auth : authorityAddress env.cr W = some A
  wOwner : (L W).owner = token2022Id
  wData : (L W).data = .mint m
  source : MetadataSource env L u sk op src
  absent : m.tokenMetadata? = none → m.mintAuthority = some A ∧ m.metadataPointer?.isSome = true
  present : ∀ md, m.tokenMetadata? = some md → md.updateAuthority = some A ∨
    SameMetadata md src ∧ (src.additional.map (·.1)).Nodup

/-- **C78** The instruction built by `sync_metadata_to_token_2022` succeeds exactly in the situation
`CanSync22` (for a wrapped mint whose metadata names no key twice, as the token program guarantees). -/
theorem sync22_succeeds_iff {env : Env} {L : Ledger} {u W A : Pubkey} {sk op : Option Pubkey}
    (hid : env.programId = crateId) (hord : FairOrder env) (hacc : AcceptsMetadata env)
    (hso : op.isSome → sk.isSome) (hu : UniqueKeys L W) :
    (∃ L', processInstruction env (Build.syncMetadataToToken2022 crateId W A u sk op).accounts
      (Build.syncMetadataToToken2022 crateId W A u sk op).data L = .ok L') ↔
    ∃ m src, CanSync22 env L u W A sk op m src := by
  constructor
  · rintro ⟨L', h⟩
    simp only [Build.syncMetadataToToken2022] at h
    rw [processInstruction_pack] at h
    obtain ⟨a, src, m, m', e⟩ := processSync22_effect h
    obtain ⟨rest, hl, hs, ho⟩ := parseSync22_ok_iff.1 e.parsed
    obtain ⟨b1, b2, b3, b4, b5, b6⟩ := a
    simp only [List.cons_append, List.nil_append, List.cons.injEq] at hl hs ho
    obtain ⟨a1, a2, a3, a4, a5⟩ := hl
    subst a1 a2 a3 a4 a5
    have hkeys : b5.map (·.key) = sk ∧ b6.map (·.key) = op := by
      rw [hs, ho]
      cases sk with
      | none =>
        cases op with
        | none => exact ⟨rfl, rfl⟩
        | some o => simp at hso
      | some s => cases op <;> exact ⟨rfl, rfl⟩
    have hsrc := source_sound e.source
    rw [hkeys.1, hkeys.2] at hsrc
    refine ⟨m, src, e.mint, e.auth, e.wOwner, e.wData, hsrc, ?_, ?_⟩
    · intro hn
      rcases e.shape with ⟨md, h1, _⟩ | ⟨_, h2, h3, _⟩
      · rw [hn] at h1; cases h1
      · exact ⟨h2, h3⟩
    · intro md hmd
      have hnd := hu m md e.wData hmd
      by_cases hau : md.updateAuthority = some A
      · exact .inl hau
      · refine .inr ?_
        have hsm : m.tokenMetadata?.isSome = true := by rw [hmd]; rfl
        have hself : L = L.setData W (.mint (withMd m md)) := by
          rw [withMd_self hmd]
          have : (L W).data = .mint m := e.wData
          rw [← this]; exact (Ledger.set_self L _).symm
        simp only [dispatch, processSyncToToken2022] at h
        inv_ok at h
        obtain ⟨a', ha', _, hp, _, hwo, em, hem, _, hme, ⟨ea, bump⟩, hea, h⟩ := h
        rw [e.parsed] at ha'; cases ha'
        subst hme
        dsimp only at h
        obtain ⟨_, hae, src', hsrc', m0, hm0, pda, hpda, h⟩ := h
        have hae : A = ea := hae
        subst hae
        have := e.source
        rw [hsrc'] at this; cases this
        have h0 : (L W).data = .mint m := e.wData
        have : m0 = m := Data.mint.inj (hm0.symm.trans h0)
        subst this
        rw [hmd] at h
        dsimp only at h
        inv_ok at h
        obtain ⟨L1, h1, ⟨r, L2⟩, h2, h3⟩ := h
        dsimp only at h3
        rw [hself] at h1
        rcases updateFields_who (L := L) hsm h1 with hx | ⟨n1, n2, n3⟩
        · exact absurd hx hau
        have e1 := updateFields_inv (L := L) hsm rfl h1
        subst e1
        rcases syncAdditional_who (L := L) hsm h2 with hx | ⟨n4, n5⟩
        · exact absurd hx hau
        obtain ⟨e2, e3⟩ := syncAdditional_inv (L := L) hsm h2
        subst e2; subst e3
        rcases removeStale_who (L := L) hsm h3 with hx | n6
        · exact absurd hx hau
        have n7 : (syncAddPure src.additional (collectMap md.additional) md.additional).1 = [] := by
          have := (hord (List.map (fun p : String × String => p.1)
            (syncAddPure src.additional (collectMap md.additional) md.additional).1)).symm
          rw [n6] at this
          exact List.map_eq_nil_iff.1 this.eq_nil
        refine ⟨⟨n1, n2, n3, sameFields_iff.2 ⟨hnd, fun k => ?_⟩⟩, n4⟩
        by_cases hk : k ∈ src.additional.map (·.1)
        · obtain ⟨q, hq, rfl⟩ := List.mem_map.1 hk
          have := n5 q hq
          rw [collectMap_lookup, lastValue_of_nodup hnd] at this
          rw [this, lastValue_of_nodup n4]
          exact ((mem_iff_lookup n4).1 hq).symm
        · rw [lastValue_eq_none.2 hk]
          have := syncAddPure_map src.additional (collectMap md.additional) md.additional k
          rw [n7, if_neg hk, collectMap_lookup, lastValue_of_nodup hnd] at this
          exact this.symm
  · rintro ⟨m, src, c⟩
    exact sync22_ok hid hord hacc hso c.mint c.auth c.source c.wOwner c.wData c.absent
      (fun md h => ⟨hu m md c.wData h, c.present md h⟩)

/-- **C37** Repeating a sync: if the same source accounts still give the same metadata, which names no
key twice, then the repeated sync succeeds and changes nothing. -/
theorem sync22_repeat {env : Env} {accounts : List Meta} {L L' : Ledger} {W A u t : Meta}
    {rest : List Meta} {src : TokenMetadata} (hord : FairOrder env)
    (ha : accounts = W :: A :: u :: t :: rest) (hu : UniqueKeys L W.key)
    (h : processInstruction env accounts TokenWrapInstruction.syncMetadataToToken2022.pack L = .ok L')
    (before : MetadataSource env L u.key (rest[0]?.map (·.key)) (rest[1]?.map (·.key)) src)
    (after : MetadataSource env L' u.key (rest[0]?.map (·.key)) (rest[1]?.map (·.key)) src)
    (nd : (src.additional.map (·.1)).Nodup) :
    processInstruction env accounts TokenWrapInstruction.syncMetadataToToken2022.pack L' = .ok L' := by
  have hmem : ∀ (i : Nat) (s : Meta), rest[i]? = some s → s ∈ accounts := by
    intro i s hs
    rw [ha]
    simp [List.mem_of_getElem? hs]
  refine sync22_idempotent hord h (fun W' r he => ?_) (fun W' A' u' t' r he => ?_)
  · rw [ha] at he; cases he; exact hu
  · rw [ha] at he; cases he
    exact ⟨src, nd, source_complete (hmem 0) (hmem 1) before, source_complete (hmem 0) (hmem 1) after⟩

/-- The situation in which the metadata of `u` can be copied into the Metaplex account `X` of its
wrapped SPL Token mint `W`. -/
structure CanSyncSpl (env : Env) (L : Ledger) (u W A X : Pubkey) (sk op : Option Pubkey)
    (src : TokenMetadata) (d : DataV2) : Prop where
  mint : wrappedMintAddress env.cr u splTokenId = some W
  auth : authorityAddress env.cr W = some A
  metadata : metaplexPda env.cr W = some X
  wOwner : (L W).owner = splTokenId
  source : MetadataSource env L u sk op src
  parses : AllParse env src.additional
  converted : IsConverted env src d
  -- the Metaplex account does not exist and the authority PDA, mint authority of `W`, can pay for it,
  -- or it exists, is mutable and controlled by the authority PDA
  ready : ((L X).data = .bytes [] ∧ (L X).owner = systemId ∧ (L A).owner = systemId ∧
      env.mplCost (L X).lamports ≤ (L A).lamports ∧
      ∃ m, (L W).data = .mint m ∧ m.mintAuthority = some A) ∨
    ∃ md, (L X).data = .metaplex md ∧ (L X).owner = metaplexId ∧ md.updateAuthority = A ∧
      md.isMutable = true

/-- **C78** The instruction built by `sync_metadata_to_spl_token` succeeds exactly in the situation
`CanSyncSpl`, unless Metaplex refuses the data. -/
theorem syncSpl_succeeds_iff {env : Env} {L : Ledger} {u W A X : Pubkey} {sk op : Option Pubkey}
    (hid : env.programId = crateId) (hso : op.isSome → sk.isSome)
    (hrej : ∀ s d, env.mplReject s X d L = none) :
    (∃ L', processInstruction env (Build.syncMetadataToSplToken crateId X A W u sk op).accounts
      (Build.syncMetadataToSplToken crateId X A W u sk op).data L = .ok L') ↔
    ∃ src d, CanSyncSpl env L u W A X sk op src d := by
  constructor
  · rintro ⟨L', h⟩
    simp only [Build.syncMetadataToSplToken] at h
    rw [processInstruction_pack] at h
    obtain ⟨a, src, d, e⟩ := processSyncSpl_effect h
    obtain ⟨rest, hl, hs, ho⟩ := parseSyncSpl_ok_iff.1 e.parsed
    obtain ⟨b1, b2, b3, b4, b5, b6, b7, b8, b9⟩ := a
    simp only [List.cons_append, List.nil_append, List.cons.injEq] at hl hs ho
    obtain ⟨a1, a2, a3, a4, a5, a6, a7, a8⟩ := hl
    subst a1 a2 a3 a4 a5 a6 a7 a8
    have hkeys : b8.map (·.key) = sk ∧ b9.map (·.key) = op := by
      rw [hs, ho]
      cases sk with
      | none =>
        cases op with
        | none => exact ⟨rfl, rfl⟩
        | some o => simp at hso
      | some s => cases op <;> exact ⟨rfl, rfl⟩
    have hsrc := source_sound e.source
    rw [hkeys.1, hkeys.2] at hsrc
    obtain ⟨hap, hc⟩ := conversion_ok_iff.1 e.conv
    refine ⟨src, d, e.mint, e.auth, e.pda, e.wOwner, hsrc, hap, hc, ?_⟩
    rcases e.run with ⟨_, hr⟩ | ⟨_, hr⟩
    · obtain ⟨_, _, _, _, h5, h6, h7, _, h9, _⟩ := mplCreate_inv hr
      exact .inl ⟨h5, h6, h9.1, h9.2, h7⟩
    · obtain ⟨h1, md, h2, _, h4, h5, _, _⟩ := mplUpdate_inv hr
      exact .inr ⟨md, h2, h1, h4, h5⟩
  · rintro ⟨src, d, c⟩
    exact syncSpl_ok hid hso c.mint c.auth c.metadata c.source c.parses c.converted
      (fun s => hrej s d) c.wOwner c.ready

namespace Example

theorem srcSync (exts : List MintExt) : MetadataSource env (Lsync exts) u none none someMd :=
  have hu : Lsync exts u = Lself u := Ledger.set_ne _ _ (by decide +kernel)
  have hd : (Lself u).data = .mint (uMint [.metadataPointer none (some u), .tokenMetadata someMd]) := by
    decide +kernel
  .self ⟨by rw [hu]; decide +kernel, _, by rw [hu]; exact hd, by decide +kernel⟩ (by rw [hu]; exact hd)
    (by decide +kernel)

theorem wSync (exts : List MintExt) : (Lsync exts Ws).data = .mint (w22Mint exts) := by
  unfold Lsync; rw [Ledger.set_same]

/-- Metadata under the control of the authority PDA: the situation of `sync22_succeeds_iff` ... -/
example : CanSync22 env (Lsync [.tokenMetadata oldMd]) u Ws As none none
    (w22Mint [.tokenMetadata oldMd]) someMd where
  mint := by decide +kernel
  auth := by decide +kernel
  wOwner := by decide +kernel
  wData := wSync _
  source := srcSync _
  absent := by decide +kernel
  present md h := by
    have : (w22Mint [.tokenMetadata oldMd]).tokenMetadata? = some oldMd := by decide +kernel
    rw [this] at h; cases h
    exact .inl rfl

/-- ... and different metadata under nobody's control cannot be synced. -/
example : ¬ ∃ L', processInstruction env (Build.syncMetadataToToken2022 crateId Ws As u none none).accounts
    (Build.syncMetadataToToken2022 crateId Ws As u none none).data
    (Lsync [.tokenMetadata { oldMd with updateAuthority := none }]) = .ok L' := by
  have hw : (w22Mint [.tokenMetadata { oldMd with updateAuthority := none }]).tokenMetadata? =
      some { oldMd with updateAuthority := none } := by decide +kernel
  rw [sync22_succeeds_iff rfl (fun l => List.Perm.refl l) (fun _ _ _ _ => rfl) (by simp)]
  · rintro ⟨m, src, c⟩
    have h1 := c.wData
    rw [wSync] at h1; cases h1
    rcases c.present _ hw with h | ⟨h, _⟩
    · cases h
    · have hn : src.name = someMd.name := by
        cases c.source with
        | self _ h2 h3 =>
          have hd : (Lsync [.tokenMetadata { oldMd with updateAuthority := none }] u).data =
            .mint (uMint [.metadataPointer none (some u), .tokenMetadata someMd]) := by decide +kernel
          rw [hd] at h2; cases h2
          have : (uMint [.metadataPointer none (some u), .tokenMetadata someMd]).tokenMetadata? =
            some someMd := by decide +kernel
          rw [this] at h3; cases h3
          rfl
      have := h.1
      rw [hn] at this
      exact absurd this (by decide)
  · intro m md h1 h2
    rw [wSync] at h1; cases h1
    rw [hw] at h2; cases h2
    decide +kernel

end Example

end TokenWrap
