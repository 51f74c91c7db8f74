import Verif.Props.Metaplex
/-!
# C39: SyncMetadataToSplToken

Account order: Metaplex metadata, authority, wrapped mint, unwrapped mint, Metaplex program, system
program, rent sysvar, then optionally the source metadata account and its owner program.
-/

set_option linter.unusedSimpArgs false

namespace TokenWrap

open TokenWrapInstruction

/-- Specification: the Metaplex account shows the data (strings as Metaplex pads them). -/
structure ShowsData (env : Env) (md : MetaplexMetadata) (d : DataV2) : Prop where
  name : md.name = env.mplPad d.name
  symbol : md.symbol = env.mplPad d.symbol
  uri : md.uri = env.mplPad d.uri
  fee : md.sellerFeeBasisPoints = d.sellerFeeBasisPoints
  creators : md.creators = d.creators
  collection : md.collection = d.collection
  uses : md.uses = d.uses

/-- Specification: nothing but the data fields changed. -/
structure SameRest (old new : MetaplexMetadata) : Prop where
  key : new.key = old.key
  updateAuthority : new.updateAuthority = old.updateAuthority
  mint : new.mint = old.mint
  primarySale : new.primarySaleHappened = old.primarySaleHappened
  isMutable : new.isMutable = old.isMutable
  editionNonce : new.editionNonce = old.editionNonce
  tokenStandard : new.tokenStandard = old.tokenStandard
  collectionDetails : new.collectionDetails = old.collectionDetails
  programmableConfig : new.programmableConfig = old.programmableConfig

section
variable {env : Env} {accounts : List Meta} {L L' : Ledger}

/-- **C39** After a successful sync the wrapped SPL Token mint's Metaplex account shows the
converted source metadata.  An existing account keeps everything else and was controlled by the
authority PDA; a new one is mutable, controlled by the authority PDA and belongs to the wrapped
mint.  Apart from it only the authority's lamports may change. -/
theorem syncSpl_writes
    (h : processInstruction env accounts TokenWrapInstruction.syncMetadataToSplToken.pack L =
      .ok L') :
    ∃ X A W u mp sys rent rest src d md',
      accounts = X :: A :: W :: u :: mp :: sys :: rent :: rest ∧
      wrappedMintAddress env.cr u.key splTokenId = some W.key ∧
      authorityAddress env.cr W.key = some A.key ∧ metaplexPda env.cr W.key = some X.key ∧
      MetadataSource env L u.key (rest[0]?.map (·.key)) (rest[1]?.map (·.key)) src ∧
      IsConverted env src d ∧
      (L' X.key).owner = metaplexId ∧ (L' X.key).data = .metaplex md' ∧ ShowsData env md' d ∧
      ((∃ md, (L X.key).data = .metaplex md ∧ SameRest md md' ∧ md.updateAuthority = A.key ∧
          md.isMutable = true ∧ OnlyChanged [X.key] L L') ∨
        ((L X.key).data = .bytes [] ∧ md'.updateAuthority = A.key ∧ md'.isMutable = true ∧
          md'.primarySaleHappened = false ∧ md'.mint = W.key ∧ OnlyChanged [X.key, A.key] L L' ∧
          (A.key ≠ X.key → (L' A.key).data = (L A.key).data ∧
            (L' A.key).owner = (L A.key).owner))) := by
  rw [processInstruction_pack] at h
  obtain ⟨a, src, d, e⟩ := processSyncSpl_effect h
  obtain ⟨rest, hacc, hs, ho⟩ := parseSyncSpl_ok_iff.1 e.parsed
  have hsrc := source_sound e.source
  rw [hs, ho] at hsrc
  have hconv := (conversion_ok_iff.1 e.conv).2
  rcases e.run with ⟨_, hr⟩ | ⟨_, hr⟩
  · obtain ⟨_, _, _, _, h5, h6, _, _, h9, h10⟩ := mplCreate_inv hr
    refine ⟨_, _, _, _, _, _, _, rest, src, d, _, hacc, e.mint, e.auth, e.pda, hsrc, hconv,
      by rw [h10, Ledger.set_same], by rw [h10, Ledger.set_same],
      ⟨rfl, rfl, rfl, rfl, rfl, rfl, rfl⟩, .inr ⟨h5, rfl, rfl, rfl, rfl, ?_, ?_⟩⟩
    · intro k hk
      simp only [List.mem_cons, List.not_mem_nil, or_false, not_or] at hk
      rw [h10, Ledger.set_ne _ _ hk.1, Ledger.setLamports_ne _ _ hk.2]
    · intro hne
      rw [h10, Ledger.set_ne _ _ hne, Ledger.setLamports_same]
      exact ⟨rfl, rfl⟩
  · obtain ⟨h1, md, h2, _, h4, h5, _, h7⟩ := mplUpdate_inv hr
    refine ⟨_, _, _, _, _, _, _, rest, src, d, md.withData env.mplPad d, hacc, e.mint,
      e.auth, e.pda, hsrc, hconv, by rw [h7, Ledger.setData_same]; exact h1,
      by rw [h7, Ledger.setData_same],
      ⟨rfl, rfl, rfl, rfl, rfl, rfl, rfl⟩, .inl ⟨md, h2, ⟨rfl, rfl, rfl, rfl, rfl, rfl, rfl, rfl,
        rfl⟩, h4, h5, ?_⟩⟩
    intro k hk
    simp only [List.mem_cons, List.not_mem_nil, or_false] at hk
    rw [h7, Ledger.setData_ne _ _ hk]

/-- **C41** At the level of the instruction: if the source is readable but some recognised field
does not parse, the sync fails with `InvalidAccountData`. -/
theorem syncSpl_rejects_malformed {X A W u sys rent : Meta} {mp : Meta} {rest : List Meta}
    {src : TokenMetadata}
    (hW : wrappedMintAddress env.cr u.key splTokenId = some W.key)
    (hA : authorityAddress env.cr W.key = some A.key) (hX : metaplexPda env.cr W.key = some X.key)
    (hwo : (L W.key).owner = splTokenId) (hmp : mp.key = metaplexId)
    (hacc : accounts = X :: A :: W :: u :: mp :: sys :: rent :: rest)
    (hsrc : MetadataSource env L u.key (rest[0]?.map (·.key)) (rest[1]?.map (·.key)) src)
    (hbad : ¬ AllParse env src.additional) :
    processInstruction env accounts TokenWrapInstruction.syncMetadataToSplToken.pack L =
      .error .invalidAccountData := by
  rw [processInstruction_pack]
  have hpar : parseSyncSpl accounts = .ok ⟨X, A, W, u, mp, sys, rent, rest[0]?, rest[1]?⟩ := by
    rw [hacc]; rfl
  have hex : extractTokenMetadata env accounts u.key rest[0]? rest[1]? L = .ok src := by
    refine source_complete ?_ ?_ hsrc
    all_goals
      intro s hs
      rw [hacc]
      have := List.mem_of_getElem? hs
      simp [this]
  obtain ⟨bump, hA'⟩ := authorityAddress_some.1 hA
  simp only [dispatch, processSyncToSplToken, hpar, ok_bind, hwo, decide_true, require_true, hW,
    okOr_some, hA', hX, hmp, hex, conversion_rejects hbad]
  rfl

end

/-- The built instruction succeeds when the source is readable and convertible,
Metaplex accepts the data, and either the metadata account exists, mutable and controlled by the
authority PDA, or it does not exist and the authority PDA can pay for it. -/
theorem syncSpl_ok {env : Env} {u W A X : Pubkey} {sk ok : Option Pubkey} {L : Ledger}
    {src : TokenMetadata} {d : DataV2} (hid : env.programId = crateId)
    (hso : ok.isSome → sk.isSome)
    (hW : wrappedMintAddress env.cr u splTokenId = some W)
    (hA : authorityAddress env.cr W = some A) (hX : metaplexPda env.cr W = some X)
    (hsrc : MetadataSource env L u sk ok src)
    (hap : AllParse env src.additional) (hc : IsConverted env src d)
    (hrej : ∀ s, env.mplReject s X d L = none)
    (ho : (L W).owner = splTokenId)
    (hX' : ((L X).data = .bytes [] ∧ (L X).owner = systemId ∧ (L A).owner = systemId ∧
        env.mplCost (L X).lamports ≤ (L A).lamports ∧
        ∃ m, (L W).data = .mint m ∧ m.mintAuthority = some A) ∨
      ∃ md, (L X).data = .metaplex md ∧ (L X).owner = metaplexId ∧ md.updateAuthority = A ∧
        md.isMutable = true) :
    ∃ L', processInstruction env (Build.syncMetadataToSplToken crateId X A W u sk ok).accounts
      (Build.syncMetadataToSplToken crateId X A W u sk ok).data L = .ok L' := by
  obtain ⟨bump, hA'⟩ := authorityAddress_some.1 hA
  simp only [Build.syncMetadataToSplToken]
  rw [processInstruction_pack]
  let base : List Meta := [Meta.rw X false, .rw A false, .ro W false, .ro u false,
    .ro metaplexId false, .ro systemId false, .ro rentSysvarId false]
  let ext : List Meta := (sk.toList ++ ok.toList).map (fun k => Meta.ro k false)
  have hx : ∃ s o : Option Meta, parseSyncSpl (base ++ ext) =
        .ok ⟨.rw X false, .rw A false, .ro W false, .ro u false, .ro metaplexId false,
          .ro systemId false, .ro rentSysvarId false, s, o⟩ ∧
      s.map (·.key) = sk ∧ o.map (·.key) = ok ∧
      (∀ x, s = some x → x ∈ base ++ ext) ∧ (∀ x, o = some x → x ∈ base ++ ext) := by
    cases sk with
    | none =>
      cases ok with
      | none => exact ⟨none, none, rfl, rfl, rfl, by simp, by simp⟩
      | some o => simp at hso
    | some s =>
      cases ok with
      | none => exact ⟨some (.ro s false), none, rfl, rfl, rfl, by simp [ext], by simp⟩
      | some o => exact ⟨some (.ro s false), some (.ro o false), rfl, rfl, rfl, by simp [ext], by simp [ext]⟩
  show ∃ L', dispatch env (base ++ ext) L _ = .ok L'
  have mem : ∀ x ∈ base, x ∈ base ++ ext := fun x hx => List.mem_append_left _ hx
  generalize hlist : base ++ ext = accounts at hx mem
  obtain ⟨s, o, hp, hs, ho', hsm, hom⟩ := hx
  rw [← hs, ← ho'] at hsrc
  have hex := source_complete hsm hom hsrc
  have hsg : signerPda env (authoritySignerSeeds W bump) = .ok A := by
    rw [signerPda_ok_iff, hid]; exact findProgramAddress_spec hA'
  have hconv := conversion_ok_iff.2 ⟨hap, hc⟩
  simp only [dispatch, processSyncToSplToken, hp, ok_bind, Meta.ro, Meta.rw, decide_true,
    require_true, ho, hW, okOr_some, hA', hX, hex, hconv, hsg]
  have mX := mem (.rw X false) (by simp [base])
  have mA := mem (.rw A false) (by simp [base])
  have mW := mem (.ro W false) (by simp [base])
  have mM := mem (.ro metaplexId false) (by simp [base])
  have mS := mem (.ro systemId false) (by simp [base])
  have mR := mem (.ro rentSysvarId false) (by simp [base])
  rcases hX' with ⟨h1, h2, h2', h3, m, hd, hma⟩ | ⟨md, h1, h2, h3, h4⟩
  · have hl : (L X).data.len = 0 := by rw [h1]; rfl
    rw [if_pos hl, cpiCheck_ok (callee := metaplexId) (by simp) ⟨_, mM, rfl⟩]
    · have hsb : ∀ a : SyncSplAccounts, a.authority.key = A →
          signedBy (mplCreateMetas a) A = true := by
        intro a ha; simp [signedBy, mplCreateMetas, Meta.ro, Meta.rw, ha]
      simp only [ok_bind, mplCreate, hsb, Bool.and_self, require_true, hX, decide_true, h1, h2, h2', hd,
        hma, hrej, decide_eq_true h3]
      exact ⟨_, rfl⟩
    · intro x hx
      simp only [mplCreateMetas, List.mem_cons, List.not_mem_nil, or_false] at hx
      rcases hx with rfl | rfl | rfl | rfl | rfl | rfl | rfl
      · exact metaAllowed_of_mem mX rfl (fun _ => rfl) (by simp [Meta.rw])
      · exact metaAllowed_of_mem mW rfl (by simp [Meta.ro]) (by simp [Meta.ro])
      · exact metaAllowed_of_mem mA rfl (fun _ => rfl) (fun _ => .inl (by simp [Meta.ro]))
      · exact metaAllowed_of_mem mA rfl (fun _ => rfl) (fun _ => .inl (by simp [Meta.rw]))
      · exact metaAllowed_of_mem mA rfl (fun _ => rfl) (fun _ => .inl (by simp [Meta.ro]))
      · exact metaAllowed_of_mem mS rfl (by simp [Meta.ro]) (by simp [Meta.ro])
      · exact metaAllowed_of_mem mR rfl (by simp [Meta.ro]) (by simp [Meta.ro])
  · have hl : ¬ (L X).data.len = 0 := by rw [h1]; simp [Data.len]
    rw [if_neg hl, cpiCheck_ok (callee := metaplexId) (by simp) ⟨_, mM, rfl⟩]
    · have hsb : ∀ a : SyncSplAccounts, a.authority.key = A →
          signedBy (mplUpdateMetas a) A = true := by
        intro a ha; simp [signedBy, mplUpdateMetas, Meta.ro, Meta.rw, ha]
      simp only [ok_bind, mplUpdate, hsb, h1, h2, h3, h4, decide_true, Bool.and_self, require_true,
        hrej]
      exact ⟨_, rfl⟩
    · intro x hx
      simp only [mplUpdateMetas, List.mem_cons, List.not_mem_nil, or_false] at hx
      rcases hx with rfl | rfl
      · exact metaAllowed_of_mem mX rfl (fun _ => rfl) (by simp [Meta.rw])
      · exact metaAllowed_of_mem mA rfl (fun _ => rfl) (fun _ => .inl (by simp [Meta.ro]))

/-- **C39** (liveness) The built instruction succeeds when the source is readable and convertible,
Metaplex accepts the data, and either the metadata account exists, mutable and controlled by the
authority PDA, or it does not exist and the authority PDA can pay for it. -/
theorem syncSpl_succeeds {env : Env} {u W A X : Pubkey} {sk ok : Option Pubkey} {L : Ledger}
    {m : Mint} {src : TokenMetadata} {d : DataV2} (hid : env.programId = crateId)
    (hso : ok.isSome → sk.isSome)
    (hW : wrappedMintAddress env.cr u splTokenId = some W)
    (hA : authorityAddress env.cr W = some A) (hX : metaplexPda env.cr W = some X)
    (hsrc : MetadataSource env L u sk ok src)
    (hap : AllParse env src.additional) (hc : IsConverted env src d)
    (hrej : ∀ s, env.mplReject s X d L = none)
    (ho : (L W).owner = splTokenId) (hd : (L W).data = .mint m) (hma : m.mintAuthority = some A)
    (hX' : ((L X).data = .bytes [] ∧ (L X).owner = systemId ∧ (L A).owner = systemId ∧
        env.mplCost (L X).lamports ≤ (L A).lamports) ∨
      ∃ md, (L X).data = .metaplex md ∧ (L X).owner = metaplexId ∧ md.updateAuthority = A ∧
        md.isMutable = true) :
    ∃ L', processInstruction env (Build.syncMetadataToSplToken crateId X A W u sk ok).accounts
      (Build.syncMetadataToSplToken crateId X A W u sk ok).data L = .ok L' :=
  syncSpl_ok hid hso hW hA hX hsrc hap hc hrej ho (hX'.imp_left fun ⟨h1, h2, h3, h4⟩ =>
    ⟨h1, h2, h3, h4, m, hd, hma⟩)

namespace Example

/-- Metaplex account of the wrapped SPL mint -/
def X : Pubkey := (metaplexPda toyCrypto W).getD default

/-- The authority can pay for the Metaplex account. -/
def Lspl : Ledger := Lself.set A ⟨50, systemId, .bytes []⟩

def splIx : Instr := Build.syncMetadataToSplToken crateId X A W u none none

def mxAt (L : Ledger) (k : Pubkey) : Option MetaplexMetadata :=
  match (L k).data with
  | .metaplex m => some m
  | _ => none

def Lspl' : Ledger := get (processInstruction env splIx.accounts splIx.data Lspl)

example : [u, W, A, E, B, X].Nodup := by decide +kernel
example : ok (processInstruction env splIx.accounts splIx.data Lspl) = true := by decide +kernel
example : (mxAt Lspl' X).map (fun m => (m.name, m.updateAuthority, m.isMutable, m.sellerFeeBasisPoints)) =
    some ("Coin", A, true, 0) := by decide +kernel
/-- the update path -/
example : ok (processInstruction env splIx.accounts splIx.data Lspl') = true := by decide +kernel
/-- malformed creators -/
def badMd : TokenMetadata := { someMd with additional := [("creators", "???")] }
def Lbad : Ledger := Lspl.set u ⟨200, token2022Id, .mint (uMint [.metadataPointer none (some u), .tokenMetadata badMd])⟩
example : fails (processInstruction env splIx.accounts splIx.data Lbad) .invalidAccountData = true := by
  decide +kernel
example : ¬ AllParse env badMd.additional := fun h => (h "creators" "???" (by simp [badMd])).1 rfl rfl

end Example

end TokenWrap
