import Verif.CreateMintLemmas
import Verif.CpiLemmas
/-! # Effects of SyncMetadataToSplToken -/

set_option linter.unusedSimpArgs false

namespace TokenWrap

theorem parseSyncSpl_ok_iff {accounts : List Meta} {a : SyncSplAccounts} :
    parseSyncSpl accounts = .ok a ↔ ∃ rest,
      accounts = [a.metaplexMetadata, a.authority, a.wrappedMint, a.unwrappedMint,
        a.metaplexProgram, a.systemProgram, a.rentSysvar] ++ rest ∧
      a.source = rest[0]? ∧ a.ownerProgram = rest[1]? := by
  unfold parseSyncSpl
  split
  · rename_i a1 a2 a3 a4 a5 a6 a7 rest
    constructor
    · intro h; cases h; exact ⟨rest, rfl, rfl, rfl⟩
    · rintro ⟨r, h, hs, ho⟩; cases a; simp at h hs ho ⊢
      obtain ⟨h1, h2, h3, h4, h5, h6, h7, h8⟩ := h
      subst h8
      exact ⟨h1, h2, h3, h4, h5, h6, h7, hs.symm, ho.symm⟩
  · rename_i hno
    constructor
    · intro h; cases h
    · rintro ⟨r, h, _⟩; exact absurd h (by simpa using hno _ _ _ _ _ _ _ _)

/-- Metaplex metadata with the given data written into it. -/
def MetaplexMetadata.withData (pad : String → String) (md : MetaplexMetadata) (d : DataV2) :
    MetaplexMetadata :=
  { md with
    name := pad d.name, symbol := pad d.symbol, uri := pad d.uri
    sellerFeeBasisPoints := d.sellerFeeBasisPoints, creators := d.creators
    collection := d.collection, uses := d.uses }

theorem mplCreate_inv {env : Env} {signed : Pubkey → Bool} {metadata mint ma payer ua : Pubkey}
    {data : DataV2} {mut_ : Bool} {L L' : Ledger}
    (h : mplCreate env signed metadata mint ma payer ua data mut_ L = .ok L') :
    signed ma = true ∧ signed payer = true ∧ signed ua = true ∧
    metaplexPda env.cr mint = some metadata ∧ (L metadata).data = .bytes [] ∧
    (L metadata).owner = systemId ∧ (∃ m, (L mint).data = .mint m ∧ m.mintAuthority = some ma) ∧
    env.mplReject signed metadata data L = none ∧
    ((L payer).owner = systemId ∧ env.mplCost (L metadata).lamports ≤ (L payer).lamports) ∧
    L' = (L.setLamports payer ((L payer).lamports - env.mplCost (L metadata).lamports)).set metadata
      { lamports := (L.setLamports payer ((L payer).lamports - env.mplCost (L metadata).lamports) metadata).lamports +
          env.mplCost (L metadata).lamports
        owner := metaplexId
        data := .metaplex
          { key := metadataV1, updateAuthority := ua, mint
            name := env.mplPad data.name, symbol := env.mplPad data.symbol
            uri := env.mplPad data.uri
            sellerFeeBasisPoints := data.sellerFeeBasisPoints, creators := data.creators
            primarySaleHappened := false, isMutable := mut_
            editionNonce := (env.mplExtra mint).1, tokenStandard := (env.mplExtra mint).2
            collection := data.collection, uses := data.uses
            collectionDetails := none, programmableConfig := none } } := by
  unfold mplCreate at h
  simp only [bind_ok_iff, require_ok_iff, Bool.and_eq_true, decide_eq_true_eq] at h
  obtain ⟨_, ⟨⟨h1, h2⟩, h3⟩, _, hp0, _, h4, _, ⟨h5, h6⟩, h⟩ := h
  revert h
  cases hm : (L mint).data with
  | mint m =>
    intro h
    dsimp only at h
    simp only [bind_ok_iff, require_ok_iff, decide_eq_true_eq] at h
    obtain ⟨_, h7, h⟩ := h
    revert h
    cases hr : env.mplReject signed metadata data L with
    | some e => intro h; cases h
    | none =>
      intro h
      dsimp only at h
      simp only [bind_ok_iff, require_ok_iff, decide_eq_true_eq, pure_ok_iff] at h
      obtain ⟨_, h8, h9⟩ := h
      exact ⟨h1, h2, h3, h4, h5, h6, ⟨m, rfl, h7⟩, rfl, ⟨hp0, h8⟩, h9.symm⟩
  | _ => intro h; cases h

theorem mplUpdate_inv {env : Env} {signed : Pubkey → Bool} {metadata ua : Pubkey}
    {data : DataV2} {L L' : Ledger} (h : mplUpdate env signed metadata ua data L = .ok L') :
    (L metadata).owner = metaplexId ∧ ∃ md, (L metadata).data = .metaplex md ∧
      signed ua = true ∧ md.updateAuthority = ua ∧ md.isMutable = true ∧
      env.mplReject signed metadata data L = none ∧
      L' = L.setData metadata (.metaplex (md.withData env.mplPad data)) := by
  unfold mplUpdate at h
  simp only [bind_ok_iff, require_ok_iff, decide_eq_true_eq] at h
  obtain ⟨_, h1, h⟩ := h
  refine ⟨h1, ?_⟩
  revert h
  cases hm : (L metadata).data with
  | metaplex md =>
    intro h
    dsimp only at h
    simp only [bind_ok_iff, require_ok_iff, Bool.and_eq_true, decide_eq_true_eq] at h
    obtain ⟨_, ⟨h2, h3⟩, _, h4, h⟩ := h
    revert h
    cases hr : env.mplReject signed metadata data L with
    | some e => intro h; cases h
    | none =>
      intro h
      simp only [pure_ok_iff] at h
      exact ⟨md, rfl, h2, h3, h4, rfl, h.symm⟩
  | _ => intro h; cases h

/-- Everything a successful SyncMetadataToSplToken establishes. -/
structure SyncSplEffect (env : Env) (accounts : List Meta) (L L' : Ledger) (a : SyncSplAccounts)
    (src : TokenMetadata) (data : DataV2) : Prop where
  parsed : parseSyncSpl accounts = .ok a
  wOwner : (L a.wrappedMint.key).owner = splTokenId
  mint : wrappedMintAddress env.cr a.unwrappedMint.key splTokenId = some a.wrappedMint.key
  auth : authorityAddress env.cr a.wrappedMint.key = some a.authority.key
  pda : metaplexPda env.cr a.wrappedMint.key = some a.metaplexMetadata.key
  prog : a.metaplexProgram.key = metaplexId
  source : extractTokenMetadata env accounts a.unwrappedMint.key a.source a.ownerProgram L = .ok src
  conv : token2022ToMetaplex env src = .ok data
  run : ((L a.metaplexMetadata.key).data.len = 0 ∧
      mplCreate env (signedBy (mplCreateMetas a)) a.metaplexMetadata.key a.wrappedMint.key
        a.authority.key a.authority.key a.authority.key data true L = .ok L') ∨
    ((L a.metaplexMetadata.key).data.len ≠ 0 ∧
      mplUpdate env (signedBy (mplUpdateMetas a)) a.metaplexMetadata.key a.authority.key data L =
        .ok L')

theorem processSyncSpl_effect {env : Env} {accounts : List Meta} {L L' : Ledger}
    (h : processSyncToSplToken env accounts L = .ok L') :
    ∃ a src data, SyncSplEffect env accounts L L' a src data := by
  unfold processSyncToSplToken at h
  inv_ok at h
  obtain ⟨a, ha, _, hwo, em, hem, _, rfl, ⟨ea, bump⟩, hea, h⟩ := h
  dsimp only at h
  obtain ⟨_, rfl, ex, hex, _, rfl, _, hp, src, hsrc, data, hdata, pda, hpda, h⟩ := h
  refine ⟨a, src, data, ha, hwo, hem, authorityAddress_some.2 ⟨_, hea⟩, hex, hp, hsrc, hdata, ?_⟩
  split at h
  · rename_i hl
    obtain ⟨_, _, h⟩ := bind_ok_iff.1 h
    exact .inl ⟨hl, h⟩
  · rename_i hl
    obtain ⟨_, _, h⟩ := bind_ok_iff.1 h
    exact .inr ⟨hl, h⟩

end TokenWrap
