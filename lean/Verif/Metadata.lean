import Verif.Metaplex
/-!
# Model of /repo/program/src/metadata.rs
-/

namespace TokenWrap

/-- `cpi_emit_and_decode`: /repo/program/src/metadata.rs:22-39.  The callee gets only the metadata
account, read-only, so it cannot change the ledger. -/
def cpiEmitAndDecode (env : Env) (caller : List Meta) (ownerProgram metadata : Pubkey)
    (L : Ledger) : Res TokenMetadata := do
  cpiCheck caller [] [] ownerProgram [.ro metadata false]
  match env.emit ownerProgram metadata L with
  | .error e => .error (.external e)
  | .ok (some (programKey, data)) =>
    if programKey = ownerProgram then okOr (unborshMetadata? data) .borshIoError
    else .error (wrapErr .externalProgramReturnedNoData)
  | .ok none => .error (wrapErr .externalProgramReturnedNoData)

/-- `read_metaplex_for_mint`: /repo/program/src/metadata.rs:41-54. -/
def readMetaplexForMint (env : Env) (mint : Pubkey) (source : Option Meta) (L : Ledger) :
    Res TokenMetadata := do
  let src ← okOr source .notEnoughAccountKeys
  require ((L src.key).owner = metaplexId) .invalidAccountOwner
  let pda ← okOr (metaplexPda env.cr mint) .panicked
  require (src.key = pda) (wrapErr .metaplexMetadataMismatch)
  metaplexToToken2022 env mint (L src.key).data

/-- `resolve_token_2022_source_metadata`: /repo/program/src/metadata.rs:66-111. -/
def resolveToken2022Source (env : Env) (caller : List Meta) (unwrappedMint : Pubkey)
    (source ownerProgram : Option Meta) (L : Ledger) : Res TokenMetadata := do
  let m ← unpackMint (L unwrappedMint).data
  match m.metadataPointer? with
  | none => readMetaplexForMint env unwrappedMint source L
  | some (_, none) => .error (wrapErr .metadataPointerUnset)
  | some (_, some addr) =>
    if addr = unwrappedMint then okOr m.tokenMetadata? .invalidAccountData
    else do
      let src ← okOr source .notEnoughAccountKeys
      require (src.key = addr) (wrapErr .metadataPointerMismatch)
      if (L src.key).owner = token2022Id then .error .invalidAccountData
      else if (L src.key).owner = metaplexId then
        metaplexToToken2022 env unwrappedMint (L src.key).data
      else do
        let op ← okOr ownerProgram .notEnoughAccountKeys
        require (op.key = (L src.key).owner) .invalidAccountOwner
        cpiEmitAndDecode env caller op.key src.key L

/-- `extract_token_metadata`: /repo/program/src/metadata.rs:114-132. -/
def extractTokenMetadata (env : Env) (caller : List Meta) (unwrappedMint : Pubkey)
    (source ownerProgram : Option Meta) (L : Ledger) : Res TokenMetadata :=
  if (L unwrappedMint).owner = token2022Id then
    resolveToken2022Source env caller unwrappedMint source ownerProgram L
  else if (L unwrappedMint).owner = splTokenId then
    readMetaplexForMint env unwrappedMint source L
  else .error .incorrectProgramId

end TokenWrap
