import Verif.Metadata
import Verif.Customizer
/-!
# Model of /repo/program/src/processor.rs

Each function takes the instruction's account list (with signer / writable flags; the same key may
occur several times) and the ledger, and returns the new ledger or the error.
-/

namespace TokenWrap

/-! ## CreateMint -/

/-- Accounts of `CreateMint`: /repo/program/src/processor.rs:62-68. -/
structure CreateMintAccounts where
  wrappedMint : Meta
  backpointer : Meta
  unwrappedMint : Meta
  systemProgram : Meta
  wrappedTokenProgram : Meta
deriving DecidableEq, Repr

/-- The `next_account_info` calls of `process_create_mint`: /repo/program/src/processor.rs:62-68. -/
def parseCreateMint : List Meta → Res CreateMintAccounts
  | a :: b :: c :: d :: e :: _ => .ok ⟨a, b, c, d, e⟩
  | _ => .error .notEnoughAccountKeys

/-- Space of the wrapped mint: /repo/program/src/processor.rs:120-124. -/
def wrappedMintSpace (M : Customizer) (wrappedTokenProgram : Pubkey) : Res Nat :=
  if wrappedTokenProgram = token2022Id then M.token2022MintSpace else .ok 82

/-- Allocation, assignment and initialisation of the wrapped mint:
/repo/program/src/processor.rs:113-165. -/
def createMintInit (env : Env) (M : Customizer) (accounts : List Meta) (a : CreateMintAccounts)
    (mintBump : UInt8) (L : Ledger) : Res Ledger := do
  let space ← wrappedMintSpace M a.wrappedTokenProgram.key
  require (env.rentMin space ≤ (L a.wrappedMint.key).lamports) .accountNotRentExempt
  let pda ← signerPda env
    (wrappedMintSignerSeeds a.unwrappedMint.key a.wrappedTokenProgram.key mintBump)
  let L1 ← invokeAllocate accounts [pda] a.wrappedMint.key space L
  let L2 ← invokeAssign accounts [pda] a.wrappedMint.key a.wrappedTokenProgram.key L1
  let L3 ← (if a.wrappedTokenProgram.key = token2022Id then
      M.initializeExtensions env accounts a.wrappedMint.key a.wrappedTokenProgram.key L2
    else .ok L2)
  let (freeze, decimals) ← M.freezeAuthAndDecimals (L3 a.unwrappedMint.key).data
  let authority ← okOr (authorityAddress env.cr a.wrappedMint.key) .panicked
  invokeToken env accounts [] [] a.wrappedTokenProgram.key
    (.initializeMint2 a.wrappedMint.key authority freeze decimals) L3

/-- Allocation, assignment and writing of the backpointer: /repo/program/src/processor.rs:167-199.  The
state `Backpointer` (/repo/program/src/state.rs:8-24) is the 32 bytes of an address. -/
def createBackpointer (env : Env) (accounts : List Meta) (a : CreateMintAccounts)
    (backpointerBump : UInt8) (L : Ledger) : Res Ledger := do
  require (env.rentMin 32 ≤ (L a.backpointer.key).lamports) .accountNotRentExempt
  let pda ← signerPda env (backpointerSignerSeeds a.wrappedMint.key backpointerBump)
  let L1 ← invokeAllocate accounts [pda] a.backpointer.key 32 L
  let L2 ← invokeAssign accounts [pda] a.backpointer.key env.programId L1
  require (has32 (L2 a.backpointer.key).data) .panicked
  writeOwn env a.backpointer a.unwrappedMint.key.bytes L2

/-- `process_create_mint`: /repo/program/src/processor.rs:57-200. -/
def processCreateMint (env : Env) (M : Customizer) (accounts : List Meta) (idempotent : Bool)
    (L : Ledger) : Res Ledger := do
  let a ← parseCreateMint accounts
  let (wrappedMint, mintBump) ← okOr
    (wrappedMintWithSeed env.cr a.unwrappedMint.key a.wrappedTokenProgram.key) .panicked
  let (backpointer, backpointerBump) ← okOr
    (backpointerWithSeed env.cr a.wrappedMint.key) .panicked
  require (a.wrappedMint.key = wrappedMint) (wrapErr .wrappedMintMismatch)
  require (a.backpointer.key = backpointer) (wrapErr .backpointerMismatch)
  require ((L a.unwrappedMint.key).owner = splTokenId || (L a.unwrappedMint.key).owner = token2022Id)
    .invalidAccountOwner
  if 0 < (L a.wrappedMint.key).data.len ∨ 0 < (L a.backpointer.key).data.len then do
    require idempotent .accountAlreadyInitialized
    require ((L a.wrappedMint.key).owner = a.wrappedTokenProgram.key)
      (wrapErr .invalidWrappedMintOwner)
    require ((L a.backpointer.key).owner = env.programId) (wrapErr .invalidBackpointerOwner)
    pure L
  else do
    let L1 ← createMintInit env M accounts a mintBump L
    createBackpointer env accounts a backpointerBump L1

/-! ## Wrap -/

/-- Accounts of `Wrap`: /repo/program/src/processor.rs:208-218; `additional` is `&accounts[9..]`. -/
structure WrapAccounts where
  recipient : Meta
  wrappedMint : Meta
  authority : Meta
  unwrappedTokenProgram : Meta
  wrappedTokenProgram : Meta
  unwrappedTokenAccount : Meta
  unwrappedMint : Meta
  escrow : Meta
  transferAuthority : Meta
  additional : List Meta
deriving DecidableEq, Repr

/-- The `next_account_info` calls of `process_wrap`: /repo/program/src/processor.rs:208-218. -/
def parseWrap : List Meta → Res WrapAccounts
  | a :: b :: c :: d :: e :: f :: g :: h :: i :: rest => .ok ⟨a, b, c, d, e, f, g, h, i, rest⟩
  | _ => .error .notEnoughAccountKeys

/-- `extract_multisig_accounts` (spl-token-2022 `onchain`, external): if the authority is a token
multisig, the additional accounts that are its members and signed; otherwise none. -/
def extractMultisig (L : Ledger) (authority : Pubkey) (additional : List Meta) : List Pubkey :=
  match (L authority).data with
  | .multisig ms =>
    if isTokenProgram (L authority).owner then
      (additional.filter fun m => m.signer && decide (m.key ∈ ms.signers)).map (·.key)
    else []
  | _ => []

/-- The fee computation of `process_wrap`: /repo/program/src/processor.rs:256-262
(`.ok().and_then(calculate_epoch_fee).unwrap_or(0)`). -/
def wrapFee (env : Env) (m : Mint) (amount : Nat) : Nat :=
  match m.transferFee? with
  | some c => (c.calculateEpochFee env.epoch amount).getD 0
  | none => 0

/-- The transfer CPI of `process_wrap`: /repo/program/src/processor.rs:267-293.
`unwrapped_mint_data` is borrowed during the CPI; no PDA signs. -/
def wrapTransfer (env : Env) (accounts : List Meta) (a : WrapAccounts) (m : Mint) (amount fee : Nat)
    (L : Ledger) : Res Ledger :=
  let signers := extractMultisig L a.transferAuthority.key a.additional
  if a.unwrappedTokenProgram.key = token2022Id then
    invokeToken env accounts [] [a.unwrappedMint.key] a.unwrappedTokenProgram.key
      (.transferCheckedWithFee a.unwrappedTokenAccount.key a.unwrappedMint.key a.escrow.key
        a.transferAuthority.key signers amount m.decimals fee) L
  else
    invokeToken env accounts [] [a.unwrappedMint.key] a.unwrappedTokenProgram.key
      (.transferChecked a.unwrappedTokenAccount.key a.unwrappedMint.key a.escrow.key
        a.transferAuthority.key signers amount m.decimals) L

/-- `process_wrap`: /repo/program/src/processor.rs:203-317. -/
def processWrap (env : Env) (accounts : List Meta) (amount : UInt64) (L : Ledger) : Res Ledger := do
  require (amount ≠ 0) (wrapErr .zeroWrapAmount)
  let a ← parseWrap accounts
  let expectedMint ← okOr
    (wrappedMintAddress env.cr a.unwrappedMint.key a.wrappedTokenProgram.key) .panicked
  require (expectedMint = a.wrappedMint.key) (wrapErr .wrappedMintMismatch)
  let (expectedAuthority, bump) ← okOr (authorityWithSeed env.cr a.wrappedMint.key) .panicked
  require (a.authority.key = expectedAuthority) (wrapErr .mintAuthorityMismatch)
  let expectedEscrow ← okOr (associatedTokenAddress env.cr a.authority.key a.unwrappedMint.key
    a.unwrappedTokenProgram.key) .panicked
  require (a.escrow.key = expectedEscrow) (wrapErr .escrowMismatch)
  let escrow ← unpackToken (L a.escrow.key).data
  require (escrow.owner = expectedAuthority) (wrapErr .escrowOwnerMismatch)
  let m ← unpackMint (L a.unwrappedMint.key).data
  let fee := wrapFee env m amount.toNat
  require (fee ≤ amount.toNat) .arithmeticOverflow
  let net := amount.toNat - fee
  let L1 ← wrapTransfer env accounts a m amount.toNat fee L
  let pda ← signerPda env (authoritySignerSeeds a.wrappedMint.key bump)
  invokeToken env accounts [pda] [a.unwrappedMint.key] a.wrappedTokenProgram.key
    (.mintTo a.wrappedMint.key a.recipient.key a.authority.key [] net) L1

/-! ## Unwrap -/

/-- Accounts of `Unwrap`: /repo/program/src/processor.rs:325-336. -/
structure UnwrapAccounts where
  escrow : Meta
  recipient : Meta
  authority : Meta
  unwrappedMint : Meta
  wrappedTokenProgram : Meta
  unwrappedTokenProgram : Meta
  wrappedTokenAccount : Meta
  wrappedMint : Meta
  transferAuthority : Meta
  additional : List Meta
deriving DecidableEq, Repr

/-- The `next_account_info` calls of `process_unwrap`: /repo/program/src/processor.rs:325-336. -/
def parseUnwrap : List Meta → Res UnwrapAccounts
  | a :: b :: c :: d :: e :: f :: g :: h :: i :: rest => .ok ⟨a, b, c, d, e, f, g, h, i, rest⟩
  | _ => .error .notEnoughAccountKeys

/-- `process_unwrap`: /repo/program/src/processor.rs:320-399. -/
def processUnwrap (env : Env) (accounts : List Meta) (amount : UInt64) (L : Ledger) :
    Res Ledger := do
  require (amount ≠ 0) (wrapErr .zeroWrapAmount)
  let a ← parseUnwrap accounts
  let expectedMint ← okOr
    (wrappedMintAddress env.cr a.unwrappedMint.key a.wrappedTokenProgram.key) .panicked
  require (expectedMint = a.wrappedMint.key) (wrapErr .wrappedMintMismatch)
  let (expectedAuthority, bump) ← okOr (authorityWithSeed env.cr a.wrappedMint.key) .panicked
  require (a.authority.key = expectedAuthority) (wrapErr .mintAuthorityMismatch)
  let expectedEscrow ← okOr (associatedTokenAddress env.cr a.authority.key a.unwrappedMint.key
    a.unwrappedTokenProgram.key) .panicked
  require (a.escrow.key = expectedEscrow) (wrapErr .escrowMismatch)
  let signers := extractMultisig L a.transferAuthority.key a.additional
  let L1 ← invokeToken env accounts [] [] a.wrappedTokenProgram.key
    (.burn a.wrappedTokenAccount.key a.wrappedMint.key a.transferAuthority.key signers
      amount.toNat) L
  let m ← unpackMint (L1 a.unwrappedMint.key).data
  let pda ← signerPda env (authoritySignerSeeds a.wrappedMint.key bump)
  invokeToken env accounts [pda] [a.unwrappedMint.key] a.unwrappedTokenProgram.key
    (.transferChecked a.escrow.key a.unwrappedMint.key a.recipient.key a.authority.key
      (extractMultisig L1 a.authority.key a.additional) amount.toNat m.decimals) L1

/-! ## CloseStuckEscrow -/

/-- Accounts of `CloseStuckEscrow`: /repo/program/src/processor.rs:403-410. -/
structure CloseAccounts where
  escrow : Meta
  destination : Meta
  unwrappedMint : Meta
  wrappedMint : Meta
  authority : Meta
  token2022Program : Meta
deriving DecidableEq, Repr

/-- The `next_account_info` calls of `process_close_stuck_escrow`:
/repo/program/src/processor.rs:403-410. -/
def parseClose : List Meta → Res CloseAccounts
  | a :: b :: c :: d :: e :: f :: _ => .ok ⟨a, b, c, d, e, f⟩
  | _ => .error .notEnoughAccountKeys

/-- The extensions the escrow should have: /repo/program/src/processor.rs:461-472. -/
def requiredEscrowExts (m : Mint) : List AcctExt :=
  let required := m.requiredAccountExts
  if AcctExt.immutableOwner ∈ required then required else required ++ [.immutableOwner]

/-- The good-state test: /repo/program/src/processor.rs:476-479. -/
def escrowInGoodState (current required : List AcctExt) : Bool :=
  current.length = required.length && required.all (· ∈ current)

/-- `process_close_stuck_escrow`: /repo/program/src/processor.rs:402-506. The unwrapped mint's data
is borrowed during the CPI. -/
def processCloseStuckEscrow (env : Env) (accounts : List Meta) (L : Ledger) : Res Ledger := do
  let a ← parseClose accounts
  require ((L a.escrow.key).owner = token2022Id && (L a.unwrappedMint.key).owner = token2022Id)
    .incorrectProgramId
  let expectedMint ← okOr
    (wrappedMintAddress env.cr a.unwrappedMint.key (L a.wrappedMint.key).owner) .panicked
  require (a.wrappedMint.key = expectedMint) (wrapErr .wrappedMintMismatch)
  let (expectedAuthority, bump) ← okOr (authorityWithSeed env.cr a.wrappedMint.key) .panicked
  require (a.authority.key = expectedAuthority) (wrapErr .mintAuthorityMismatch)
  let expectedEscrow ← okOr (associatedTokenAddress env.cr a.authority.key a.unwrappedMint.key
    (L a.unwrappedMint.key).owner) .panicked
  require (a.escrow.key = expectedEscrow) (wrapErr .escrowMismatch)
  let escrow ← unpackToken (L a.escrow.key).data
  require (escrow.owner = a.authority.key) (wrapErr .escrowOwnerMismatch)
  require (escrow.amount = 0) .invalidAccountData
  require (!escrow.frozen) .invalidAccountData
  let m ← unpackMint (L a.unwrappedMint.key).data
  require (!escrowInGoodState escrow.exts (requiredEscrowExts m)) (wrapErr .escrowInGoodState)
  let pda ← signerPda env (authoritySignerSeeds a.wrappedMint.key bump)
  invokeToken env accounts [pda] [a.unwrappedMint.key] (L a.escrow.key).owner
    (.closeAccount a.escrow.key a.destination.key a.authority.key []) L

/-! ## SyncMetadataToToken2022 -/

/-- Accounts of `SyncMetadataToToken2022`: /repo/program/src/processor.rs:542-548. -/
structure Sync22Accounts where
  wrappedMint : Meta
  authority : Meta
  unwrappedMint : Meta
  tokenProgram : Meta
  source : Option Meta
  ownerProgram : Option Meta
deriving DecidableEq, Repr

/-- The account iteration of `process_sync_metadata_to_token_2022`:
/repo/program/src/processor.rs:542-548. -/
def parseSync22 : List Meta → Res Sync22Accounts
  | a :: b :: c :: d :: rest => .ok ⟨a, b, c, d, rest[0]?, rest[1]?⟩
  | _ => .error .notEnoughAccountKeys

/-- A `HashMap<String, String>` as an association list without duplicate keys. -/
abbrev StrMap := List (String × String)

/-- `iter.collect::<HashMap<_, _>>()`: later entries overwrite earlier ones
(/repo/program/src/processor.rs:615-616). -/
def collectMap (l : List (String × String)) : StrMap :=
  l.foldl (fun m p => setKeyValue p.1 p.2 m) []

/-- `HashMap::remove`. -/
def StrMap.erase (m : StrMap) (k : String) : StrMap := m.filter (fun p => p.1 ≠ k)

/-- The metadata CPI used throughout the sync: signed by the authority PDA. -/
def metaCpi (env : Env) (accounts : List Meta) (pda tokenProgram : Pubkey) (ix : TokenIx)
    (L : Ledger) : Res Ledger :=
  invokeToken env accounts [pda] [] tokenProgram ix L

/-- `update_fields_if_changed`: /repo/program/src/processor.rs:510-537. -/
def updateFieldsIfChanged (env : Env) (accounts : List Meta) (pda tokenProgram mint authority : Pubkey)
    (wrapped unwrapped : TokenMetadata) :
    List (Field × (TokenMetadata → String)) → Ledger → Res Ledger
  | [], L => .ok L
  | (field, extractor) :: rest, L => do
    let L1 ← (if extractor wrapped ≠ extractor unwrapped then
        metaCpi env accounts pda tokenProgram
          (.updateField mint authority field (extractor unwrapped)) L
      else .ok L)
    updateFieldsIfChanged env accounts pda tokenProgram mint authority wrapped unwrapped rest L1

/-- The base fields: /repo/program/src/processor.rs:598-602. -/
def baseFields : List (Field × (TokenMetadata → String)) :=
  [(.name, TokenMetadata.name), (.symbol, TokenMetadata.symbol), (.uri, TokenMetadata.uri)]

/-- The loop over the source's additional fields: /repo/program/src/processor.rs:618-635. -/
def syncAdditional (env : Env) (accounts : List Meta) (pda tokenProgram mint authority : Pubkey) :
    List (String × String) → StrMap → Ledger → Res (StrMap × Ledger)
  | [], map, L => .ok (map, L)
  | (key, value) :: rest, map, L => do
    let L1 ← (if map.lookup key ≠ some value then
        metaCpi env accounts pda tokenProgram (.updateField mint authority (.key key) value) L
      else .ok L)
    syncAdditional env accounts pda tokenProgram mint authority rest (map.erase key) L1

/-- The loop removing stale keys: /repo/program/src/processor.rs:638-650. -/
def removeStale (env : Env) (accounts : List Meta) (pda tokenProgram mint authority : Pubkey) :
    List String → Ledger → Res Ledger
  | [], L => .ok L
  | key :: rest, L => do
    let L1 ← metaCpi env accounts pda tokenProgram (.removeKey mint authority key false) L
    removeStale env accounts pda tokenProgram mint authority rest L1

/-- The loop adding fields after initialisation: /repo/program/src/processor.rs:669-682. -/
def addFields (env : Env) (accounts : List Meta) (pda tokenProgram mint authority : Pubkey) :
    List (String × String) → Ledger → Res Ledger
  | [], L => .ok L
  | (key, value) :: rest, L => do
    let L1 ← metaCpi env accounts pda tokenProgram (.updateField mint authority (.key key) value) L
    addFields env accounts pda tokenProgram mint authority rest L1

/-- `process_sync_metadata_to_token_2022`: /repo/program/src/processor.rs:541-686. -/
def processSyncToToken2022 (env : Env) (accounts : List Meta) (L : Ledger) : Res Ledger := do
  let a ← parseSync22 accounts
  require (a.tokenProgram.key = token2022Id) .incorrectProgramId
  require ((L a.wrappedMint.key).owner = token2022Id) .incorrectProgramId
  let expectedMint ← okOr (wrappedMintAddress env.cr a.unwrappedMint.key token2022Id) .panicked
  require (a.wrappedMint.key = expectedMint) (wrapErr .wrappedMintMismatch)
  let (expectedAuthority, bump) ← okOr (authorityWithSeed env.cr a.wrappedMint.key) .panicked
  require (a.authority.key = expectedAuthority) (wrapErr .mintAuthorityMismatch)
  let src ← extractTokenMetadata env accounts a.unwrappedMint.key a.source a.ownerProgram L
  let m ← unpackMint (L a.wrappedMint.key).data
  let pda ← signerPda env (authoritySignerSeeds a.wrappedMint.key bump)
  match m.tokenMetadata? with
  | some wrapped => do
    let L1 ← updateFieldsIfChanged env accounts pda a.tokenProgram.key a.wrappedMint.key
      a.authority.key wrapped src baseFields L
    let (rest, L2) ← syncAdditional env accounts pda a.tokenProgram.key a.wrappedMint.key
      a.authority.key src.additional (collectMap wrapped.additional) L1
    removeStale env accounts pda a.tokenProgram.key a.wrappedMint.key a.authority.key
      (env.hashOrder (rest.map (·.1))) L2
  | none => do
    let L1 ← metaCpi env accounts pda a.tokenProgram.key
      (.initializeMetadata a.wrappedMint.key a.authority.key a.authority.key
        src.name src.symbol src.uri) L
    addFields env accounts pda a.tokenProgram.key a.wrappedMint.key a.authority.key
      src.additional L1

/-! ## SyncMetadataToSplToken -/

/-- Accounts of `SyncMetadataToSplToken`: /repo/program/src/processor.rs:691-700. -/
structure SyncSplAccounts where
  metaplexMetadata : Meta
  authority : Meta
  wrappedMint : Meta
  unwrappedMint : Meta
  metaplexProgram : Meta
  systemProgram : Meta
  rentSysvar : Meta
  source : Option Meta
  ownerProgram : Option Meta
deriving DecidableEq, Repr

/-- The account iteration of `process_sync_metadata_to_spl_token`:
/repo/program/src/processor.rs:691-700. -/
def parseSyncSpl : List Meta → Res SyncSplAccounts
  | a :: b :: c :: d :: e :: f :: g :: rest => .ok ⟨a, b, c, d, e, f, g, rest[0]?, rest[1]?⟩
  | _ => .error .notEnoughAccountKeys

/-- Metas of `CreateMetadataAccountV3` (mpl-token-metadata builder) as filled in at
/repo/program/src/processor.rs:748-756: metadata writable, mint, mint authority signer, payer
writable signer, update authority signer, system program, rent. -/
def mplCreateMetas (a : SyncSplAccounts) : List Meta :=
  [.rw a.metaplexMetadata.key false, .ro a.wrappedMint.key false, .ro a.authority.key true,
   .rw a.authority.key true, .ro a.authority.key true, .ro a.systemProgram.key false,
   .ro a.rentSysvar.key false]

/-- Metas of `UpdateMetadataAccountV2`: /repo/program/src/processor.rs:779-782. -/
def mplUpdateMetas (a : SyncSplAccounts) : List Meta :=
  [.rw a.metaplexMetadata.key false, .ro a.authority.key true]

/-- `process_sync_metadata_to_spl_token`: /repo/program/src/processor.rs:690-800. -/
def processSyncToSplToken (env : Env) (accounts : List Meta) (L : Ledger) : Res Ledger := do
  let a ← parseSyncSpl accounts
  require ((L a.wrappedMint.key).owner = splTokenId) (wrapErr .noSyncingToToken2022)
  let expectedMint ← okOr (wrappedMintAddress env.cr a.unwrappedMint.key splTokenId) .panicked
  require (a.wrappedMint.key = expectedMint) (wrapErr .wrappedMintMismatch)
  let (expectedAuthority, bump) ← okOr (authorityWithSeed env.cr a.wrappedMint.key) .panicked
  require (a.authority.key = expectedAuthority) (wrapErr .mintAuthorityMismatch)
  let expectedMetaplex ← okOr (metaplexPda env.cr a.wrappedMint.key) .panicked
  require (a.metaplexMetadata.key = expectedMetaplex) (wrapErr .metaplexMetadataMismatch)
  require (a.metaplexProgram.key = metaplexId) .incorrectProgramId
  let src ← extractTokenMetadata env accounts a.unwrappedMint.key a.source a.ownerProgram L
  let data ← token2022ToMetaplex env src
  let pda ← signerPda env (authoritySignerSeeds a.wrappedMint.key bump)
  if (L a.metaplexMetadata.key).data.len = 0 then do
    cpiCheck accounts [pda] [] metaplexId (mplCreateMetas a)
    mplCreate env (signedBy (mplCreateMetas a)) a.metaplexMetadata.key a.wrappedMint.key
      a.authority.key a.authority.key a.authority.key data true L
  else do
    cpiCheck accounts [pda] [] metaplexId (mplUpdateMetas a)
    mplUpdate env (signedBy (mplUpdateMetas a)) a.metaplexMetadata.key a.authority.key data L

/-! ## SetCanonicalPointer -/

/-- Accounts of `SetCanonicalPointer`: /repo/program/src/processor.rs:809-813. -/
structure PointerAccounts where
  mintAuthority : Meta
  pointer : Meta
  unwrappedMint : Meta
  systemProgram : Meta
deriving DecidableEq, Repr

/-- The `next_account_info` calls of `process_set_canonical_pointer`:
/repo/program/src/processor.rs:809-813. -/
def parsePointer : List Meta → Res PointerAccounts
  | a :: b :: c :: d :: _ => .ok ⟨a, b, c, d⟩
  | _ => .error .notEnoughAccountKeys

/-- Creation of the pointer account when it has no data: /repo/program/src/processor.rs:850-876. -/
def initPointer (env : Env) (accounts : List Meta) (a : PointerAccounts) (bump : UInt8)
    (L : Ledger) : Res Ledger :=
  if (L a.pointer.key).data.len = 0 then do
    require (env.rentMin 32 ≤ (L a.pointer.key).lamports) .accountNotRentExempt
    let pda ← signerPda env (canonicalPointerSignerSeeds a.unwrappedMint.key bump)
    let L1 ← invokeAllocate accounts [pda] a.pointer.key 32 L
    invokeAssign accounts [pda] a.pointer.key env.programId L1
  else pure L

/-- `process_set_canonical_pointer`: /repo/program/src/processor.rs:804-885.  The state
`CanonicalDeploymentPointer` (/repo/program/src/state.rs:26-38) is the 32 bytes of an address. -/
def processSetCanonicalPointer (env : Env) (accounts : List Meta) (newProgramId : Pubkey)
    (L : Ledger) : Res Ledger := do
  let a ← parsePointer accounts
  require a.mintAuthority.signer .missingRequiredSignature
  require ((L a.unwrappedMint.key).owner = splTokenId || (L a.unwrappedMint.key).owner = token2022Id)
    .invalidAccountOwner
  let m ← unpackMint (L a.unwrappedMint.key).data
  let ma ← okOr m.mintAuthority .invalidAccountData
  require (ma = a.mintAuthority.key) .incorrectAuthority
  let (expectedPointer, bump) ← okOr (canonicalPointerWithSeed env.cr a.unwrappedMint.key) .panicked
  require (a.pointer.key = expectedPointer) .invalidArgument
  let L1 ← initPointer env accounts a bump L
  require (has32 (L1 a.pointer.key).data) .panicked
  writeOwn env a.pointer newProgramId.bytes L1

/-! ## Dispatch -/

/-- `process_instruction`: /repo/program/src/processor.rs:888-927 (and the entry point,
/repo/program/src/entrypoint.rs:12-19). -/
def processInstruction (env : Env) (accounts : List Meta) (input : Bytes) (L : Ledger) :
    Res Ledger := do
  match ← TokenWrapInstruction.unpack input with
  | .createMint idempotent =>
    processCreateMint env defaultToken2022Customizer accounts idempotent L
  | .wrap amount => processWrap env accounts amount L
  | .unwrap amount => processUnwrap env accounts amount L
  | .closeStuckEscrow => processCloseStuckEscrow env accounts L
  | .syncMetadataToToken2022 => processSyncToToken2022 env accounts L
  | .syncMetadataToSplToken => processSyncToSplToken env accounts L
  | .setCanonicalPointer newProgramId => processSetCanonicalPointer env accounts newProgramId L

end TokenWrap
