import Verif.CliCommands
/-!
# Model of the JavaScript client: /repo/clients/js/src

The generated instruction builders, parsers and address helpers, the hand-written wrap / unwrap /
escrow helpers and the combination of offline signatures.  As for the CLI, the RPC node is the ledger
read at that moment.  The libraries @solana/kit and @solana-program/token-2022 (codecs,
`getProgramDerivedAddress`, `findAssociatedTokenPda`) are external and trusted; blockhashes and the
transaction size limit are not modelled.
-/

namespace TokenWrap.Js

open TokenWrapInstruction

/-! ## Addresses: /repo/clients/js/src/generated/pdas -/

/-- `getUtf8Encoder().encode(s)`. -/
def utf8 (s : String) : Bytes := s.toUTF8.toList

/-- `getProgramDerivedAddress` of @solana/kit: bumps 255 down to 1.  Same algorithm as
`find_program_address`. -/
def programDerivedAddress (cr : Crypto) (seeds : List Bytes) (programId : Pubkey) : Option Pubkey :=
  (findProgramAddress cr seeds programId).map (·.1)

/-- `findWrappedMintPda`: /repo/clients/js/src/generated/pdas/wrappedMint.ts:22-37. -/
def findWrappedMintPda (cr : Crypto) (unwrappedMint wrappedTokenProgram : Pubkey) : Option Pubkey :=
  programDerivedAddress cr [utf8 "mint", unwrappedMint.bytes, wrappedTokenProgram.bytes] crateId

/-- `findWrappedMintAuthorityPda`:
/repo/clients/js/src/generated/pdas/wrappedMintAuthority.ts:21-32. -/
def findWrappedMintAuthorityPda (cr : Crypto) (wrappedMint : Pubkey) : Option Pubkey :=
  programDerivedAddress cr [utf8 "authority", wrappedMint.bytes] crateId

/-- `findBackpointerPda`: /repo/clients/js/src/generated/pdas/backpointer.ts:21-32. -/
def findBackpointerPda (cr : Crypto) (wrappedMint : Pubkey) : Option Pubkey :=
  programDerivedAddress cr [utf8 "backpointer", wrappedMint.bytes] crateId

/-! ## Builders: /repo/clients/js/src/generated/instructions -/

/-- `Address | TransactionSigner`. -/
structure Authority where
  key : Pubkey
  isSigner : Bool
deriving DecidableEq, Repr

/-- `getU64Encoder().encode(n)`: throws unless `0 ≤ n < 2^64`. -/
def encodeU64 (n : Int) : Except ClientErr Bytes :=
  if 0 ≤ n ∧ n ≤ (u64Max : Int) then .ok (u64ToLe (UInt64.ofNat n.toNat)) else .error .codec

/-- `getAccountMeta` for a given account.  The role of a `TransactionSigner` is upgraded. -/
def metaOf (a : Authority) (writable : Bool) : Meta := ⟨a.key, a.isSigner, writable⟩

/-- `getAccountMeta` for an optional account with strategy `'programId'`: an omitted account becomes
the program's own address, read-only. -/
def optMeta (programId : Pubkey) (a : Option Pubkey) : Meta := .ro (a.getD programId) false

/-- `getCreateMintInstruction`: /repo/clients/js/src/generated/instructions/createMint.ts:75-83,
125-190. -/
def createMintIx (programId wrappedMint backpointer unwrappedMint wrappedTokenProgram : Pubkey)
    (systemProgram : Option Pubkey) (idempotent : Option Bool) : Instr :=
  { programId
    accounts := [.rw wrappedMint false, .rw backpointer false, .ro unwrappedMint false,
                 .ro (systemProgram.getD systemId) false, .ro wrappedTokenProgram false]
    data := [0, if idempotent.getD false then 1 else 0] }

/-- `getWrapInstruction`: /repo/clients/js/src/generated/instructions/wrap.ts:97-105, 160-255. -/
def wrapIx (programId recipient wrappedMint authority unwrappedTokenProgram wrappedTokenProgram
    unwrappedTokenAccount unwrappedMint escrow : Pubkey) (transferAuthority : Authority)
    (multiSigners : List Pubkey) (amount : Int) : Except ClientErr Instr := do
  let n ← encodeU64 amount
  pure
    { programId
      accounts :=
        [.rw recipient false, .rw wrappedMint false, .ro authority false,
         .ro unwrappedTokenProgram false, .ro wrappedTokenProgram false,
         .rw unwrappedTokenAccount false, .ro unwrappedMint false, .rw escrow false,
         metaOf transferAuthority false] ++ multiSigners.map (fun k => .ro k true)
      data := 1 :: n }

/-- `getUnwrapInstruction`: /repo/clients/js/src/generated/instructions/unwrap.ts:97-105, 160-255. -/
def unwrapIx (programId escrow recipient authority unwrappedMint wrappedTokenProgram
    unwrappedTokenProgram wrappedTokenAccount wrappedMint : Pubkey) (transferAuthority : Authority)
    (multiSigners : List Pubkey) (amount : Int) : Except ClientErr Instr := do
  let n ← encodeU64 amount
  pure
    { programId
      accounts :=
        [.rw escrow false, .rw recipient false, .ro authority false, .ro unwrappedMint false,
         .ro wrappedTokenProgram false, .ro unwrappedTokenProgram false,
         .rw wrappedTokenAccount false, .rw wrappedMint false,
         metaOf transferAuthority false] ++ multiSigners.map (fun k => .ro k true)
      data := 2 :: n }

/-- `getCloseStuckEscrowInstruction`:
/repo/clients/js/src/generated/instructions/closeStuckEscrow.ts:70-75, 110-178. -/
def closeStuckEscrowIx (programId escrow destination unwrappedMint wrappedMint authority : Pubkey)
    (token2022Program : Option Pubkey) : Instr :=
  { programId
    accounts := [.rw escrow false, .rw destination false, .ro unwrappedMint false,
                 .ro wrappedMint false, .ro authority false,
                 .ro (token2022Program.getD token2022Id) false]
    data := [3] }

/-- `getSyncMetadataToToken2022Instruction`:
/repo/clients/js/src/generated/instructions/syncMetadataToToken2022.ts:70-75, 119-187. -/
def sync22Ix (programId wrappedMint authority unwrappedMint : Pubkey)
    (token2022Program sourceMetadata ownerProgram : Option Pubkey) : Instr :=
  { programId
    accounts := [.rw wrappedMint false, .ro authority false, .ro unwrappedMint false,
                 .ro (token2022Program.getD token2022Id) false, optMeta programId sourceMetadata,
                 optMeta programId ownerProgram]
    data := [4] }

/-- `getSyncMetadataToSplTokenInstruction`:
/repo/clients/js/src/generated/instructions/syncMetadataToSplToken.ts:76-81, 135-229. -/
def syncSplIx (programId metaplexMetadata authority wrappedMint unwrappedMint : Pubkey)
    (metaplexProgram systemProgram rentSysvar sourceMetadata ownerProgram : Option Pubkey) : Instr :=
  { programId
    accounts := [.rw metaplexMetadata false, .rw authority false, .ro wrappedMint false,
                 .ro unwrappedMint false, .ro (metaplexProgram.getD metaplexId) false,
                 .ro (systemProgram.getD systemId) false, .ro (rentSysvar.getD rentSysvarId) false,
                 optMeta programId sourceMetadata, optMeta programId ownerProgram]
    data := [5] }

/-! ## Identifying and parsing: /repo/clients/js/src/generated/programs/tokenWrap.ts -/

/-- `enum TokenWrapInstruction`: /repo/clients/js/src/generated/programs/tokenWrap.ts:70-77. -/
inductive Kind
  | createMint | wrap | unwrap | closeStuckEscrow | syncMetadataToToken2022 | syncMetadataToSplToken
deriving DecidableEq, Repr

/-- `identifyTokenWrapInstruction`: /repo/clients/js/src/generated/programs/tokenWrap.ts:79-105.
`containsBytes(data, [n], 0)` is "the first byte is `n`". -/
def identify (data : Bytes) : Except ClientErr Kind :=
  match data.head? with
  | some b =>
    if b = 0 then .ok .createMint
    else if b = 1 then .ok .wrap
    else if b = 2 then .ok .unwrap
    else if b = 3 then .ok .closeStuckEscrow
    else if b = 4 then .ok .syncMetadataToToken2022
    else if b = 5 then .ok .syncMetadataToSplToken
    else .error .unidentified
  | none => .error .unidentified

/-- `getU64Decoder()` at offset 1: throws if fewer than eight bytes are left; bytes after them are
ignored. -/
def decodeU64At1 (data : Bytes) : Except ClientErr UInt64 :=
  okOr (readU64 ((data.drop 1).take 8)) .codec

/-- `getBooleanDecoder()` at offset 1: true exactly for the byte 1. -/
def decodeBoolAt1 (data : Bytes) : Except ClientErr Bool :=
  match (data.drop 1).head? with
  | some b => .ok (b = 1)
  | none => .error .codec

/-- The parsed arguments of an instruction. -/
inductive Args
  | createMint (idempotent : Bool)
  | wrap (amount : UInt64)
  | unwrap (amount : UInt64)
  | closeStuckEscrow
  | syncMetadataToToken2022
  | syncMetadataToSplToken
deriving DecidableEq, Repr

/-- The parsed form: the arguments and the named accounts in order; `none` is an optional account
left out. -/
structure Parsed where
  args : Args
  accounts : List (Option Meta)
deriving DecidableEq, Repr

/-- `getNextOptionalAccount`: the program's own address stands for an omitted account. -/
def optional (m : Meta) : Option Meta := if m.key = crateId then none else some m

/-- The check on the number of accounts, then reading them in order; `opts` says which positions are
optional. -/
def readAccounts (opts : List Bool) (accounts : List Meta) :
    Except ClientErr (List (Option Meta)) :=
  if accounts.length < opts.length then .error .insufficientAccounts
  else .ok ((opts.zip accounts).map fun (o, m) => if o then optional m else some m)

/-- `parseTokenWrapInstruction`: /repo/clients/js/src/generated/programs/tokenWrap.ts:119-163 with
`parseCreateMintInstruction` (createMint.ts:218-250), `parseWrapInstruction` (wrap.ts:294-326),
`parseUnwrapInstruction` (unwrap.ts:294-326), `parseCloseStuckEscrowInstruction`
(closeStuckEscrow.ts:202-235), `parseSyncMetadataToToken2022Instruction`
(syncMetadataToToken2022.ts:217-253), `parseSyncMetadataToSplTokenInstruction`
(syncMetadataToSplToken.ts:266-305). -/
def parse (accounts : List Meta) (data : Bytes) : Except ClientErr Parsed := do
  match ← identify data with
  | .createMint => do
    let as ← readAccounts [false, false, false, true, false] accounts
    pure ⟨.createMint (← decodeBoolAt1 data), as⟩
  | .wrap => do
    let as ← readAccounts (List.replicate 9 false) accounts
    pure ⟨.wrap (← decodeU64At1 data), as⟩
  | .unwrap => do
    let as ← readAccounts (List.replicate 9 false) accounts
    pure ⟨.unwrap (← decodeU64At1 data), as⟩
  | .closeStuckEscrow => do
    let as ← readAccounts [false, false, false, false, false, true] accounts
    pure ⟨.closeStuckEscrow, as⟩
  | .syncMetadataToToken2022 => do
    let as ← readAccounts [false, false, false, false, true, true] accounts
    pure ⟨.syncMetadataToToken2022, as⟩
  | .syncMetadataToSplToken => do
    let as ← readAccounts [false, false, false, false, false, false, false, true, true] accounts
    pure ⟨.syncMetadataToSplToken, as⟩

/-! ## Errors: /repo/clients/js/src/generated/errors/tokenWrap.ts -/

/-- The exported error codes by name: /repo/clients/js/src/generated/errors/tokenWrap.ts:17-32. -/
def errorCodes : List (TokenWrapError × UInt32) :=
  [(.wrappedMintMismatch, 0x0), (.backpointerMismatch, 0x1), (.zeroWrapAmount, 0x2),
   (.mintAuthorityMismatch, 0x3), (.escrowOwnerMismatch, 0x4), (.invalidWrappedMintOwner, 0x5),
   (.invalidBackpointerOwner, 0x6), (.escrowMismatch, 0x7), (.escrowInGoodState, 0x8),
   (.unwrappedMintHasNoMetadata, 0x9), (.metaplexMetadataMismatch, 0xa),
   (.metadataPointerMissing, 0xb), (.metadataPointerUnset, 0xc), (.metadataPointerMismatch, 0xd),
   (.externalProgramReturnedNoData, 0xe), (.noSyncingToToken2022, 0xf)]

/-- `tokenWrapErrorMessages`: /repo/clients/js/src/generated/errors/tokenWrap.ts:54-71, in the
order of the file. -/
def errorMessages : List (UInt32 × String) :=
  [(1, "Wrapped backpointer account address does not match expected PDA"),
   (8, "The escrow account is in a good state and cannot be recreated"),
   (7, "Escrow account address does not match expected ATA"),
   (4, "Unwrapped escrow token owner is not set to expected PDA"),
   (14, "External metadata program returned no data"),
   (6, "Wrapped backpointer account owner is not the expected token wrap program"),
   (5, "Wrapped mint account owner is not the expected token program"),
   (13, "Provided source metadata account does not match pointer"),
   (11, "Metadata pointer extension missing on mint"),
   (12, "Metadata pointer is unset (None)"),
   (10, "Metaplex metadata account address does not match expected PDA"),
   (3, "Wrapped mint authority does not match expected PDA"),
   (15, "Instruction can only be used with spl-token wrapped mints"),
   (9, "Unwrapped mint does not have the TokenMetadata extension"),
   (0, "Wrapped mint account address does not match expected PDA"),
   (2, "Wrap amount should be positive")]

/-- `getTokenWrapErrorMessage` outside production builds:
/repo/clients/js/src/generated/errors/tokenWrap.ts:74-80. -/
def errorMessage (code : UInt32) : Option String :=
  (errorMessages.find? fun e => e.1 = code).map (·.2)

/-! ## The backpointer account: /repo/clients/js/src/generated/accounts/backpointer.ts -/

/-- How a node renders account data as bytes.  Data that has not been given a structure is what it is;
nothing is assumed about the layout of mints, token accounts and so on. -/
structure Raw where
  of : Data → Bytes
  bytes : ∀ b, of (.bytes b) = b

/-- `fetchEncodedAccount` of @solana/kit: the account, or the statement that there is none. -/
def fetchEncodedAccount (L : Ledger) (k : Pubkey) : Option Account :=
  if (L k).lamports = 0 then none else some (L k)

/-- `decodeBackpointer`: /repo/clients/js/src/generated/accounts/backpointer.ts:44-46, 53-63.  An absent
account stays absent.  The decoder reads the first 32 bytes and asks nothing about the account's owner. -/
def decodeBackpointer (raw : Raw) : Option Account → Except ClientErr (Option Pubkey)
  | none => .ok none
  | some a => match readKey ((raw.of a.data).take 32) with
    | some k => .ok (some k)
    | none => .error .codec

/-- `fetchMaybeBackpointer`: /repo/clients/js/src/generated/accounts/backpointer.ts:75-82. -/
def fetchMaybeBackpointer (raw : Raw) (k : Pubkey) (L : Ledger) : Except ClientErr (Option Pubkey) :=
  decodeBackpointer raw (fetchEncodedAccount L k)

/-- `assertAccountExists` of @solana/kit. -/
def assertExists : Option Pubkey → Except ClientErr Pubkey
  | some k => .ok k
  | none => .error .accountNotFound

/-- `fetchBackpointer`: /repo/clients/js/src/generated/accounts/backpointer.ts:65-73. -/
def fetchBackpointer (raw : Raw) (k : Pubkey) (L : Ledger) : Except ClientErr Pubkey := do
  let a ← fetchMaybeBackpointer raw k L
  assertExists a

/-- `fetchAllMaybeBackpointer`: /repo/clients/js/src/generated/accounts/backpointer.ts:94-101.  `map`
throws at the first account that cannot be decoded. -/
def fetchAllMaybeBackpointer (raw : Raw) (ks : List Pubkey) (L : Ledger) :
    Except ClientErr (List (Option Pubkey)) :=
  (ks.map (fetchEncodedAccount L)).mapM (decodeBackpointer raw)

/-- `fetchAllBackpointer`: /repo/clients/js/src/generated/accounts/backpointer.ts:84-92. -/
def fetchAllBackpointer (raw : Raw) (ks : List Pubkey) (L : Ledger) :
    Except ClientErr (List Pubkey) := do
  let l ← fetchAllMaybeBackpointer raw ks L
  l.mapM assertExists

/-- `fetchMaybeBackpointerFromSeeds`: /repo/clients/js/src/generated/accounts/backpointer.ts:117-125. -/
def fetchMaybeBackpointerFromSeeds (cr : Crypto) (raw : Raw) (wrappedMint : Pubkey) (L : Ledger) :
    Except ClientErr (Option Pubkey) := do
  let k ← okOr (findBackpointerPda cr wrappedMint) .panicked
  fetchMaybeBackpointer raw k L

/-- `fetchBackpointerFromSeeds`: /repo/clients/js/src/generated/accounts/backpointer.ts:107-115. -/
def fetchBackpointerFromSeeds (cr : Crypto) (raw : Raw) (wrappedMint : Pubkey) (L : Ledger) :
    Except ClientErr Pubkey := do
  let a ← fetchMaybeBackpointerFromSeeds cr raw wrappedMint L
  assertExists a

/-! ## wrap: /repo/clients/js/src/wrap.ts -/

/-- `SingleSignerWrapArgs`: /repo/clients/js/src/wrap.ts:57-67. -/
structure WrapArgs where
  payer : Pubkey
  unwrappedTokenAccount : Pubkey
  wrappedTokenProgram : Pubkey
  amount : Int
  transferAuthority : Option Authority := none
  unwrappedMint : Option Pubkey := none
  recipient : Option Pubkey := none
  unwrappedTokenProgram : Option Pubkey := none

/-- `SingleSignerWrapResult`: /repo/clients/js/src/wrap.ts:69-74. -/
structure WrapResult where
  ix : Instr
  recipient : Pubkey
  escrow : Pubkey
deriving DecidableEq, Repr

/-- `buildWrapIx`: /repo/clients/js/src/wrap.ts:178-211. -/
def buildWrapIx (env : Env) (unwrappedTokenAccount wrappedTokenProgram wrappedMint
    wrappedMintAuthority unwrappedMint recipient unwrappedTokenProgram : Pubkey)
    (transferAuthority : Authority) (multiSigners : List Pubkey) (amount : Int) :
    Except ClientErr Instr := do
  let escrow ← okOr (associatedTokenAddress env.cr wrappedMintAuthority unwrappedMint
    unwrappedTokenProgram) .panicked
  wrapIx crateId recipient wrappedMint wrappedMintAuthority unwrappedTokenProgram wrappedTokenProgram
    unwrappedTokenAccount unwrappedMint escrow transferAuthority multiSigners amount

/-- `singleSignerWrap` with `resolveAddrs`: /repo/clients/js/src/wrap.ts:76-124, 127-176. -/
def singleSignerWrap (env : Env) (args : WrapArgs) (L : Ledger) : Except ClientErr WrapResult := do
  let u ← orQuery args.unwrappedMint (rpcTokenMint L args.unwrappedTokenAccount)
  let uprog ← orQuery args.unwrappedTokenProgram (rpcOwner L args.unwrappedTokenAccount)
  let w ← okOr (findWrappedMintPda env.cr u args.wrappedTokenProgram) .panicked
  let auth ← okOr (findWrappedMintAuthorityPda env.cr w) .panicked
  let rcp ← orQuery args.recipient
    (okOr (associatedTokenAddress env.cr args.payer w args.wrappedTokenProgram) .panicked)
  let escrow ← okOr (associatedTokenAddress env.cr auth u uprog) .panicked
  let tauth := args.transferAuthority.getD ⟨args.payer, true⟩
  let ix ← buildWrapIx env args.unwrappedTokenAccount args.wrappedTokenProgram w auth u rcp uprog
    tauth [] args.amount
  pure ⟨ix, rcp, escrow⟩

/-! ## unwrap: /repo/clients/js/src/unwrap.ts -/

/-- `SingleSignerUnwrapArgs`: /repo/clients/js/src/unwrap.ts:22-33. -/
structure UnwrapArgs where
  payer : Pubkey
  wrappedTokenAccount : Pubkey
  amount : Int
  recipient : Pubkey
  transferAuthority : Option Authority := none
  unwrappedMint : Option Pubkey := none
  wrappedTokenProgram : Option Pubkey := none
  unwrappedTokenProgram : Option Pubkey := none

/-- `buildUnwrapTransaction`: /repo/clients/js/src/unwrap.ts:94-127. -/
def buildUnwrapIx (env : Env) (recipient wrappedMintAuthority unwrappedMint wrappedTokenProgram
    unwrappedTokenProgram wrappedTokenAccount wrappedMint : Pubkey)
    (transferAuthority : Authority) (multiSigners : List Pubkey) (amount : Int) :
    Except ClientErr Instr := do
  let escrow ← okOr (associatedTokenAddress env.cr wrappedMintAuthority unwrappedMint
    unwrappedTokenProgram) .panicked
  unwrapIx crateId escrow recipient wrappedMintAuthority unwrappedMint wrappedTokenProgram
    unwrappedTokenProgram wrappedTokenAccount wrappedMint transferAuthority multiSigners amount

/-- `singleSignerUnwrap` with `resolveUnwrapAddrs`: /repo/clients/js/src/unwrap.ts:35-79, 139-185.
The wrapped mint is read from the token account, not derived. -/
def singleSignerUnwrap (env : Env) (args : UnwrapArgs) (L : Ledger) : Except ClientErr Instr := do
  let wprog ← orQuery args.wrappedTokenProgram (rpcOwner L args.wrappedTokenAccount)
  let uprog ← orQuery args.unwrappedTokenProgram (rpcOwner L args.recipient)
  let u ← orQuery args.unwrappedMint (rpcTokenMint L args.recipient)
  let w ← rpcTokenMint L args.wrappedTokenAccount
  let auth ← okOr (findWrappedMintAuthorityPda env.cr w) .panicked
  let tauth := args.transferAuthority.getD ⟨args.payer, true⟩
  buildUnwrapIx env args.recipient auth u wprog uprog args.wrappedTokenAccount w tauth [] args.amount

/-! ## Escrow creation: /repo/clients/js/src/utilities.ts -/

/-- `CreateEscrowAccountResult`: /repo/clients/js/src/utilities.ts:86-92. -/
inductive EscrowResult
  | alreadyExists (account : TokenAcct)
  | create (address : Pubkey) (ixs : List ClientIx)

/-- `createEscrowAccount`: /repo/clients/js/src/utilities.ts:94-124.  Simplification: the token
account decoder throws on anything that is not a token account. -/
def createEscrowAccount (env : Env) (payer u wprog : Pubkey) (L : Ledger) :
    Except ClientErr EscrowResult := do
  let w ← okOr (findWrappedMintPda env.cr u wprog) .panicked
  let auth ← okOr (findWrappedMintAuthorityPda env.cr w) .panicked
  let uprog ← rpcOwner L u
  let escrow ← okOr (associatedTokenAddress env.cr auth u uprog) .panicked
  match rpcAccount L escrow with
  | .ok a =>
    match a.data with
    | .token t => pure (.alreadyExists t)
    | _ => .error .codec
  | .error _ => pure (.create escrow [.createAta payer auth u uprog])

/-! ## Combining offline signatures: /repo/clients/js/src/utilities.ts -/

/-- A transaction signed by some: the message and, in insertion order, each signer's signature or
`null`.  Keys are unique (`Record<string, SignatureBytes | null>`). -/
structure SignedTx (Sig : Type) where
  messageBytes : Bytes
  signatures : List (Pubkey × Option Sig)

section
variable {Sig : Type}

/-- `obj[k] = v` on a record: replaces in place, or appends. -/
def recordSet (r : List (Pubkey × Option Sig)) (k : Pubkey) (v : Option Sig) :
    List (Pubkey × Option Sig) :=
  if (r.map (·.1)).contains k then r.map (fun e => if e.1 = k then (k, v) else e) else r ++ [(k, v)]

/-- `messageBytesEqual`: /repo/clients/js/src/utilities.ts:145-161. -/
def messageBytesEqual (txs : List (SignedTx Sig)) : Except ClientErr Bool :=
  match txs with
  | [_] => .ok true
  | [] => .error .noTransactions
  | t :: ts => .ok ((t :: ts).all fun c => t.messageBytes = c.messageBytes)

/-- One signature of step 2: only non-null signatures are stored. -/
def gatherOne (acc : List (Pubkey × Option Sig)) (e : Pubkey × Option Sig) :
    List (Pubkey × Option Sig) :=
  match e.2 with
  | some s => recordSet acc e.1 (some s)
  | none => acc

/-- `combineSignatures`: /repo/clients/js/src/utilities.ts:163-202. -/
def combineSignatures (txs : List (SignedTx Sig)) : Except ClientErr (List (Pubkey × Sig)) :=
  match txs with
  | [] => .error .noTransactions
  | first :: _ => do
    let init := first.signatures.foldl (fun acc e => recordSet acc e.1 none) []
    let all := (txs.flatMap (·.signatures)).foldl gatherOne init
    if all.any (fun e => e.2.isNone) then .error .missingSignatures
    else .ok (all.filterMap fun e => e.2.map fun s => (e.1, s))

/-- `combinedMultisigTx`: /repo/clients/js/src/utilities.ts:213-234. -/
def combinedMultisigTx (txs : List (SignedTx Sig)) :
    Except ClientErr (Bytes × List (Pubkey × Sig)) := do
  let eq ← messageBytesEqual txs
  require eq .notAllSame
  match txs with
  | [] => .error .noTransactions
  | first :: _ => do
    let sigs ← combineSignatures txs
    pure (first.messageBytes, sigs)

end

end TokenWrap.Js
