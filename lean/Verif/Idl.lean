import Verif.JsClient
/-!
# The published interface description: /repo/idl.json

`/repo/idl.json` (written by /repo/program/idl.ts:33-660) as data, and what such a description means: the
meaning of Codama nodes given by `build`, `parse`, `PdaNode.address` is that of the Codama standard and
is part of the model, not of /repo.  The data below was transcribed from /repo/idl.json node by node;
`docs` fields are left out.
-/

namespace TokenWrap.Idl

/-! ## Base58 -/

/-- The base58 alphabet in which the addresses of the description are written. -/
def base58Alphabet : List Char :=
  "123456789ABCDEFGHJKLMNPQRSTUVWXYZabcdefghijkmnopqrstuvwxyz".toList

/-- The digits of `n` in base 256, most significant first, with no leading zero. -/
def bigEndian (n : Nat) (acc : Bytes) : Bytes :=
  if h : n = 0 then acc else bigEndian (n / 256) (UInt8.ofNat n :: acc)
termination_by n
decreasing_by omega

/-- Base58 decoding of an address: each leading `1` is a zero byte, the rest is a big-endian number in
base 58. -/
def base58Bytes (s : List Char) : Option Bytes := do
  let n ← s.foldlM (init := 0) fun n c => (base58Alphabet.idxOf? c).map (n * 58 + ·)
  some (List.replicate (s.takeWhile (· = '1')).length 0 ++ bigEndian n [])

/-- An address written in base58. -/
def address (s : String) : Option Pubkey := base58Bytes s.toList >>= TokenWrapInstruction.readKey

/-! ## Nodes -/

/-- `isSigner` of an account node: `false`, `true` or `"either"`. -/
inductive SignerKind
  | no | yes | either
deriving DecidableEq, Repr

/-- `defaultValue` of an account node: `publicKeyValueNode` or `identityValueNode`. -/
inductive DefaultAccount
  | key (base58 : String)
  | identity
deriving DecidableEq, Repr

/-- `instructionAccountNode`. -/
structure AccountNode where
  name : String
  isWritable : Bool
  isSigner : SignerKind
  isOptional : Bool
  default : Option DefaultAccount
deriving DecidableEq, Repr

/-- `numberTypeNode` (`u8`, `u64`, little endian) and `booleanTypeNode` of size `u8`. -/
inductive Ty
  | u8 | u64 | bool
deriving DecidableEq, Repr

/-- Values of these types; numbers may be out of range. -/
inductive Val
  | num (n : Int)
  | bool (b : Bool)
deriving DecidableEq, Repr

/-- `instructionArgumentNode`; `omitted` is `defaultValueStrategy == "omitted"`. -/
structure ArgNode where
  name : String
  type : Ty
  default : Option Val
  omitted : Bool
deriving DecidableEq, Repr

/-- `instructionRemainingAccountsNode` with an `argumentValueNode`. -/
structure RemainingNode where
  name : String
  isSigner : Bool
deriving DecidableEq, Repr

/-- `fieldDiscriminatorNode`. -/
structure Discriminator where
  name : String
  offset : Nat
deriving DecidableEq, Repr

/-- `instructionNode`; `optionalAccountStrategy` is `"programId"` throughout. -/
structure Instruction where
  name : String
  accounts : List AccountNode
  args : List ArgNode
  remaining : Option RemainingNode
  discriminator : Discriminator
deriving DecidableEq, Repr

/-- `constantPdaSeedNode` of a utf8 string, `variablePdaSeedNode` of a public key. -/
inductive Seed
  | utf8 (s : String)
  | key (name : String)
deriving DecidableEq, Repr

/-- `pdaNode`. -/
structure PdaNode where
  name : String
  seeds : List Seed
deriving DecidableEq, Repr

/-- `errorNode`. -/
structure ErrorNode where
  code : UInt32
  name : String
  message : String
deriving DecidableEq, Repr

/-! ## The description -/

/-- Instruction `createMint`: /repo/idl.json:37-149. -/
def createMint : Instruction :=
  { name := "createMint"
    accounts :=
      [⟨"wrappedMint", true, .no, false, none⟩,
       ⟨"backpointer", true, .no, false, none⟩,
       ⟨"unwrappedMint", false, .no, false, none⟩,
       ⟨"systemProgram", false, .no, true, some (.key "11111111111111111111111111111111")⟩,
       ⟨"wrappedTokenProgram", false, .no, false, none⟩]
    args := [⟨"discriminator", .u8, some (.num 0), true⟩, ⟨"idempotent", .bool, some (.bool false), false⟩]
    remaining := none
    discriminator := ⟨"discriminator", 0⟩ }

/-- Instruction `wrap`: /repo/idl.json:150-302. -/
def wrap : Instruction :=
  { name := "wrap"
    accounts :=
      [⟨"recipientWrappedTokenAccount", true, .no, false, none⟩,
       ⟨"wrappedMint", true, .no, false, none⟩,
       ⟨"wrappedMintAuthority", false, .no, false, none⟩,
       ⟨"unwrappedTokenProgram", false, .no, false, none⟩,
       ⟨"wrappedTokenProgram", false, .no, false, none⟩,
       ⟨"unwrappedTokenAccount", true, .no, false, none⟩,
       ⟨"unwrappedMint", false, .no, false, none⟩,
       ⟨"unwrappedEscrow", true, .no, false, none⟩,
       ⟨"transferAuthority", false, .either, false, some .identity⟩]
    args := [⟨"discriminator", .u8, some (.num 1), true⟩, ⟨"amount", .u64, none, false⟩]
    remaining := some ⟨"multiSigners", true⟩
    discriminator := ⟨"discriminator", 0⟩ }

/-- Instruction `unwrap`: /repo/idl.json:303-454. -/
def unwrap : Instruction :=
  { name := "unwrap"
    accounts :=
      [⟨"unwrappedEscrow", true, .no, false, none⟩,
       ⟨"recipientUnwrappedToken", true, .no, false, none⟩,
       ⟨"wrappedMintAuthority", false, .no, false, none⟩,
       ⟨"unwrappedMint", false, .no, false, none⟩,
       ⟨"wrappedTokenProgram", false, .no, false, none⟩,
       ⟨"unwrappedTokenProgram", false, .no, false, none⟩,
       ⟨"wrappedTokenAccount", true, .no, false, none⟩,
       ⟨"wrappedMint", true, .no, false, none⟩,
       ⟨"transferAuthority", false, .either, false, some .identity⟩]
    args := [⟨"discriminator", .u8, some (.num 2), true⟩, ⟨"amount", .u64, none, false⟩]
    remaining := some ⟨"multiSigners", true⟩
    discriminator := ⟨"discriminator", 0⟩ }

/-- Instruction `closeStuckEscrow`: /repo/idl.json:455-558. -/
def closeStuckEscrow : Instruction :=
  { name := "closeStuckEscrow"
    accounts :=
      [⟨"escrow", true, .no, false, none⟩,
       ⟨"destination", true, .no, false, none⟩,
       ⟨"unwrappedMint", false, .no, false, none⟩,
       ⟨"wrappedMint", false, .no, false, none⟩,
       ⟨"wrappedMintAuthority", false, .no, false, none⟩,
       ⟨"token2022Program", false, .no, true, some (.key "TokenzQdBNbLqP5VEhdkAS6EPFLC1PHnBqCXEpPxuEb")⟩]
    args := [⟨"discriminator", .u8, some (.num 3), true⟩]
    remaining := none
    discriminator := ⟨"discriminator", 0⟩ }

/-- Instruction `syncMetadataToToken2022`: /repo/idl.json:559-672. -/
def syncMetadataToToken2022 : Instruction :=
  { name := "syncMetadataToToken2022"
    accounts :=
      [⟨"wrappedMint", true, .no, false, none⟩,
       ⟨"wrappedMintAuthority", false, .no, false, none⟩,
       ⟨"unwrappedMint", false, .no, false, none⟩,
       ⟨"token2022Program", false, .no, false, some (.key "TokenzQdBNbLqP5VEhdkAS6EPFLC1PHnBqCXEpPxuEb")⟩,
       ⟨"sourceMetadata", false, .no, true, none⟩,
       ⟨"ownerProgram", false, .no, true, none⟩]
    args := [⟨"discriminator", .u8, some (.num 4), true⟩]
    remaining := none
    discriminator := ⟨"discriminator", 0⟩ }

/-- Instruction `syncMetadataToSplToken`: /repo/idl.json:673-827. -/
def syncMetadataToSplToken : Instruction :=
  { name := "syncMetadataToSplToken"
    accounts :=
      [⟨"metaplexMetadata", true, .no, false, none⟩,
       ⟨"wrappedMintAuthority", true, .no, false, none⟩,
       ⟨"wrappedMint", false, .no, false, none⟩,
       ⟨"unwrappedMint", false, .no, false, none⟩,
       ⟨"metaplexProgram", false, .no, false, some (.key "metaqbxxUerdq28cj1RbAWkYQm3ybzjb6a8bt518x1s")⟩,
       ⟨"systemProgram", false, .no, false, some (.key "11111111111111111111111111111111")⟩,
       ⟨"rentSysvar", false, .no, false, some (.key "SysvarRent111111111111111111111111111111111")⟩,
       ⟨"sourceMetadata", false, .no, true, none⟩,
       ⟨"ownerProgram", false, .no, true, none⟩]
    args := [⟨"discriminator", .u8, some (.num 5), true⟩]
    remaining := none
    discriminator := ⟨"discriminator", 0⟩ }

/-- Address `backpointer`: /repo/idl.json:829-852. -/
def backpointerPda : PdaNode := ⟨"backpointer", [.utf8 "backpointer", .key "wrappedMint"]⟩

/-- Address `wrappedMint`: /repo/idl.json:853-883. -/
def wrappedMintPda : PdaNode := ⟨"wrappedMint", [.utf8 "mint", .key "unwrappedMint", .key "wrappedTokenProgram"]⟩

/-- Address `wrappedMintAuthority`: /repo/idl.json:884-908. -/
def wrappedMintAuthorityPda : PdaNode := ⟨"wrappedMintAuthority", [.utf8 "authority", .key "wrappedMint"]⟩

/-- The errors: /repo/idl.json:911-1006. -/
def errors : List ErrorNode :=
  [⟨0, "wrappedMintMismatch", "Wrapped mint account address does not match expected PDA"⟩,
   ⟨1, "backpointerMismatch", "Wrapped backpointer account address does not match expected PDA"⟩,
   ⟨2, "zeroWrapAmount", "Wrap amount should be positive"⟩,
   ⟨3, "mintAuthorityMismatch", "Wrapped mint authority does not match expected PDA"⟩,
   ⟨4, "escrowOwnerMismatch", "Unwrapped escrow token owner is not set to expected PDA"⟩,
   ⟨5, "invalidWrappedMintOwner", "Wrapped mint account owner is not the expected token program"⟩,
   ⟨6, "invalidBackpointerOwner", "Wrapped backpointer account owner is not the expected token wrap program"⟩,
   ⟨7, "escrowMismatch", "Escrow account address does not match expected ATA"⟩,
   ⟨8, "escrowInGoodState", "The escrow account is in a good state and cannot be recreated"⟩,
   ⟨9, "unwrappedMintHasNoMetadata", "Unwrapped mint does not have the TokenMetadata extension"⟩,
   ⟨10, "metaplexMetadataMismatch", "Metaplex metadata account address does not match expected PDA"⟩,
   ⟨11, "metadataPointerMissing", "Metadata pointer extension missing on mint"⟩,
   ⟨12, "metadataPointerUnset", "Metadata pointer is unset (None)"⟩,
   ⟨13, "metadataPointerMismatch", "Provided source metadata account does not match pointer"⟩,
   ⟨14, "externalProgramReturnedNoData", "External metadata program returned no data"⟩,
   ⟨15, "noSyncingToToken2022", "Instruction can only be used with spl-token wrapped mints"⟩]

/-- The instructions in order: /repo/idl.json:36-827. -/
def instructions : List Instruction :=
  [createMint, wrap, unwrap, closeStuckEscrow, syncMetadataToToken2022, syncMetadataToSplToken]

/-- The addresses in order: /repo/idl.json:828-909. -/
def pdas : List PdaNode := [backpointerPda, wrappedMintPda, wrappedMintAuthorityPda]

/-- `publicKey` of the program: /repo/idl.json:8. -/
def programAddress : String := "TwRapQCDhWkZRrDaHfZGuHxkZ91gHDRkyuzNqeU5MgR"

/-- The account `backpointer`: its size, and its only field, a public key at offset 0:
/repo/idl.json:11-34. -/
def backpointerSize : Nat := 32

/-! ## The meaning of a description: building instructions -/

/-- What a caller passes: accounts by name, with whether the account is passed as a signer; arguments by
name; the remaining accounts by name; and the identity of the wallet in use. -/
structure Inputs where
  account : String → Option (Pubkey × Bool)
  arg : String → Option Val
  remaining : String → List Pubkey
  identity : Option Pubkey

/-- `numberTypeNode` / `booleanTypeNode`: little-endian; out-of-range numbers and values of another type
are refused. -/
def encode : Ty → Val → Option Bytes
  | .u8, .num n => if 0 ≤ n ∧ n < 2 ^ 8 then some [UInt8.ofNat n.toNat] else none
  | .u64, .num n => if 0 ≤ n ∧ n < 2 ^ 64 then some (u64ToLe (UInt64.ofNat n.toNat)) else none
  | .bool, .bool b => some [if b then 1 else 0]
  | _, _ => none

/-- The address and signer flag of an account: the given one, else the default, else, for an optional
account, the program's own address, marked read-only. -/
def resolve (pid : Pubkey) (i : Inputs) (a : AccountNode) : Option Meta :=
  let signer (given : Bool) : Bool :=
    match a.isSigner with
    | .no => false
    | .yes => true
    | .either => given
  match i.account a.name, a.default with
  | some (k, s), _ => some ⟨k, signer s, a.isWritable⟩
  | none, some (.key s) => (address s).map fun k => ⟨k, signer false, a.isWritable⟩
  | none, some .identity => i.identity.map fun k => ⟨k, signer true, a.isWritable⟩
  | none, none => if a.isOptional then some (.ro pid false) else none

/-- The bytes of an argument. -/
def encodeArg (i : Inputs) (a : ArgNode) : Option Bytes :=
  if a.omitted then a.default >>= encode a.type
  else
    match i.arg a.name with
    | some v => encode a.type v
    | none => a.default >>= encode a.type

/-- The instruction that a description stands for. -/
def build (ins : Instruction) (pid : Pubkey) (i : Inputs) : Option Instr := do
  let accounts ← ins.accounts.mapM (resolve pid i)
  let data ← ins.args.mapM (encodeArg i)
  let rest := match ins.remaining with
    | some r => (i.remaining r.name).map fun k => Meta.ro k r.isSigner
    | none => []
  some { programId := pid, accounts := accounts ++ rest, data := data.flatten }

/-! ## The meaning of a description: reading instructions -/

/-- Reading a value off the front of the data.  A boolean is true exactly for the byte 1. -/
def decode : Ty → Bytes → Option (Val × Bytes)
  | .u8, b :: rest => some (.num b.toNat, rest)
  | .u64, d => (TokenWrapInstruction.readU64 (d.take 8)).map fun n => (.num n.toNat, d.drop 8)
  | .bool, b :: rest => some (.bool (b = 1), rest)
  | _, [] => none

/-- Reading the arguments in order; bytes after the last are ignored. -/
def decodeArgs : List ArgNode → Bytes → Option (List (String × Val))
  | [], _ => some []
  | a :: as, d => do
    let (v, d) ← decode a.type d
    let vs ← decodeArgs as d
    some ((a.name, v) :: vs)

/-- Does the data start with the discriminator of the instruction? -/
def identifies (data : Bytes) (ins : Instruction) : Bool :=
  match ins.args.find? (fun a => a.name = ins.discriminator.name) with
  | some a =>
    match a.default >>= encode a.type with
    | some b => ((data.drop ins.discriminator.offset).take b.length) = b
    | none => false
  | none => false

/-- An instruction as read: its name, arguments and accounts by name.  `none` is an optional account
left out. -/
structure Parsed where
  name : String
  args : List (String × Val)
  accounts : List (String × Option Meta)
deriving DecidableEq, Repr

/-- Reading an instruction of program `pid` known to be of the kind `ins`. -/
def parseAs (pid : Pubkey) (ins : Instruction) (accounts : List Meta) (data : Bytes) : Option Parsed :=
  if accounts.length < ins.accounts.length then none
  else (decodeArgs ins.args data).map fun args =>
    { name := ins.name
      args := args.filter (fun a => a.1 ≠ ins.discriminator.name)
      accounts := (ins.accounts.zip accounts).map fun (a, m) =>
        (a.name, if a.isOptional ∧ m.key = pid then none else some m) }

/-- Reading an instruction of program `pid`. -/
def parse (pid : Pubkey) (accounts : List Meta) (data : Bytes) : Option Parsed := do
  let ins ← instructions.find? (identifies data)
  parseAs pid ins accounts data

/-! ## The meaning of a description: addresses -/

/-- The seeds of an address, given its variables by name. -/
def PdaNode.seedBytes (p : PdaNode) (vars : String → Option Pubkey) : Option (List Bytes) :=
  p.seeds.mapM fun
    | .utf8 s => some (Js.utf8 s)
    | .key n => (vars n).map (·.bytes)

/-- The address. -/
def PdaNode.address (p : PdaNode) (cr : Crypto) (pid : Pubkey) (vars : String → Option Pubkey) :
    Option Pubkey := do
  let seeds ← p.seedBytes vars
  (findProgramAddress cr seeds pid).map (·.1)

end TokenWrap.Idl
