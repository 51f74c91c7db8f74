import Verif.Errors
/-!
# Model of /repo/program/src/instruction.rs

The instruction enum, its byte encoding, and the seven public instruction builders.
-/

namespace TokenWrap

/-! ## Little-endian u64 -/

/-- `u64::to_le_bytes`: byte `i` is `(x / 256^i) mod 256`. -/
def u64ToLe (x : UInt64) : Bytes :=
  [UInt8.ofNat x.toNat, UInt8.ofNat (x.toNat / 2 ^ 8), UInt8.ofNat (x.toNat / 2 ^ 16),
   UInt8.ofNat (x.toNat / 2 ^ 24), UInt8.ofNat (x.toNat / 2 ^ 32), UInt8.ofNat (x.toNat / 2 ^ 40),
   UInt8.ofNat (x.toNat / 2 ^ 48), UInt8.ofNat (x.toNat / 2 ^ 56)]

/-- `u64::from_le_bytes`, on an array of 8 bytes. -/
def u64OfLe (b0 b1 b2 b3 b4 b5 b6 b7 : UInt8) : UInt64 :=
  UInt64.ofNat (b0.toNat + 2 ^ 8 * b1.toNat + 2 ^ 16 * b2.toNat + 2 ^ 24 * b3.toNat +
    2 ^ 32 * b4.toNat + 2 ^ 40 * b5.toNat + 2 ^ 48 * b6.toNat + 2 ^ 56 * b7.toNat)

/-! ## The instruction enum -/

/-- `enum TokenWrapInstruction`: /repo/program/src/instruction.rs:10-200. -/
inductive TokenWrapInstruction
  | createMint (idempotent : Bool)
  | wrap (amount : UInt64)
  | unwrap (amount : UInt64)
  | closeStuckEscrow
  | syncMetadataToToken2022
  | syncMetadataToSplToken
  | setCanonicalPointer (programId : Pubkey)
deriving DecidableEq, Repr

namespace TokenWrapInstruction

/-- `TokenWrapInstruction::pack`: /repo/program/src/instruction.rs:205-236. -/
def pack : TokenWrapInstruction → Bytes
  | createMint idempotent => [0, if idempotent then 1 else 0]
  | wrap amount => 1 :: u64ToLe amount
  | unwrap amount => 2 :: u64ToLe amount
  | closeStuckEscrow => [3]
  | syncMetadataToToken2022 => [4]
  | syncMetadataToSplToken => [5]
  | setCanonicalPointer programId => 6 :: programId.bytes

/-- `u64::from_le_bytes(rest.try_into().unwrap())` guarded by `rest.len() == 8`. -/
def readU64 : Bytes → Option UInt64
  | [b0, b1, b2, b3, b4, b5, b6, b7] => some (u64OfLe b0 b1 b2 b3 b4 b5 b6 b7)
  | _ => none

/-- `Pubkey::new_from_array(rest.try_into().unwrap())` guarded by `rest.len() == 32`. -/
def readKey (rest : Bytes) : Option Pubkey :=
  if h : rest.length = 32 then some ⟨rest, h⟩ else none

/-- `TokenWrapInstruction::unpack`: /repo/program/src/instruction.rs:240-267. -/
def unpack (input : Bytes) : Res TokenWrapInstruction :=
  match input with
  | [] => .error .invalidInstructionData
  | tag :: rest =>
    if tag = 0 then
      match rest with
      | [b] =>
        if b = 0 then .ok (createMint false)
        else if b = 1 then .ok (createMint true)
        else .error .invalidInstructionData
      | _ => .error .invalidInstructionData
    else if tag = 1 then
      match readU64 rest with
      | some amount => .ok (wrap amount)
      | none => .error .invalidInstructionData
    else if tag = 2 then
      match readU64 rest with
      | some amount => .ok (unwrap amount)
      | none => .error .invalidInstructionData
    else if tag = 3 then
      if rest = [] then .ok closeStuckEscrow else .error .invalidInstructionData
    else if tag = 4 then
      if rest = [] then .ok syncMetadataToToken2022 else .error .invalidInstructionData
    else if tag = 5 then
      if rest = [] then .ok syncMetadataToSplToken else .error .invalidInstructionData
    else if tag = 6 then
      match readKey rest with
      | some k => .ok (setCanonicalPointer k)
      | none => .error .invalidInstructionData
    else .error .invalidInstructionData

end TokenWrapInstruction

/-! ## Account metas and instructions -/

/-- `AccountMeta` (and the part of `AccountInfo` that is not ledger state). -/
structure Meta where
  key : Pubkey
  signer : Bool
  writable : Bool
deriving DecidableEq, Repr

/-- `AccountMeta::new(key, signer)`. -/
def Meta.rw (key : Pubkey) (signer : Bool) : Meta := ⟨key, signer, true⟩
/-- `AccountMeta::new_readonly(key, signer)`. -/
def Meta.ro (key : Pubkey) (signer : Bool) : Meta := ⟨key, signer, false⟩

/-- `solana_instruction::Instruction`. -/
structure Instr where
  programId : Pubkey
  accounts : List Meta
  data : Bytes
deriving DecidableEq, Repr

namespace Build
open TokenWrapInstruction

/-- `instruction::create_mint`: /repo/program/src/instruction.rs:271-288. -/
def createMint (programId wrappedMint backpointer unwrappedMint wrappedTokenProgram : Pubkey)
    (idempotent : Bool) : Instr :=
  { programId
    accounts := [.rw wrappedMint false, .rw backpointer false, .ro unwrappedMint false,
                 .ro systemId false, .ro wrappedTokenProgram false]
    data := (TokenWrapInstruction.createMint idempotent).pack }

/-- `instruction::wrap`: /repo/program/src/instruction.rs:292-326. -/
def wrap (programId recipient wrappedMint authority unwrappedTokenProgram wrappedTokenProgram
    unwrappedTokenAccount unwrappedMint escrow transferAuthority : Pubkey)
    (multisigSigners : List Pubkey) (amount : UInt64) : Instr :=
  { programId
    accounts :=
      [.rw recipient false, .rw wrappedMint false, .ro authority false,
       .ro unwrappedTokenProgram false, .ro wrappedTokenProgram false,
       .rw unwrappedTokenAccount false, .ro unwrappedMint false, .rw escrow false,
       .ro transferAuthority multisigSigners.isEmpty] ++
      multisigSigners.map (fun k => .ro k true)
    data := (TokenWrapInstruction.wrap amount).pack }

/-- `instruction::unwrap`: /repo/program/src/instruction.rs:330-364. -/
def unwrap (programId escrow recipient authority unwrappedMint wrappedTokenProgram
    unwrappedTokenProgram wrappedTokenAccount wrappedMint transferAuthority : Pubkey)
    (multisigSigners : List Pubkey) (amount : UInt64) : Instr :=
  { programId
    accounts :=
      [.rw escrow false, .rw recipient false, .ro authority false, .ro unwrappedMint false,
       .ro wrappedTokenProgram false, .ro unwrappedTokenProgram false,
       .rw wrappedTokenAccount false, .rw wrappedMint false,
       .ro transferAuthority multisigSigners.isEmpty] ++
      multisigSigners.map (fun k => .ro k true)
    data := (TokenWrapInstruction.unwrap amount).pack }

/-- `instruction::close_stuck_escrow`: /repo/program/src/instruction.rs:367-385. -/
def closeStuckEscrow (programId escrow destination unwrappedMint wrappedMint authority : Pubkey) :
    Instr :=
  { programId
    accounts := [.rw escrow false, .rw destination false, .ro unwrappedMint false,
                 .ro wrappedMint false, .ro authority false, .ro token2022Id false]
    data := TokenWrapInstruction.closeStuckEscrow.pack }

/-- `instruction::sync_metadata_to_token_2022`: /repo/program/src/instruction.rs:388-413. -/
def syncMetadataToToken2022 (programId wrappedMint authority unwrappedMint : Pubkey)
    (sourceMetadata ownerProgram : Option Pubkey) : Instr :=
  { programId
    accounts := [.rw wrappedMint false, .ro authority false, .ro unwrappedMint false,
                 .ro token2022Id false] ++
      (sourceMetadata.toList ++ ownerProgram.toList).map (fun k => .ro k false)
    data := TokenWrapInstruction.syncMetadataToToken2022.pack }

/-- `instruction::sync_metadata_to_spl_token`: /repo/program/src/instruction.rs:416-445. -/
def syncMetadataToSplToken (programId metaplexMetadata authority wrappedMint unwrappedMint : Pubkey)
    (sourceMetadata ownerProgram : Option Pubkey) : Instr :=
  { programId
    accounts := [.rw metaplexMetadata false, .rw authority false, .ro wrappedMint false,
                 .ro unwrappedMint false, .ro metaplexId false, .ro systemId false,
                 .ro rentSysvarId false] ++
      (sourceMetadata.toList ++ ownerProgram.toList).map (fun k => .ro k false)
    data := TokenWrapInstruction.syncMetadataToSplToken.pack }

/-- `instruction::set_canonical_pointer`: /repo/program/src/instruction.rs:448-466. -/
def setCanonicalPointer (programId mintAuthority pointer unwrappedMint newProgramId : Pubkey) :
    Instr :=
  { programId
    accounts := [.ro mintAuthority true, .rw pointer false, .ro unwrappedMint false,
                 .ro systemId false]
    data := (TokenWrapInstruction.setCanonicalPointer newProgramId).pack }

end Build

end TokenWrap
