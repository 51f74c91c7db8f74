import Verif.Basic
/-!
# Model of /repo/program/src/lib.rs: program-derived addresses

SHA-256 and the ed25519 curve test are parameters (`Crypto`); everything else about
`create_program_address` / `find_program_address` is concrete.
-/

namespace TokenWrap

/-- The two primitives behind program-derived addresses. -/
structure Crypto where
  /-- `sha256` -/
  hash : Bytes → Pubkey
  /-- `bytes_are_curve_point` -/
  onCurve : Pubkey → Bool

/-- The ASCII bytes of `"ProgramDerivedAddress"` (`PDA_MARKER` of solana_pubkey). -/
def pdaMarker : Bytes :=
  [80, 114, 111, 103, 114, 97, 109, 68, 101, 114, 105, 118, 101, 100, 65, 100, 100, 114, 101,
   115, 115]

/-- The bytes hashed by `create_program_address`. -/
def pdaPreimage (seeds : List Bytes) (programId : Pubkey) : Bytes :=
  seeds.flatten ++ programId.bytes ++ pdaMarker

/-- `Pubkey::create_program_address` (solana_pubkey): at most 16 seeds of at most 32 bytes, and the
hash must be off the curve. -/
def createProgramAddress (cr : Crypto) (seeds : List Bytes) (programId : Pubkey) :
    Option Pubkey :=
  if seeds.length ≤ 16 ∧ ∀ s ∈ seeds, s.length ≤ 32 then
    let h := cr.hash (pdaPreimage seeds programId)
    if cr.onCurve h then none else some h
  else none

/-- The bump search of `find_program_address`: tries `n`, `n-1`, ..., 1. -/
def findBump (cr : Crypto) (seeds : List Bytes) (programId : Pubkey) :
    Nat → Option (Pubkey × UInt8)
  | 0 => none
  | n + 1 =>
    match createProgramAddress cr (seeds ++ [[UInt8.ofNat (n + 1)]]) programId with
    | some k => some (k, UInt8.ofNat (n + 1))
    | none => findBump cr seeds programId n

/-- `Pubkey::find_program_address` (solana_pubkey): bumps 255 down to 1; `none` is the panic
"Unable to find a viable program address bump seed". -/
def findProgramAddress (cr : Crypto) (seeds : List Bytes) (programId : Pubkey) :
    Option (Pubkey × UInt8) :=
  findBump cr seeds programId 255

/-! ## Seeds -/

/-- `WRAPPED_MINT_SEED = b"mint"`: /repo/program/src/lib.rs:21. -/
def wrappedMintSeed : Bytes := [109, 105, 110, 116]
/-- `WRAPPED_MINT_AUTHORITY_SEED = b"authority"`: /repo/program/src/lib.rs:88. -/
def authoritySeed : Bytes := [97, 117, 116, 104, 111, 114, 105, 116, 121]
/-- `WRAPPED_MINT_BACKPOINTER_SEED = b"backpointer"`: /repo/program/src/lib.rs:130. -/
def backpointerSeed : Bytes := [98, 97, 99, 107, 112, 111, 105, 110, 116, 101, 114]
/-- `CANONICAL_POINTER_SEED = b"canonical_pointer"`: /repo/program/src/lib.rs:209. -/
def canonicalPointerSeed : Bytes :=
  [99, 97, 110, 111, 110, 105, 99, 97, 108, 95, 112, 111, 105, 110, 116, 101, 114]

/-- `get_wrapped_mint_seeds`: /repo/program/src/lib.rs:41-50. -/
def wrappedMintSeeds (unwrappedMint wrappedTokenProgram : Pubkey) : List Bytes :=
  [wrappedMintSeed, unwrappedMint.bytes, wrappedTokenProgram.bytes]

/-- `get_wrapped_mint_signer_seeds`: /repo/program/src/lib.rs:52-63. -/
def wrappedMintSignerSeeds (unwrappedMint wrappedTokenProgram : Pubkey) (bump : UInt8) :
    List Bytes :=
  [wrappedMintSeed, unwrappedMint.bytes, wrappedTokenProgram.bytes, [bump]]

/-- `get_wrapped_mint_authority_seeds`: /repo/program/src/lib.rs:90-92. -/
def authoritySeeds (wrappedMint : Pubkey) : List Bytes := [authoritySeed, wrappedMint.bytes]

/-- `get_wrapped_mint_authority_signer_seeds`: /repo/program/src/lib.rs:94-103. -/
def authoritySignerSeeds (wrappedMint : Pubkey) (bump : UInt8) : List Bytes :=
  [authoritySeed, wrappedMint.bytes, [bump]]

/-- `get_wrapped_mint_backpointer_address_seeds`: /repo/program/src/lib.rs:132-134. -/
def backpointerSeeds (wrappedMint : Pubkey) : List Bytes := [backpointerSeed, wrappedMint.bytes]

/-- `get_wrapped_mint_backpointer_address_signer_seeds`: /repo/program/src/lib.rs:136-145. -/
def backpointerSignerSeeds (wrappedMint : Pubkey) (bump : UInt8) : List Bytes :=
  [backpointerSeed, wrappedMint.bytes, [bump]]

/-- Seeds in `get_canonical_pointer_address_with_seed_for_program`: /repo/program/src/lib.rs:217-220. -/
def canonicalPointerSeeds (unwrappedMint : Pubkey) : List Bytes :=
  [canonicalPointerSeed, unwrappedMint.bytes]

/-- `get_canonical_pointer_address_signer_seeds`: /repo/program/src/lib.rs:223-228. -/
def canonicalPointerSignerSeeds (unwrappedMint : Pubkey) (bump : UInt8) : List Bytes :=
  [canonicalPointerSeed, unwrappedMint.bytes, [bump]]

/-! ## Addresses -/

section
variable (cr : Crypto)

/-- `get_wrapped_mint_address_with_seed_for_program`: /repo/program/src/lib.rs:30-39. -/
def wrappedMintWithSeedFor (unwrappedMint wrappedTokenProgram programId : Pubkey) :
    Option (Pubkey × UInt8) :=
  findProgramAddress cr (wrappedMintSeeds unwrappedMint wrappedTokenProgram) programId

/-- `get_wrapped_mint_address_with_seed`: /repo/program/src/lib.rs:23-28. -/
def wrappedMintWithSeed (unwrappedMint wrappedTokenProgram : Pubkey) : Option (Pubkey × UInt8) :=
  wrappedMintWithSeedFor cr unwrappedMint wrappedTokenProgram crateId

/-- `get_wrapped_mint_address_for_program`: /repo/program/src/lib.rs:75-86. -/
def wrappedMintAddressFor (unwrappedMint wrappedTokenProgram programId : Pubkey) : Option Pubkey :=
  (wrappedMintWithSeedFor cr unwrappedMint wrappedTokenProgram programId).map (·.1)

/-- `get_wrapped_mint_address`: /repo/program/src/lib.rs:66-71. -/
def wrappedMintAddress (unwrappedMint wrappedTokenProgram : Pubkey) : Option Pubkey :=
  wrappedMintAddressFor cr unwrappedMint wrappedTokenProgram crateId

/-- `get_wrapped_mint_authority_with_seed_for_program`: /repo/program/src/lib.rs:109-114. -/
def authorityWithSeedFor (wrappedMint programId : Pubkey) : Option (Pubkey × UInt8) :=
  findProgramAddress cr (authoritySeeds wrappedMint) programId

/-- `get_wrapped_mint_authority_with_seed`: /repo/program/src/lib.rs:105-107. -/
def authorityWithSeed (wrappedMint : Pubkey) : Option (Pubkey × UInt8) :=
  authorityWithSeedFor cr wrappedMint crateId

/-- `get_wrapped_mint_authority_for_program`: /repo/program/src/lib.rs:123-128. -/
def authorityAddressFor (wrappedMint programId : Pubkey) : Option Pubkey :=
  (authorityWithSeedFor cr wrappedMint programId).map (·.1)

/-- `get_wrapped_mint_authority`: /repo/program/src/lib.rs:117-119. -/
def authorityAddress (wrappedMint : Pubkey) : Option Pubkey :=
  authorityAddressFor cr wrappedMint crateId

/-- `get_wrapped_mint_backpointer_address_with_seed_for_program`: /repo/program/src/lib.rs:153-161. -/
def backpointerWithSeedFor (wrappedMint programId : Pubkey) : Option (Pubkey × UInt8) :=
  findProgramAddress cr (backpointerSeeds wrappedMint) programId

/-- `get_wrapped_mint_backpointer_address_with_seed`: /repo/program/src/lib.rs:147-151. -/
def backpointerWithSeed (wrappedMint : Pubkey) : Option (Pubkey × UInt8) :=
  backpointerWithSeedFor cr wrappedMint crateId

/-- `get_wrapped_mint_backpointer_address_for_program`: /repo/program/src/lib.rs:170-175. -/
def backpointerAddressFor (wrappedMint programId : Pubkey) : Option Pubkey :=
  (backpointerWithSeedFor cr wrappedMint programId).map (·.1)

/-- `get_wrapped_mint_backpointer_address`: /repo/program/src/lib.rs:164-166. -/
def backpointerAddress (wrappedMint : Pubkey) : Option Pubkey :=
  backpointerAddressFor cr wrappedMint crateId

/-- `get_canonical_pointer_address_with_seed_for_program`: /repo/program/src/lib.rs:213-221. -/
def canonicalPointerWithSeedFor (unwrappedMint programId : Pubkey) : Option (Pubkey × UInt8) :=
  findProgramAddress cr (canonicalPointerSeeds unwrappedMint) programId

/-- `get_canonical_pointer_address_with_seed`: /repo/program/src/lib.rs:231-233. -/
def canonicalPointerWithSeed (unwrappedMint : Pubkey) : Option (Pubkey × UInt8) :=
  canonicalPointerWithSeedFor cr unwrappedMint crateId

/-- `get_canonical_pointer_address_for_program`: /repo/program/src/lib.rs:242-247. -/
def canonicalPointerAddressFor (unwrappedMint programId : Pubkey) : Option Pubkey :=
  (canonicalPointerWithSeedFor cr unwrappedMint programId).map (·.1)

/-- `get_canonical_pointer_address`: /repo/program/src/lib.rs:236-238. -/
def canonicalPointerAddress (unwrappedMint : Pubkey) : Option Pubkey :=
  canonicalPointerAddressFor cr unwrappedMint crateId

/-- `get_associated_token_address_with_program_id` (spl-associated-token-account-interface): the
PDA of the ATA program with seeds `[wallet, token program, mint]`. -/
def associatedTokenAddress (wallet mint tokenProgram : Pubkey) : Option Pubkey :=
  (findProgramAddress cr [wallet.bytes, tokenProgram.bytes, mint.bytes] ataProgramId).map (·.1)

/-- `get_escrow_address_for_program`: /repo/program/src/lib.rs:192-207. -/
def escrowAddressFor (unwrappedMint unwrappedTokenProgram wrappedTokenProgram programId : Pubkey) :
    Option Pubkey := do
  let wrappedMint ← wrappedMintAddressFor cr unwrappedMint wrappedTokenProgram programId
  let authority ← authorityAddressFor cr wrappedMint programId
  associatedTokenAddress cr authority unwrappedMint unwrappedTokenProgram

/-- `get_escrow_address`: /repo/program/src/lib.rs:178-189. -/
def escrowAddress (unwrappedMint unwrappedTokenProgram wrappedTokenProgram : Pubkey) :
    Option Pubkey :=
  escrowAddressFor cr unwrappedMint unwrappedTokenProgram wrappedTokenProgram crateId

/-- `mpl_token_metadata::accounts::Metadata::find_pda`: PDA of the Metaplex program with seeds
`["metadata", program id, mint]` (used at /repo/program/src/processor.rs:717 and
/repo/program/src/metadata.rs:49). -/
def metaplexPda (mint : Pubkey) : Option Pubkey :=
  (findProgramAddress cr [[109, 101, 116, 97, 100, 97, 116, 97], metaplexId.bytes, mint.bytes]
    metaplexId).map (·.1)

end

end TokenWrap
