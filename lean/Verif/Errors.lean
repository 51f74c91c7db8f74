import Verif.Basic
/-!
# Model of /repo/program/src/error.rs
-/

namespace TokenWrap

/-- `enum TokenWrapError`: /repo/program/src/error.rs:12-70, in declaration order. -/
inductive TokenWrapError
  | wrappedMintMismatch | backpointerMismatch | zeroWrapAmount | mintAuthorityMismatch
  | escrowOwnerMismatch | invalidWrappedMintOwner | invalidBackpointerOwner | escrowMismatch
  | escrowInGoodState | unwrappedMintHasNoMetadata | metaplexMetadataMismatch
  | metadataPointerMissing | metadataPointerUnset | metadataPointerMismatch
  | externalProgramReturnedNoData | noSyncingToToken2022
deriving DecidableEq, Repr

namespace TokenWrapError

/-- `e as u32`: implicit discriminants of the enum, /repo/program/src/error.rs:12-70. -/
def code : TokenWrapError → UInt32
  | wrappedMintMismatch => 0
  | backpointerMismatch => 1
  | zeroWrapAmount => 2
  | mintAuthorityMismatch => 3
  | escrowOwnerMismatch => 4
  | invalidWrappedMintOwner => 5
  | invalidBackpointerOwner => 6
  | escrowMismatch => 7
  | escrowInGoodState => 8
  | unwrappedMintHasNoMetadata => 9
  | metaplexMetadataMismatch => 10
  | metadataPointerMissing => 11
  | metadataPointerUnset => 12
  | metadataPointerMismatch => 13
  | externalProgramReturnedNoData => 14
  | noSyncingToToken2022 => 15

/-- `impl From<TokenWrapError> for ProgramError`: /repo/program/src/error.rs:72-76. -/
def toErr (e : TokenWrapError) : Err := .custom e.code

/-- `impl TryFrom<u32> for TokenWrapError` (num_traits `FromPrimitive` derive, then
`ok_or(ProgramError::InvalidArgument)`): /repo/program/src/error.rs:78-84. -/
def tryFrom (n : UInt32) : Res TokenWrapError :=
  match n with
  | 0 => .ok wrappedMintMismatch
  | 1 => .ok backpointerMismatch
  | 2 => .ok zeroWrapAmount
  | 3 => .ok mintAuthorityMismatch
  | 4 => .ok escrowOwnerMismatch
  | 5 => .ok invalidWrappedMintOwner
  | 6 => .ok invalidBackpointerOwner
  | 7 => .ok escrowMismatch
  | 8 => .ok escrowInGoodState
  | 9 => .ok unwrappedMintHasNoMetadata
  | 10 => .ok metaplexMetadataMismatch
  | 11 => .ok metadataPointerMissing
  | 12 => .ok metadataPointerUnset
  | 13 => .ok metadataPointerMismatch
  | 14 => .ok externalProgramReturnedNoData
  | 15 => .ok noSyncingToToken2022
  | _ => .error .invalidArgument

/-- `impl ToStr`: /repo/program/src/error.rs:86-107. -/
def toStr : TokenWrapError → String
  | wrappedMintMismatch => "Error: WrappedMintMismatch"
  | backpointerMismatch => "Error: BackpointerMismatch"
  | zeroWrapAmount => "Error: ZeroWrapAmount"
  | mintAuthorityMismatch => "Error: MintAuthorityMismatch"
  | escrowOwnerMismatch => "Error: EscrowOwnerMismatch"
  | invalidWrappedMintOwner => "Error: InvalidWrappedMintOwner"
  | invalidBackpointerOwner => "Error: InvalidBackpointerOwner"
  | escrowMismatch => "Error: EscrowMismatch"
  | escrowInGoodState => "Error: EscrowInGoodState"
  | unwrappedMintHasNoMetadata => "Error: UnwrappedMintHasNoMetadata"
  | metaplexMetadataMismatch => "Error: MetaplexMetadataMismatch"
  | metadataPointerMissing => "Error: MetadataPointerMissing"
  | metadataPointerUnset => "Error: MetadataPointerUnset"
  | metadataPointerMismatch => "Error: MetadataPointerMismatch"
  | externalProgramReturnedNoData => "Error: ExternalProgramReturnedNoData"
  | noSyncingToToken2022 => "Error: NoSyncingToToken2022"

/-- `impl Display` (thiserror's `#[error("…")]`): /repo/program/src/error.rs:12-70. -/
def display : TokenWrapError → String
  | wrappedMintMismatch => "Wrapped mint account address does not match expected PDA"
  | backpointerMismatch => "Wrapped backpointer account address does not match expected PDA"
  | zeroWrapAmount => "Wrap amount should be positive"
  | mintAuthorityMismatch => "Wrapped mint authority does not match expected PDA"
  | escrowOwnerMismatch => "Unwrapped escrow token owner is not set to expected PDA"
  | invalidWrappedMintOwner => "Wrapped mint account owner is not the expected token program"
  | invalidBackpointerOwner => "Wrapped backpointer account owner is not the expected token wrap program"
  | escrowMismatch => "Escrow account address does not match expected ATA"
  | escrowInGoodState => "The escrow account is in a good state and cannot be recreated"
  | unwrappedMintHasNoMetadata => "Unwrapped mint does not have the TokenMetadata extension"
  | metaplexMetadataMismatch => "Metaplex metadata account address does not match expected PDA"
  | metadataPointerMissing => "Metadata pointer extension missing on mint"
  | metadataPointerUnset => "Metadata pointer is unset (None)"
  | metadataPointerMismatch => "Provided source metadata account does not match pointer"
  | externalProgramReturnedNoData => "External metadata program returned no data"
  | noSyncingToToken2022 => "Instruction can only be used with spl-token wrapped mints"

end TokenWrapError

/-- `Err(TokenWrapError::X)?`. -/
def wrapErr (e : TokenWrapError) : Err := e.toErr

end TokenWrap
