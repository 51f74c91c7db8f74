import Verif.Borsh
/-!
# Reading token-program accounts from their bytes

The rest of the model works with typed account contents (`Data`).  This file models what the program does
with the bytes: `PodStateWithExtensions::<PodMint>::unpack`, `PodStateWithExtensions::<PodAccount>::unpack`,
`get_extension`, `get_variable_len_extension` and `get_extension_types` (spl-token-2022-interface
`extension/mod.rs`, `pod.rs`, external), called at /repo/program/src/processor.rs:245-262, 382, 442-467,
582-584, 826, /repo/program/src/metadata.rs:72-87 and in the mint customizers.  `Props/Layout.lean`
proves that the typed model gives the same answers.
-/

namespace TokenWrap

/-- The key at an offset (32 bytes are there). -/
def keyAt (b : Bytes) (off : Nat) : Pubkey :=
  if h : (slice b off 32).length = 32 then ⟨slice b off 32, h⟩ else systemId

/-- `PodCOption<Pubkey>` at an offset: a four-byte tag, then the key. -/
def coptionKeyAt (b : Bytes) (off : Nat) : Option Pubkey :=
  if slice b off 4 = [0, 0, 0, 0] then none else some (keyAt b (off + 4))

/-- `PodCOption<u64>` at an offset. -/
def coptionU64At (b : Bytes) (off : Nat) : Option Nat :=
  if slice b off 4 = [0, 0, 0, 0] then none else some (leNat (slice b (off + 4) 8))

/-! ## Base states -/

/-- The base state of a mint (`PodMint`), from the bytes. -/
def mintBaseOf (b : Bytes) : Mint :=
  { mintAuthority := coptionKeyAt b 0
    supply := leNat (slice b 36 8)
    decimals := b[44]?.getD 0
    freezeAuthority := coptionKeyAt b 46
    exts := [] }

/-- The base state of a token account (`PodAccount`), from the bytes. -/
def tokenBaseOf (b : Bytes) : TokenAcct :=
  { mint := keyAt b 0
    owner := keyAt b 32
    amount := leNat (slice b 64 8)
    delegate := coptionKeyAt b 72
    delegatedAmount := leNat (slice b 121 8)
    frozen := b[108]?.getD 0 = 2
    isNative := coptionU64At b 109
    closeAuthority := coptionKeyAt b 129
    exts := []
    withheld := 0
    confidential := 0 }

/-! ## TLV data -/

/-- `ExtensionType` numbers of mint extensions. -/
def isMintCode (c : Nat) : Bool :=
  c ∈ [1, 3, 4, 6, 9, 10, 12, 14, 16, 18, 19, 20, 21, 22, 23, 24, 25, 26]

/-- `ExtensionType` numbers of account extensions. -/
def isAcctCode (c : Nat) : Bool := c ∈ [2, 5, 7, 8, 11, 13, 15, 17, 27]

/-- `get_extension_bytes` for the mint extension number `want`, errors dropped (every caller drops
them).  Walks over the entries (type and length, two bytes each, then the value) until it finds the type,
an empty type, an extension that is not one of mints, or the end. -/
def findExt (want : Nat) (tlv : Bytes) : Option Bytes :=
  if h : tlv.length < 4 then none
  else
    let ty := leNat (slice tlv 0 2)
    let n := leNat (slice tlv 2 2)
    if ty = want then (if tlv.length < 4 + n then none else some (slice tlv 4 n))
    else if isMintCode ty then findExt want (tlv.drop (4 + n))
    else none
termination_by tlv.length
decreasing_by simp only [List.length_drop]; omega

/-- `get_extension_types`: the types of all entries, up to an empty type or the end; an entry that does
not fit and an unknown type are errors. -/
def extTypes (tlv : Bytes) : Res (List Nat) :=
  if _h : tlv.length < 2 then .ok []
  else
    let ty := leNat (slice tlv 0 2)
    let n := leNat (slice tlv 2 2)
    if ty = 0 then .ok []
    else if isMintCode ty = false ∧ isAcctCode ty = false then .error .invalidAccountData
    else if tlv.length < 4 + n then .error .invalidAccountData
    else match extTypes (tlv.drop (4 + n)) with
      | .ok l => .ok (ty :: l)
      | .error e => .error e
termination_by tlv.length
decreasing_by simp only [List.length_drop]; omega

/-- `try_for_each_required_init_account_extension` on extension numbers
(/repo/program/src/processor.rs:464-467): the account extensions each mint extension asks for. -/
def requiredTypes (types : List Nat) : List Nat :=
  types.flatMap fun
    | 1 => [2]
    | 9 => [13, 7]
    | 14 => [15]
    | 26 => [27]
    | _ => []

/-- The test of the escrow against its mint in `process_close_stuck_escrow`, on the bytes of both
(/repo/program/src/processor.rs:442-479, without the checks of the base state in between). -/
def goodStateOf (escrow mint : Bytes) : Res Bool := do
  let current ← podAccount escrow >>= extTypes
  let types ← podMint mint >>= extTypes
  let required := requiredTypes types
  let required := if 7 ∈ required then required else required ++ [7]
  pure (current.length = required.length && required.all (· ∈ current))

/-- `TransferFee`, 18 bytes. -/
def feeAt (v : Bytes) (off : Nat) : TransferFee :=
  { epoch := leNat (slice v off 8), maximumFee := leNat (slice v (off + 8) 8), bps := leNat (slice v (off + 16) 2) }

/-- `get_extension::<TransferFeeConfig>().ok()`: the value must have the size of the struct. -/
def feeConfigOf (tlv : Bytes) : Option TransferFeeConfig :=
  match findExt 1 tlv with
  | none => none
  | some v =>
    if v.length = 108 then some
      { authority := nonZeroKey (keyAt v 0)
        withdrawAuthority := nonZeroKey (keyAt v 32)
        withheld := leNat (slice v 64 8)
        older := feeAt v 72
        newer := feeAt v 90 }
    else none

/-- `get_extension::<MetadataPointer>().ok()`. -/
def pointerOf (tlv : Bytes) : Option (Option Pubkey × Option Pubkey) :=
  match findExt 18 tlv with
  | none => none
  | some v => if v.length = 64 then some (nonZeroKey (keyAt v 0), nonZeroKey (keyAt v 32)) else none

/-- `get_variable_len_extension::<TokenMetadata>().ok()`. -/
def metadataOf (tlv : Bytes) : Option TokenMetadata :=
  (findExt 19 tlv).bind unborshMetadata?

end TokenWrap
