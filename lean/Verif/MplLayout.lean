import Verif.Borsh
import Verif.Metaplex
/-!
# Reading Metaplex metadata accounts from their bytes

`MetaplexMetadata::safe_deserialize(&data)` (mpl-token-metadata, external), called at
/repo/program/src/metaplex.rs:101: Borsh, field after field.  The fields up to the edition nonce must be
readable; the later ones ("V1.2", "V1.3", programmable config), which old accounts may lack and which may
be followed by garbage, are `None` if they cannot be read.  Bytes after the value are ignored.
`Props/MplLayout.lean` proves that the typed model gives the same answers.
-/

namespace TokenWrap

/-- How a type is written and read in Borsh. -/
structure Codec (α : Type) where
  write : α → Bytes
  read : Bytes → Option (α × Bytes)

namespace Codec

variable {α β : Type}

/-- One byte. -/
def u8 : Codec UInt8 where
  write n := [n]
  read
    | [] => none
    | b :: r => some (b, r)

/-- Two bytes, lowest first. -/
def u16 : Codec UInt16 where
  write n := leBytes 2 n.toNat
  read b := (takeN 2 b).map fun (x, r) => (UInt16.ofNat (leNat x), r)

/-- Eight bytes, lowest first. -/
def u64 : Codec UInt64 where
  write n := leBytes 8 n.toNat
  read b := (takeN 8 b).map fun (x, r) => (UInt64.ofNat (leNat x), r)

/-- A key. -/
def key : Codec Pubkey := ⟨Pubkey.bytes, takeKey⟩

/-- A string. -/
def str : Codec String := ⟨borshStr, readStr⟩

/-- A choice among a few values, written as one byte: 0 for the first, 1 for the second, ... -/
def enum [DecidableEq α] (l : List α) : Codec α where
  write a := [UInt8.ofNat (l.idxOf a)]
  read
    | [] => none
    | b :: r => (l[b.toNat]?).map (·, r)

/-- `bool`: 0 or 1. -/
def bool : Codec Bool := enum [false, true]

/-- Two values, one after the other. -/
def pair (c : Codec α) (d : Codec β) : Codec (α × β) where
  write p := c.write p.1 ++ d.write p.2
  read b := do
    let (x, r) ← c.read b
    let (y, r) ← d.read r
    some ((x, y), r)

/-- Another view of the same bytes. -/
def map (c : Codec α) (f : β → α) (g : α → β) : Codec β where
  write x := c.write (f x)
  read b := (c.read b).map fun (x, r) => (g x, r)

/-- `Option`: 0, or 1 and the value. -/
def opt (c : Codec α) : Codec (Option α) where
  write
    | none => [0]
    | some x => 1 :: c.write x
  read
    | [] => none
    | t :: r => if t = 0 then some (none, r) else if t = 1 then (c.read r).map fun (x, r) => (some x, r) else none

/-- `n` values. -/
def readN (c : Codec α) : Nat → Bytes → Option (List α × Bytes)
  | 0, b => some ([], b)
  | n + 1, b => do
    let (x, b) ← c.read b
    let (l, b) ← readN c n b
    some (x :: l, b)

/-- `Vec`: the number of elements (u32), then the elements. -/
def vec (c : Codec α) : Codec (List α) where
  write l := leBytes 4 l.length ++ l.flatMap c.write
  read b := do
    let (n, r) ← readU32 b
    readN c n r

end Codec

open Codec

/-- `types::Creator`: address, verified, share. -/
def creatorCodec : Codec Creator :=
  (pair key (pair bool u8)).map (fun c => (c.address, c.verified, c.share)) fun p => ⟨p.1, p.2.1, p.2.2⟩

/-- `types::TokenStandard`, in this order. -/
def tokenStandardCodec : Codec TokenStandard :=
  enum [.nonFungible, .fungibleAsset, .fungible, .nonFungibleEdition, .programmableNonFungible,
    .programmableNonFungibleEdition]

/-- `types::Collection`: verified, key. -/
def collectionCodec : Codec Collection :=
  (pair bool key).map (fun c => (c.verified, c.key)) fun p => ⟨p.1, p.2⟩

/-- `types::Uses`: use method, remaining, total. -/
def usesCodec : Codec Uses :=
  (pair (enum [.burn, .multiple, .single]) (pair u64 u64)).map (fun u => (u.useMethod, u.remaining, u.total))
    fun p => ⟨p.1, p.2.1, p.2.2⟩

/-- `types::CollectionDetails`: V1 with a size, V2 with eight bytes of padding. -/
def collectionDetailsCodec : Codec CollectionDetails where
  write
    | .v1 n => 0 :: u64.write n
    | .v2 p => 1 :: p
  read
    | [] => none
    | t :: r =>
      if t = 0 then (u64.read r).map fun (n, r) => (.v1 n, r)
      else if t = 1 then (takeN 8 r).map fun (p, r) => (.v2 p, r)
      else none

/-- `types::ProgrammableConfig`: only V1, with an optional rule set. -/
def programmableConfigCodec : Codec ProgrammableConfig where
  write
    | .v1 k => 0 :: (opt key).write k
  read
    | [] => none
    | t :: r => if t = 0 then ((opt key).read r).map fun (k, r) => (.v1 k, r) else none

/-- The fields that must be readable, after the discriminator. -/
abbrev MplHead := Pubkey × Pubkey × String × String × String × UInt16 × Option (List Creator) × Bool × Bool ×
  Option UInt8

/-- Update authority, mint, name, symbol, uri, seller fee, creators, primary sale, mutability, edition
nonce. -/
def mplHeadCodec : Codec MplHead :=
  pair key (pair key (pair str (pair str (pair str (pair u16 (pair (opt (vec creatorCodec)) (pair bool
    (pair bool (opt u8)))))))))

/-- Read a field that may be missing.  Simplified: where a field cannot be read, the fields after it
cannot be read either (the real reader goes on at the position where it failed). -/
def readSoft {α : Type} (c : Codec (Option α)) (b : Option Bytes) : Option (Option α) × Option Bytes :=
  match b.bind c.read with
  | some (x, r) => (some x, some r)
  | none => (none, none)

/-- `Metadata::safe_deserialize`.  The first byte must be `Key::MetadataV1`; token standard, collection and
uses are kept only if all three can be read. -/
def metaplexOf (b : Bytes) : Option MetaplexMetadata :=
  match b with
  | [] => none
  | k :: r =>
    if k ≠ UInt8.ofNat metadataV1 then none
    else match mplHeadCodec.read r with
      | none => none
      | some ((ua, mint, name, symbol, uri, fee, creators, sale, mutable_, nonce), r) =>
        let s1 := readSoft (opt tokenStandardCodec) (some r)
        let s2 := readSoft (opt collectionCodec) s1.2
        let s3 := readSoft (opt usesCodec) s2.2
        let s4 := readSoft (opt collectionDetailsCodec) s3.2
        let s5 := readSoft (opt programmableConfigCodec) s4.2
        let all := s1.1.isSome && s2.1.isSome && s3.1.isSome
        some
          { key := metadataV1
            updateAuthority := ua
            mint := mint
            name := name
            symbol := symbol
            uri := uri
            sellerFeeBasisPoints := fee
            creators := creators
            primarySaleHappened := sale
            isMutable := mutable_
            editionNonce := nonce
            tokenStandard := if all then s1.1.join else none
            collection := if all then s2.1.join else none
            uses := if all then s3.1.join else none
            collectionDetails := s4.1.join
            programmableConfig := s5.1.join }

/-- `metaplex_to_token_2022_metadata` on bytes: /repo/program/src/metaplex.rs:96-114. -/
def metaplexToToken2022Bytes (env : Env) (unwrappedMint : Pubkey) (b : Bytes) : Res TokenMetadata := do
  let md ← okOr (metaplexOf b) .invalidAccountData
  pure
    { updateAuthority := maybeNull md.updateAuthority
      mint := unwrappedMint
      name := md.name
      symbol := md.symbol
      uri := md.uri
      additional := extractAdditional env md }

end TokenWrap
