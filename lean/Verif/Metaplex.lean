import Verif.Runtime
/-!
# Model of /repo/program/src/metaplex.rs, and of the two Metaplex instructions the program calls
-/

namespace TokenWrap

/-! ## Decimal printing and parsing of u16 / u8 -/

/-- Decimal digits of `n`, most significant first, at most `fuel` of them. -/
def decDigits : Nat → Nat → List Char
  | 0, _ => []
  | fuel + 1, n =>
    if n < 10 then [Char.ofNat (48 + n)]
    else decDigits fuel (n / 10) ++ [Char.ofNat (48 + n % 10)]

/-- `u16::to_string` / `u8::to_string`. -/
def decString (n : Nat) : String := String.ofList (decDigits 5 n)

/-- Value of one decimal digit. -/
def digitVal (c : Char) : Option Nat :=
  if 48 ≤ c.toNat ∧ c.toNat ≤ 57 then some (c.toNat - 48) else none

/-- Left-to-right decimal value. -/
def digitsVal : Nat → List Char → Option Nat
  | acc, [] => some acc
  | acc, c :: cs =>
    match digitVal c with
    | some d => digitsVal (acc * 10 + d) cs
    | none => none

/-- `str::parse::<u16>`: optional `+`, at least one digit, no overflow. -/
def parseU16 (s : String) : Option UInt16 :=
  let cs := match s.toList with
    | '+' :: rest => rest
    | cs => cs
  if cs = [] then none
  else
    match digitsVal 0 cs with
    | some n => if n ≤ 65535 then some (UInt16.ofNat n) else none
    | none => none

/-- `bool::to_string`. -/
def boolString (b : Bool) : String := if b then "true" else "false"

/-! ## Conversions -/

/-- `creator.verified = false` for all creators:
/repo/program/src/metaplex.rs:46-49 and 134-136. -/
def unverify (cs : List Creator) : List Creator := cs.map fun c => { c with verified := false }

/-- `extract_additional_metadata`: /repo/program/src/metaplex.rs:18-93. -/
def extractAdditional (env : Env) (md : MetaplexMetadata) : List (String × String) :=
  [("key", env.jsonKey md.key),
   ("seller_fee_basis_points", decString md.sellerFeeBasisPoints.toNat),
   ("primary_sale_happened", boolString md.primarySaleHappened),
   ("is_mutable", boolString md.isMutable)] ++
  (match md.creators with
   | some cs => if cs.isEmpty then [] else [("creators", env.jsonCreators (unverify cs))]
   | none => []) ++
  (match md.editionNonce with
   | some n => [("edition_nonce", decString n.toNat)]
   | none => []) ++
  (match md.tokenStandard with
   | some t => [("token_standard", env.jsonTokenStandard t)]
   | none => []) ++
  (match md.collection with
   | some c => [("collection", env.jsonCollection c)]
   | none => []) ++
  (match md.uses with
   | some u => [("uses", env.jsonUses u)]
   | none => []) ++
  (match md.collectionDetails with
   | some d => [("collection_details", env.jsonCollectionDetails d)]
   | none => []) ++
  (match md.programmableConfig with
   | some p => [("programmable_config", env.jsonProgrammableConfig p)]
   | none => [])

/-- `MaybeNull::<Pubkey>::from`: the all-zero key is "none". -/
def maybeNull (k : Pubkey) : Option Pubkey := if k = systemId then none else some k

/-- Enum index of `Key::MetadataV1`, the discriminator `safe_deserialize` insists on. -/
def metadataV1 : Nat := 4

/-- `metaplex_to_token_2022_metadata`: /repo/program/src/metaplex.rs:96-114. -/
def metaplexToToken2022 (env : Env) (unwrappedMint : Pubkey) (d : Data) : Res TokenMetadata :=
  match d with
  | .metaplex md =>
    if md.key = metadataV1 then
      .ok { updateAuthority := maybeNull md.updateAuthority
            mint := unwrappedMint
            name := md.name, symbol := md.symbol, uri := md.uri
            additional := extractAdditional env md }
    else .error .invalidAccountData
  | _ => .error .invalidAccountData

/-- The mutable locals of the loop in `token_2022_metadata_to_metaplex`:
/repo/program/src/metaplex.rs:120-123. -/
structure ConvAcc where
  creators : Option (List Creator)
  sellerFeeBasisPoints : UInt16
  collection : Option Collection
  uses : Option Uses
deriving DecidableEq, Repr

/-- One iteration of the loop: /repo/program/src/metaplex.rs:125-152. -/
def convStep (env : Env) (acc : ConvAcc) (kv : String × String) : Res ConvAcc :=
  if kv.1 = "creators" then do
    let cs ← okOr (env.parseCreators kv.2) .invalidAccountData
    pure { acc with creators := some (unverify cs) }
  else if kv.1 = "seller_fee_basis_points" then do
    let n ← okOr (parseU16 kv.2) .invalidAccountData
    pure { acc with sellerFeeBasisPoints := n }
  else if kv.1 = "collection" then do
    let c ← okOr (env.parseCollection kv.2) .invalidAccountData
    pure { acc with collection := some c }
  else if kv.1 = "uses" then do
    let u ← okOr (env.parseUses kv.2) .invalidAccountData
    pure { acc with uses := some u }
  else pure acc

/-- The loop: /repo/program/src/metaplex.rs:125-153. -/
def convLoop (env : Env) : List (String × String) → ConvAcc → Res ConvAcc
  | [], acc => .ok acc
  | kv :: rest, acc => do
    let acc' ← convStep env acc kv
    convLoop env rest acc'

/-- `token_2022_metadata_to_metaplex`: /repo/program/src/metaplex.rs:117-165. -/
def token2022ToMetaplex (env : Env) (md : TokenMetadata) : Res DataV2 := do
  let acc ← convLoop env md.additional ⟨none, 0, none, none⟩
  pure { name := md.name, symbol := md.symbol, uri := md.uri
         sellerFeeBasisPoints := acc.sellerFeeBasisPoints
         creators := acc.creators, collection := acc.collection, uses := acc.uses }

/-! ## The Metaplex program (environment model, trusted) -/

/-- `CreateMetadataAccountV3` as called at /repo/program/src/processor.rs:748-775: the metadata
account must be empty and the PDA of the mint, the mint authority must sign and match, the payer
pays `env.mplCost _` lamports (a system transfer, so the payer must be system-owned), strings are padded, nothing is verified. -/
def mplCreate (env : Env) (signed : Pubkey → Bool) (metadata mint mintAuthority payer
    updateAuthority : Pubkey) (data : DataV2) (isMutable : Bool) (L : Ledger) : Res Ledger := do
  require (signed mintAuthority && signed payer && signed updateAuthority) (.external 1)
  require ((L payer).owner = systemId) (.external 7)
  require (metaplexPda env.cr mint = some metadata) (.external 2)
  require ((L metadata).data = .bytes [] && (L metadata).owner = systemId) (.external 3)
  match (L mint).data with
  | .mint m => do
    require (m.mintAuthority = some mintAuthority) (.external 4)
    match env.mplReject signed metadata data L with
    | some e => .error (.external (10 + e))
    | none => do
      let cost := env.mplCost (L metadata).lamports
      require (cost ≤ (L payer).lamports) (.external 5)
      let L1 := L.setLamports payer ((L payer).lamports - cost)
      pure (L1.set metadata
        { lamports := (L1 metadata).lamports + cost
          owner := metaplexId
          data := .metaplex
            { key := metadataV1, updateAuthority, mint
              name := env.mplPad data.name, symbol := env.mplPad data.symbol
              uri := env.mplPad data.uri
              sellerFeeBasisPoints := data.sellerFeeBasisPoints, creators := data.creators
              primarySaleHappened := false, isMutable
              editionNonce := (env.mplExtra mint).1, tokenStandard := (env.mplExtra mint).2
              collection := data.collection, uses := data.uses
              collectionDetails := none, programmableConfig := none } })
  | _ => .error (.external 6)

/-- `UpdateMetadataAccountV2` with `data: Some(_)` and every other argument `None`, as called at
/repo/program/src/processor.rs:777-797: the update authority must sign and match, the metadata must
be mutable. -/
def mplUpdate (env : Env) (signed : Pubkey → Bool) (metadata updateAuthority : Pubkey)
    (data : DataV2) (L : Ledger) : Res Ledger := do
  require ((L metadata).owner = metaplexId) (.external 1)
  match (L metadata).data with
  | .metaplex md => do
    require (signed updateAuthority && md.updateAuthority = updateAuthority) (.external 2)
    require md.isMutable (.external 3)
    match env.mplReject signed metadata data L with
    | some e => .error (.external (10 + e))
    | none =>
      pure (L.setData metadata (.metaplex { md with
        name := env.mplPad data.name, symbol := env.mplPad data.symbol, uri := env.mplPad data.uri
        sellerFeeBasisPoints := data.sellerFeeBasisPoints, creators := data.creators
        collection := data.collection, uses := data.uses }))
  | _ => .error (.external 4)

end TokenWrap
