import Verif.Conformance.Common
/-!
# /repo/program/tests/test_sync_metadata_to_token_2022.rs on the model, and the Token-2022 part of
test_extract_token_metadata.rs
-/

namespace TokenWrap.Conf

/-- `MintExtension::TokenMetadata`: /repo/program/tests/helpers/extensions.rs:106-126. -/
def mdExt (mint : Pubkey) (name symbol uri : String) (additional : List (String × String)) : MintExt :=
  .tokenMetadata { updateAuthority := some (authOf mint), mint, name, symbol, uri, additional }
def ptr (a : Option Pubkey) : MintExt := .metadataPointer none a

/-- `SyncToToken2022Builder`: /repo/program/tests/helpers/sync_to_token_2022_builder.rs. -/
structure Sync22T where
  u : Pubkey := uniq 1
  uAccount : Account := M.account
    { exts := [mdExt (uniq 1) "Alphabet" "ABC" "uri://unwrapped.com" []] } token2022Id
  wrappedMint : Option Pubkey := none
  wProg : Pubkey := token2022Id
  wAuth : Option Pubkey := none
  wExts : Option (List MintExt) := none
  authority : Option Pubkey := none
  source : Option (Pubkey × Account) := none
  tokenProgram : Option Pubkey := none

namespace Sync22T
variable (b : Sync22T)

def W0 : Pubkey := wrappedOf b.u token2022Id
def W : Pubkey := b.wrappedMint.getD b.W0
def A : Pubkey := b.authority.getD (authOf b.W0)
def ledger : Ledger := ledgerOf
  ([ (b.W, { M.account { authority := some (b.wAuth.getD b.A)
                         exts := b.wExts.getD [ptr (some b.W0)] } b.wProg with lamports := 1000000000 }),
     (b.u, b.uAccount) ] ++ b.source.toList)
/-- The owner program is named only for third-party metadata; the test then lists it twice. -/
def ownerProgram : Option Pubkey :=
  b.source.bind fun s => if s.2.owner = metaplexId || s.2.owner = token2022Id then none
    else some s.2.owner
def ix : Instr :=
  let i := Build.syncMetadataToToken2022 crateId b.W b.A b.u (b.source.map (·.1)) b.ownerProgram
  { i with accounts := (match b.tokenProgram with
      | some p => i.accounts.set 3 (.ro p false) | none => i.accounts) ++
      b.ownerProgram.toList.map (fun k => .ro k false) }
def result : Res Ledger := run b.ix b.ledger
/-- The wrapped mint carries exactly this metadata afterwards. -/
def gives (name symbol uri : String) (additional : List (String × String)) : Bool :=
  okAnd b.result (fun L => (mintAt L b.W).bind (·.tokenMetadata?) =
    some { updateAuthority := some b.A, mint := b.W, name, symbol, uri, additional })

end Sync22T

-- test_fail_incorrect_token_program
example : err (Sync22T.result { tokenProgram := some (uniq 40) }) .incorrectProgramId = true := by
  decide +kernel
-- test_fail_wrapped_mint_not_token_2022
example : err (Sync22T.result { wProg := splTokenId }) .incorrectProgramId = true := by decide +kernel
-- test_fail_wrapped_mint_pda_mismatch
example : errW (Sync22T.result { wrappedMint := some (uniq 40) }) .wrappedMintMismatch = true := by
  decide +kernel
-- test_fail_wrapped_mint_authority_pda_mismatch
example : errW (Sync22T.result { authority := some (uniq 40) }) .mintAuthorityMismatch = true := by
  decide +kernel

def sync22Init : Sync22T :=
  { uAccount := M.account { exts := [mdExt (uniq 1) "Unwrapped Token" "UWT"
      "https://unwrapped.dev/meta.json" [("key1", "value1"), ("key2", "value2")],
      ptr (some (uniq 1))] } token2022Id }

-- test_success_initialize_from_token_2022
example : sync22Init.gives "Unwrapped Token" "UWT" "https://unwrapped.dev/meta.json"
    [("key1", "value1"), ("key2", "value2")] = true := by decide +kernel

def sync22Update : Sync22T :=
  { uAccount := M.account { exts := [mdExt (uniq 1) "Updated Name" "SYM" "uri"
      [("key1", "new_value"), ("key3", "value3")], ptr (some (uniq 1))] } token2022Id
    wExts := some [ptr (some (wrappedOf (uniq 1) token2022Id)),
      mdExt (wrappedOf (uniq 1) token2022Id) "Old Name" "SYM" "uri"
        [("key1", "old_value"), ("key2", "value2")]] }

-- test_success_update_from_token_2022
example : sync22Update.gives "Updated Name" "SYM" "uri" [("key1", "new_value"), ("key3", "value3")]
    = true := by decide +kernel

/-- `MetadataV1` of mint `u` with nothing optional. -/
def mpl0 (u : Pubkey) (name symbol uri : String) : MetaplexMetadata :=
  { key := metadataV1, updateAuthority := uniq 70, mint := u, name, symbol, uri
    sellerFeeBasisPoints := 0, creators := none, primarySaleHappened := false, isMutable := true
    editionNonce := none, tokenStandard := none, collection := none, uses := none
    collectionDetails := none, programmableConfig := none }
def mplAcct (md : MetaplexMetadata) : Account := ⟨1000000000, metaplexId, .metaplex md⟩

def spider : MetaplexMetadata :=
  { mpl0 (uniq 1) "Spiderman Token" "SPDR" "https://metaplex.dev/meta.json" with
    sellerFeeBasisPoints := 100, creators := some [⟨uniq 71, true, 100⟩]
    primarySaleHappened := true, isMutable := false, editionNonce := some 1
    tokenStandard := some .nonFungible, collection := some ⟨false, uniq 72⟩
    uses := some ⟨.burn, 1, 1⟩, collectionDetails := some (.v1 1) }

def sync22FromSpl : Sync22T :=
  { uAccount := M.account {} splTokenId, source := some (mplOf (uniq 1), mplAcct spider) }

-- test_success_initialize_from_spl_token; the JSON texts are those of serde_json
example : sync22FromSpl.gives "Spiderman Token" "SPDR" "https://metaplex.dev/meta.json"
    [("key", "\"MetadataV1\""), ("seller_fee_basis_points", "100"), ("primary_sale_happened", "true"),
     ("is_mutable", "false"),
     ("creators",
      "[{\"address\":\"5n9wuAWzTN9h17YB7puhZnvENh7j8TENTau3jr2fB7wV\",\"verified\":false,\"share\":100}]"),
     ("edition_nonce", "1"), ("token_standard", "ts"),
     ("collection", "{\"verified\":false,\"key\":\"5r4MYfF5MCeQQof9dLB9TifTdhgVqQLH3TCwF3Letvbq\"}"),
     ("uses", "{\"use_method\":\"Burn\",\"remaining\":1,\"total\":1}"), ("collection_details", "cd")]
    = true := by decide +kernel

def octopus : MetaplexMetadata :=
  { mpl0 (uniq 1) "DocOct Token" "OCT" "https://new.uri/" with
    sellerFeeBasisPoints := 200, creators := some [⟨uniq 71, false, 100⟩]
    editionNonce := some 2, tokenStandard := some .fungible }

def sync22UpdateSpl : Sync22T :=
  { uAccount := M.account {} splTokenId, source := some (mplOf (uniq 1), mplAcct octopus)
    wExts := some [ptr (some (wrappedOf (uniq 1) token2022Id)),
      mdExt (wrappedOf (uniq 1) token2022Id) "Old Wrapped Name" "OLD" "https://old.uri/"
        [("seller_fee_basis_points", "50")]] }

-- test_success_update_from_spl_token
example : okAnd sync22UpdateSpl.result (fun L =>
    match (mintAt L sync22UpdateSpl.W).bind (·.tokenMetadata?) with
    | some md => md.name = "DocOct Token" && md.symbol = "OCT" && md.uri = "https://new.uri/" &&
        md.updateAuthority = some sync22UpdateSpl.A && md.mint = sync22UpdateSpl.W &&
        md.additional.lookup "seller_fee_basis_points" = some "200" &&
        md.additional.lookup "primary_sale_happened" = some "false" &&
        md.additional.lookup "is_mutable" = some "true" &&
        md.additional.lookup "edition_nonce" = some "2" &&
        md.additional.lookup "token_standard" = some "ts" &&
        (md.additional.lookup "creators").isSome && (md.additional.lookup "collection").isNone
    | none => false) = true := by decide +kernel

/-! ## test_extract_token_metadata.rs -/

/-- `extract_token_metadata` on the unwrapped mint `uniq 1`. -/
def extract (uAccount : Account) (source : Option (Pubkey × Account)) (program : Option Pubkey) :
    Res TokenMetadata :=
  extractTokenMetadata env [] (uniq 1) (source.map (fun s => .ro s.1 false))
    (program.map (fun k => .ro k false)) (ledgerOf ([(uniq 1, uAccount)] ++ source.toList))
def named (r : Res TokenMetadata) (n : String) : Bool :=
  match r with | .ok md => md.name = n | .error _ => false
def splU : Account := M.account {} splTokenId
def t22U (exts : List MintExt) : Account := M.account { exts } token2022Id

-- test_fail_invalid_owner
example : err (extract (M.account {} (uniq 40)) none none) .incorrectProgramId = true := by
  decide +kernel
-- test_fail_spl_token_missing_metaplex_account
example : err (extract splU none none) .notEnoughAccountKeys = true := by decide +kernel
-- test_fail_spl_token_with_wrong_metaplex_owner
example : err (extract splU (some (mplOf (uniq 1), ⟨0, uniq 40, .bytes []⟩)) none)
    .invalidAccountOwner = true := by decide +kernel
-- test_fail_spl_token_with_invalid_metaplex_pda
example : errW (extract splU (some (uniq 40, ⟨0, metaplexId, .bytes []⟩)) none)
    .metaplexMetadataMismatch = true := by decide +kernel
-- test_fail_no_fallback_account_provided
example : err (extract (t22U []) none none) .notEnoughAccountKeys = true := by decide +kernel
-- test_success_no_pointer_fallback_to_metaplex
example : named (extract (t22U []) (some (mplOf (uniq 1),
    mplAcct (mpl0 (uniq 1) "Metaplex Fallback" "FALL" "uri.fallback"))) none) "Metaplex Fallback"
    = true := by decide +kernel
-- test_fail_no_pointer_fallback_wrong_owner
example : err (extract (t22U []) (some (mplOf (uniq 1), ⟨0, uniq 40, .bytes []⟩)) none)
    .invalidAccountOwner = true := by decide +kernel
-- test_fail_pointer_unset
example : errW (extract (t22U [ptr none]) none none) .metadataPointerUnset = true := by decide +kernel
-- test_success_self_referential_pointer
example : named (extract (t22U [ptr (some (uniq 1)), mdExt (uniq 1) "Self Ref" "SELF" "uri.self" []])
    none none) "Self Ref" = true := by decide +kernel
-- test_fail_self_referential_pointer_no_metadata
example : err (extract (t22U [ptr (some (uniq 1))]) none none) .invalidAccountData = true := by
  decide +kernel
-- test_fail_pointer_to_external_account_not_provided
example : err (extract (t22U [ptr (some (uniq 42))]) none none) .notEnoughAccountKeys = true := by
  decide +kernel
-- test_fail_pointer_mismatch
example : errW (extract (t22U [ptr (some (uniq 42))]) (some (uniq 43, Account.empty)) none)
    .metadataPointerMismatch = true := by decide +kernel
-- test_fail_pointer_to_token_2022_account_is_unsupported
example : err (extract (t22U [ptr (some (uniq 42))])
    (some (uniq 42, T.account { mint := uniq 44, owner := uniq 45 } token2022Id)) none)
    .invalidAccountData = true := by decide +kernel
-- test_success_pointer_to_metaplex
example : named (extract (t22U [ptr (some (mplOf (uniq 1)))]) (some (mplOf (uniq 1),
    mplAcct (mpl0 (uniq 1) "Pointed-to Metaplex" "PMP" "uri.pmp"))) none) "Pointed-to Metaplex"
    = true := by decide +kernel
-- test_fail_pointer_to_third_party_missing_owner_program
example : err (extract (t22U [ptr (some (uniq 42))]) (some (uniq 42, ⟨0, ownerProg, .bytes []⟩)) none)
    .notEnoughAccountKeys = true := by decide +kernel
-- test_fail_pointer_to_third_party_owner_program_mismatch
example : err (extract (t22U [ptr (some (uniq 42))]) (some (uniq 42, ⟨0, ownerProg, .bytes []⟩))
    (some (uniq 46))) .invalidAccountOwner = true := by decide +kernel

-- test_integration_pointer_to_third_party_no_return_fails
example : errW (Sync22T.result { uAccount := t22U [ptr (some noReturn)]
                                 source := some (noReturn, ⟨0, ownerProg, .bytes []⟩) })
    .externalProgramReturnedNoData = true := by decide +kernel

/-- The mock metadata account of the third-party program. -/
def mock : Pubkey × Account :=
  (uniq 42, M.account { exts := [mdExt (uniq 42) "Mock External" "MEXT" "uri.mock" []] } ownerProg)

-- test_integration_pointer_to_third_party_success
example : Sync22T.gives { uAccount := t22U [ptr (some (uniq 42))], source := some mock }
    "Mock External" "MEXT" "uri.mock" [] = true := by decide +kernel

end TokenWrap.Conf
