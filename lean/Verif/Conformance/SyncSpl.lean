import Verif.Conformance.Sync22
/-!
# /repo/program/tests/test_sync_metadata_to_spl_token.rs, the SPL part of
test_extract_token_metadata.rs, and test_instruction.rs on the model
-/

namespace TokenWrap.Conf

/-- `SyncToSplTokenBuilder`: /repo/program/tests/helpers/sync_to_spl_token_builder.rs. -/
structure SyncSplT where
  u : Pubkey := uniq 1
  uAccount : Account := M.account {} token2022Id
  wrappedMint : Option Pubkey := none
  wProg : Pubkey := splTokenId
  authority : Option Pubkey := none
  authorityLamports : Nat := 10000000000
  source : Option (Pubkey × Account) := none
  metaplex : Option (Pubkey × Account) := none
  metaplexProgram : Option Pubkey := none
  ownerOverride : Option Pubkey := none

namespace SyncSplT
variable (b : SyncSplT)

def W0 : Pubkey := wrappedOf b.u splTokenId
def W : Pubkey := b.wrappedMint.getD b.W0
def A : Pubkey := b.authority.getD (authOf b.W0)
/-- For an SPL mint without a given source the builder makes one. -/
def src : Option (Pubkey × Account) :=
  match b.source with
  | some s => some s
  | none => if b.uAccount.owner = splTokenId then
      some (mplOf b.u, mplAcct (mpl0 b.u "Test Token" "TEST" "uri")) else none
def X : Pubkey := (b.metaplex.map (·.1)).getD (mplOf b.W)
def ledger : Ledger := ledgerOf
  ([ (b.X, (b.metaplex.map (·.2)).getD Account.empty),
     (b.A, ⟨b.authorityLamports, systemId, .bytes []⟩),
     (b.W, M.account { authority := some b.A } b.wProg), (b.u, b.uAccount) ] ++ b.src.toList)
def ownerProgram : Option Pubkey :=
  match b.ownerOverride with
  | some p => some p
  | none => b.src.bind fun s => if s.2.owner = metaplexId || s.2.owner = token2022Id then none
      else some s.2.owner
def ix : Instr :=
  let i := Build.syncMetadataToSplToken crateId b.X b.A b.W b.u (b.src.map (·.1)) b.ownerProgram
  match b.metaplexProgram with
  | some p => { i with accounts := i.accounts.set 4 (.ro p false) }
  | none => i
def result : Res Ledger := run b.ix b.ledger
/-- The Metaplex metadata account after success. -/
def after (p : MetaplexMetadata → Bool) : Bool := okAnd b.result (fun L =>
  (L b.X).owner = metaplexId && match (L b.X).data with | .metaplex md => p md | _ => false)

end SyncSplT

/-- `clean` (test_sync_metadata_to_spl_token.rs:20-22): drop the trailing NULs. -/
def clean (s : String) : List Char := (s.toList.reverse.dropWhile (· = '\x00')).reverse

def sameText (s : String) (t : String) : Bool := clean s = t.toList

-- test_fail_wrapped_mint_not_spl_token
example : errW (SyncSplT.result { uAccount := splU, wProg := token2022Id }) .noSyncingToToken2022
    = true := by decide +kernel
-- test_fail_wrapped_mint_pda_mismatch
example : errW (SyncSplT.result { wrappedMint := some (uniq 40) }) .wrappedMintMismatch = true := by
  decide +kernel
-- test_fail_wrapped_mint_authority_pda_mismatch
example : errW (SyncSplT.result { authority := some (uniq 40) }) .mintAuthorityMismatch = true := by
  decide +kernel
-- test_fail_metaplex_pda_mismatch
example : errW (SyncSplT.result { metaplex := some (uniq 40, Account.empty) })
    .metaplexMetadataMismatch = true := by decide +kernel
-- test_fail_incorrect_metaplex_program_id
example : err (SyncSplT.result { uAccount := splU, metaplexProgram := some (uniq 40) })
    .incorrectProgramId = true := by decide +kernel
-- test_fail_owner_program_mismatch
example : err (SyncSplT.result
    { uAccount := t22U [ptr (some (uniq 42))], source := some (uniq 42, ⟨0, ownerProg, .bytes []⟩)
      ownerOverride := some (uniq 40) }) .invalidAccountOwner = true := by decide +kernel
-- test_fail_insufficient_payer_funds_for_cpi (`Custom(1)` from the system program inside Metaplex)
example : err (SyncSplT.result { uAccount := splU, authorityLamports := 100 }) (.external 5) = true := by
  decide +kernel

/-- The authority PDA and the metadata PDA of the wrapped SPL mint of `uniq 1`. -/
def splA : Pubkey := authOf (wrappedOf (uniq 1) splTokenId)
def splX : Pubkey := mplOf (wrappedOf (uniq 1) splTokenId)
/-- An existing metadata account of the wrapped mint. -/
def dest (name symbol uri : String) : MetaplexMetadata :=
  { mpl0 (wrappedOf (uniq 1) splTokenId) name symbol uri with updateAuthority := splA }

def creator0 : Creator := ⟨uniq 71, true, 100⟩
def collection0 : Collection := ⟨false, uniq 72⟩
def uses0 : Uses := ⟨.burn, 1, 1⟩

def splUpdate22 : SyncSplT :=
  { uAccount := t22U [mdExt (uniq 1) "Unwrapped" "UWT" "uri.unwrapped"
      [("seller_fee_basis_points", "150"),
       ("creators",
        "[{\"address\":\"5n9wuAWzTN9h17YB7puhZnvENh7j8TENTau3jr2fB7wV\",\"verified\":true,\"share\":100}]"),
       ("collection",
        "{\"verified\":false,\"key\":\"5r4MYfF5MCeQQof9dLB9TifTdhgVqQLH3TCwF3Letvbq\"}"),
       ("uses", "{\"use_method\":\"Burn\",\"remaining\":1,\"total\":1}")], ptr (some (uniq 1))]
    metaplex := some (splX, mplAcct (dest "Old Name" "OLD" "old.uri")) }

-- test_success_update_from_token2022_to_spl_token
example : splUpdate22.after (fun md =>
    sameText md.name "Unwrapped" && sameText md.symbol "UWT" && sameText md.uri "uri.unwrapped" &&
    md.sellerFeeBasisPoints = 150 && md.creators = some [{ creator0 with verified := false }] &&
    md.collection = some collection0 && md.uses = some uses0 && md.updateAuthority = splA &&
    md.isMutable) = true := by decide +kernel

def splUpdateSpl : SyncSplT :=
  { uAccount := splU
    source := some (mplOf (uniq 1), mplAcct
      { mpl0 (uniq 1) "Source" "SRC" "uri.source" with
        sellerFeeBasisPoints := 500, creators := some [creator0], primarySaleHappened := true
        editionNonce := some 0, tokenStandard := some .fungible, collection := some collection0
        uses := some ⟨.single, 1, 1⟩, collectionDetails := some (.v1 100) })
    metaplex := some (splX, mplAcct (dest "" "" "")) }

-- test_success_update_from_spl_token_to_spl_token
example : splUpdateSpl.after (fun md =>
    sameText md.name "Source" && sameText md.symbol "SRC" && sameText md.uri "uri.source" &&
    md.sellerFeeBasisPoints = 500 && md.creators = some [{ creator0 with verified := false }] &&
    md.uses = some ⟨.single, 1, 1⟩ && !md.primarySaleHappened && md.isMutable &&
    md.editionNonce = none && md.tokenStandard = none && md.collection = some collection0 &&
    md.collectionDetails = none && md.updateAuthority = splA) = true := by decide +kernel

-- test_success_initialize_from_token2022_to_spl_token
example : SyncSplT.after
    { uAccount := t22U [mdExt (uniq 1) "Unwrapped" "UWT" "uri.unwrapped" [], ptr (some (uniq 1))] }
    (fun md => sameText md.name "Unwrapped" && sameText md.symbol "UWT" &&
      sameText md.uri "uri.unwrapped") = true := by decide +kernel

-- test_success_initialize_from_spl_token_to_spl_token (254 is the toy environment's edition bump)
example : SyncSplT.after { uAccount := splU } (fun md =>
    sameText md.name "Test Token" && sameText md.symbol "TEST" && sameText md.uri "uri" &&
    md.updateAuthority = splA && md.isMutable && !md.primarySaleHappened &&
    md.editionNonce = some 254 && md.tokenStandard = some .fungible && md.collection = none &&
    md.collectionDetails = none) = true := by decide +kernel

def splSparse : SyncSplT :=
  { uAccount := splU
    source := some (mplOf (uniq 1), mplAcct
      { mpl0 (uniq 1) "Sparse Source" "SPARSE" "uri.sparse" with sellerFeeBasisPoints := 100 })
    metaplex := some (splX, mplAcct
      { dest "Old Rich Name" "RICH" "uri.rich" with
        sellerFeeBasisPoints := 999, creators := some [⟨uniq 73, false, 100⟩]
        collection := some ⟨false, uniq 74⟩, uses := some ⟨.burn, 5, 5⟩, primarySaleHappened := true
        editionNonce := some 1 }) }

-- test_success_nulls_fields_on_update
example : splSparse.after (fun md =>
    sameText md.name "Sparse Source" && sameText md.symbol "SPARSE" && sameText md.uri "uri.sparse" &&
    md.sellerFeeBasisPoints = 100 && md.creators = none && md.collection = none && md.uses = none &&
    md.primarySaleHappened && md.isMutable && md.updateAuthority = splA) = true := by decide +kernel

-- test_integration_spl_token_pointer_to_third_party_no_return_fails
example : errW (SyncSplT.result { uAccount := t22U [ptr (some noReturn)]
                                  source := some (noReturn, ⟨0, ownerProg, .bytes []⟩) })
    .externalProgramReturnedNoData = true := by decide +kernel
-- test_integration_spl_token_pointer_to_third_party_success
example : SyncSplT.after { uAccount := t22U [ptr (some (uniq 42))], source := some mock }
    (fun md => sameText md.name "Mock External") = true := by decide +kernel

/-! ## test_instruction.rs -/

open TokenWrapInstruction in
example : (createMint true).pack = [0, 1] ∧ unpack [0, 1] = .ok (createMint true) ∧
    (createMint false).pack = [0, 0] ∧ unpack [0, 0] = .ok (createMint false) := by decide +kernel
open TokenWrapInstruction in
example : (wrap 42).pack = [1, 42, 0, 0, 0, 0, 0, 0, 0] ∧
    unpack [1, 42, 0, 0, 0, 0, 0, 0, 0] = .ok (wrap 42) := by decide +kernel
open TokenWrapInstruction in
example : (unwrap 100).pack = [2, 100, 0, 0, 0, 0, 0, 0, 0] ∧
    unpack [2, 100, 0, 0, 0, 0, 0, 0, 0] = .ok (unwrap 100) := by decide +kernel
open TokenWrapInstruction in
example : unpack (setCanonicalPointer crateId).pack = .ok (setCanonicalPointer crateId) := by
  decide +kernel
open TokenWrapInstruction in
example : [[], [6], [0], [1, 0, 0, 0], [2, 0, 0, 0], [0, 1, 0]].all
    (fun b => match unpack b with | .ok _ => false | .error _ => true) = true := by decide +kernel

end TokenWrap.Conf
