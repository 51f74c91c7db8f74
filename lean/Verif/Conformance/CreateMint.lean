import Verif.Conformance.Common
/-!
# /repo/program/tests/test_create_mint.rs and test_compliance_customizer.rs on the model
-/

namespace TokenWrap.Conf

/-- `CreateMintBuilder`: /repo/program/tests/helpers/create_mint_builder.rs (defaults included). -/
structure CreateT where
  up : Pubkey := splTokenId
  wp : Pubkey := token2022Id
  u : Pubkey := uniq 1
  freeze : Option Pubkey := none
  uAccount : Option Account := none
  wAddr : Option Pubkey := none
  wAccount : Account := { Account.empty with lamports := 100000000 }
  bAddr : Option Pubkey := none
  bAccount : Account := { Account.empty with lamports := 100000000 }
  idempotent : Bool := false

namespace CreateT
variable (b : CreateT)

def W : Pubkey := b.wAddr.getD (wrappedOf b.u b.wp)
def B : Pubkey := b.bAddr.getD (backOf b.W)

def ledger : Ledger := ledgerOf
  [ (b.W, b.wAccount), (b.B, b.bAccount),
    (b.u, b.uAccount.getD (M.account { freeze := b.freeze } b.up)) ]

def ix : Instr := Build.createMint crateId b.W b.B b.u b.wp b.idempotent
def result : Res Ledger := run b.ix b.ledger

/-- The assertions of `test_successful_*` and `test_create_mint_from_extended_mint`. -/
def good (r : Res Ledger) : Bool := okAnd r (fun L =>
  (L b.W).owner = b.wp && ((mintAt L b.W).map (·.mintAuthority)) = some (some (authOf b.W)) &&
  supplyAt L b.W = some 0 && (L b.B).owner = crateId && (L b.B).data = .bytes b.u.bytes)

end CreateT

def ten1 (owner : Pubkey) : Account := ⟨0, owner, .bytes (List.replicate 10 1)⟩

-- test_idempotency_false_with_existing_account
example : err (CreateT.result { wAccount := ten1 systemId }) .accountAlreadyInitialized = true := by
  decide +kernel
example : err (CreateT.result { bAccount := ten1 systemId }) .accountAlreadyInitialized = true := by
  decide +kernel
-- test_idempotency_true_with_existing_valid_account
example : okAnd (CreateT.result
    { idempotent := true, wAccount := ten1 token2022Id, bAccount := ⟨0, crateId, .bytes []⟩ })
    (fun _ => true) = true := by decide +kernel
-- test_idempotency_true_with_existing_invalid_accounts
example : errW (CreateT.result { idempotent := true, wAccount := ten1 (uniq 40) })
    .invalidWrappedMintOwner = true := by decide +kernel
example : errW (CreateT.result
    { idempotent := true, wAccount := ten1 token2022Id, bAccount := ten1 (uniq 40) })
    .invalidBackpointerOwner = true := by decide +kernel
-- test_create_mint_insufficient_funds
example : err (CreateT.result { wAccount := { Account.empty with lamports := env.rentMin 82 - 1 } })
    .accountNotRentExempt = true := by decide +kernel
-- test_create_mint_backpointer_insufficient_funds
example : err (CreateT.result { bAccount := { Account.empty with lamports := env.rentMin 32 - 1 } })
    .accountNotRentExempt = true := by decide +kernel
-- test_improperly_derived_addresses_fail
example : errW (CreateT.result { wAddr := some (uniq 40) }) .wrappedMintMismatch = true := by
  decide +kernel
example : errW (CreateT.result { bAddr := some (uniq 40) }) .backpointerMismatch = true := by
  decide +kernel
example : err (CreateT.result { wp := uniq 40 }) .incorrectProgramId = true := by decide +kernel
-- test_invalid_unwrapped_mint_owner
example : err (CreateT.result
    { uAccount := some ⟨100000000, uniq 40, .bytes (List.replicate 82 0)⟩ }) .invalidAccountOwner
    = true := by decide +kernel

def createOk1 : CreateT := { freeze := some (uniq 50) }
def createOk2 : CreateT := { up := token2022Id, wp := splTokenId, freeze := some (uniq 50) }

-- test_successful_spl_token_to_spl_token_2022
example : createOk1.good createOk1.result = true := by decide +kernel
-- test_successful_spl_token_2022_to_spl_token
example : createOk2.good createOk2.result = true := by decide +kernel

def createExt (e : MintExt) : CreateT :=
  { up := token2022Id, wp := splTokenId, uAccount := some (M.account { exts := [e] } token2022Id) }

-- test_create_mint_from_extended_mint (four cases)
example : (createExt confidential).good (createExt confidential).result = true := by decide +kernel
example : (createExt transferHook).good (createExt transferHook).result = true := by decide +kernel
example : (createExt feeConfig).good (createExt feeConfig).result = true := by decide +kernel
example : (createExt (.mintCloseAuthority (some (uniq 51)))).good
    (createExt (.mintCloseAuthority (some (uniq 51)))).result = true := by decide +kernel

/-- The assertion of `test_mint_customizer_copies_decimals_and_freeze_authority`. -/
def copies (up wp : Pubkey) : Bool :=
  let b : CreateT := { up, wp, freeze := some (uniq 50) }
  okAnd b.result (fun L => ((mintAt L b.W).map (fun m => (m.freezeAuthority, m.decimals))) =
    some (some (uniq 50), 12))

-- test_mint_customizer_copies_decimals_and_freeze_authority (four cases)
example : copies splTokenId splTokenId = true := by decide +kernel
example : copies splTokenId token2022Id = true := by decide +kernel
example : copies token2022Id splTokenId = true := by decide +kernel
example : copies token2022Id token2022Id = true := by decide +kernel

-- test_customizer_applies_all_default_extensions
example : okAnd (CreateT.result {}) (fun L =>
    ((mintAt L (CreateT.W {})).map (·.exts)) =
      some [.confidentialTransferMint none true none,
            .metadataPointer (some (authOf (CreateT.W {}))) (some (CreateT.W {}))]) = true := by
  decide +kernel

-- test_create_mint_with_compliance_customizer (ignored in the repository: the processor must be
-- changed to use that customizer)
example : okAnd (processCreateMint env complianceCustomizer (CreateT.ix {}).accounts false
      (CreateT.ledger {})) (fun L =>
    (L (CreateT.W {})).owner = token2022Id &&
    ((mintAt L (CreateT.W {})).map (fun m => (m.freezeAuthority, m.decimals, m.exts))) =
      some (some complianceFreezeAuthority, 12,
        [.permanentDelegate (some compliancePermanentDelegate),
         .confidentialTransferMint (some complianceConfidentialAuthority) true (some complianceAuditor),
         .defaultAccountState false, .pausable (some compliancePauseAuthority) false])) = true := by
  decide +kernel

end TokenWrap.Conf
