import Verif.Conformance.Common
/-!
# /repo/program/tests/test_set_canonical_pointer.rs on the model
-/

namespace TokenWrap.Conf

/-- `SetCanonicalPointerBuilder`: /repo/program/tests/helpers/set_canonical_pointer_builder.rs. -/
structure PointerT where
  authority : Pubkey := uniq 8
  signer : Bool := true
  u : Pubkey := uniq 1
  uAccount : Option Account := none
  pointer : Option Pubkey := none
  pAccount : Account := { Account.empty with lamports := env.rentMin 32 }
  newProgram : Pubkey := uniq 9

namespace PointerT
variable (b : PointerT)

def P : Pubkey := b.pointer.getD (pointerOf b.u)
def ledger : Ledger := ledgerOf
  [ (b.P, b.pAccount), (b.u, b.uAccount.getD (M.account { authority := some b.authority } splTokenId)) ]
def ix : Instr :=
  let i := Build.setCanonicalPointer crateId b.authority b.P b.u b.newProgram
  if b.signer then i else { i with accounts := (.ro b.authority false) :: i.accounts.tail }
def result : Res Ledger := run b.ix b.ledger
def good (r : Res Ledger) : Bool := okAnd r (fun L =>
  (L b.P).owner = crateId && (L b.P).data = .bytes b.newProgram.bytes)

end PointerT

-- test_fail_missing_authority_signature
example : err (PointerT.result { signer := false }) .missingRequiredSignature = true := by
  decide +kernel
-- test_fail_invalid_mint_owner
example : err (PointerT.result { uAccount := some (M.account { authority := some (uniq 8) } (uniq 40)) })
    .invalidAccountOwner = true := by decide +kernel
-- test_fail_mint_has_no_authority
example : err (PointerT.result { uAccount := some (M.account { authority := none } splTokenId) })
    .invalidAccountData = true := by decide +kernel
-- test_fail_incorrect_authority
example : err (PointerT.result
    { uAccount := some (M.account { authority := some (uniq 40) } splTokenId) })
    .incorrectAuthority = true := by decide +kernel
-- test_fail_incorrect_pointer_address
example : err (PointerT.result { pointer := some (uniq 40), pAccount := Account.empty })
    .invalidArgument = true := by decide +kernel
-- test_fail_insufficient_funds_for_new_pointer
example : err (PointerT.result
    { pAccount := { Account.empty with lamports := env.rentMin 32 - 1 } })
    .accountNotRentExempt = true := by decide +kernel
-- test_success_create_new_pointer
example : PointerT.good {} (PointerT.result {}) = true := by decide +kernel
-- test_success_update_existing_pointer
example : PointerT.good {} (PointerT.result
    { pAccount := ⟨env.rentMin 32, crateId, .bytes (uniq 41).bytes⟩ }) = true := by decide +kernel

end TokenWrap.Conf
