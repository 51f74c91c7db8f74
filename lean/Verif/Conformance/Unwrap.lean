import Verif.Conformance.Wrap
/-!
# /repo/program/tests/test_unwrap.rs on the model
-/

namespace TokenWrap.Conf

/-- `UnwrapBuilder`: /repo/program/tests/helpers/unwrap_builder.rs:26-350 (defaults included). -/
structure UnwrapT where
  amount : UInt64 := 500
  up : Pubkey := splTokenId
  wp : Pubkey := token2022Id
  u : Pubkey := uniq 1
  uMint : M := {}
  authority : Pubkey := systemId
  signers : List Pubkey := []
  wrappedMint : Option Pubkey := none
  wrappedAuthority : Option Pubkey := none
  escrow : Option (Pubkey × Account) := none
  escrowAmount : Nat := 100000
  wrappedAmount : Option Nat := none
  recipientAmount : Nat := 0
  recipientOwner : Pubkey := uniq 4
  recipientNative : Option Nat := none
  recipientExts : List AcctExt := []
  escrowExts : List AcctExt := []
  extra : List (Pubkey × Account) := []

namespace UnwrapT
variable (b : UnwrapT)

def source : Pubkey := uniq 2
def recipient : Pubkey := uniq 3
def W : Pubkey := b.wrappedMint.getD (wrappedOf b.u b.wp)
def A : Pubkey := b.wrappedAuthority.getD (authOf b.W)
def E : Pubkey := (b.escrow.map (·.1)).getD (escrowOf b.u b.up b.wp)

def ledger : Ledger := ledgerOf (
  [ (b.E, (b.escrow.map (·.2)).getD (T.account
      { mint := b.u, owner := b.A, amount := b.escrowAmount
        exts := (if b.up = token2022Id then [.immutableOwner] else []) ++ b.escrowExts } b.up)),
    (recipient, (T.account { mint := b.u, owner := b.recipientOwner, amount := b.recipientAmount
                             isNative := b.recipientNative, exts := b.recipientExts } b.up)),
    (b.u, b.uMint.account b.up),
    (source, (T.account { mint := b.W, owner := b.authority
                          amount := b.wrappedAmount.getD b.amount.toNat } b.wp)),
    (b.W, (M.account { authority := some (authOf (wrappedOf b.u b.wp)) } b.wp)),
    (msKey, msAccount b.wp) ] ++ b.extra)

def ix : Instr :=
  let i := Build.unwrap crateId b.E recipient b.A b.u b.wp b.up source b.W b.authority b.signers
    b.amount
  { i with accounts := i.accounts ++ b.extra.map (fun p => .rw p.1 false) }

def result : Res Ledger := run b.ix b.ledger

/-- `assert_unwrap_result`: test_unwrap.rs:90-136. -/
def good (r : Res Ledger) : Bool := okAnd r (fun L =>
  amountAt L source = some (b.wrappedAmount.getD b.amount.toNat - b.amount.toNat) &&
  supplyAt L b.W = some (supply0 - b.amount.toNat) &&
  amountAt L b.E = some (b.escrowAmount - b.amount.toNat) &&
  amountAt L recipient = some (b.recipientAmount + b.amount.toNat))

end UnwrapT

-- test_zero_amount_unwrap
example : errW (UnwrapT.result { amount := 0 }) .zeroWrapAmount = true := by decide +kernel
-- test_incorrect_wrapped_mint_address
example : errW (UnwrapT.result { wrappedMint := some (uniq 40) }) .wrappedMintMismatch = true := by
  decide +kernel
-- test_incorrect_wrapped_mint_authority
example : errW (UnwrapT.result { wrappedAuthority := some (uniq 40) }) .mintAuthorityMismatch = true :=
  by decide +kernel
-- test_incorrect_escrow_address (`KeyedAccount::default()`)
example : errW (UnwrapT.result { escrow := some (systemId, Account.empty) }) .escrowMismatch = true := by
  decide +kernel
-- test_unwrap_amount_exceeds_unwrappers_balance
example : err (UnwrapT.result { wrappedAmount := some 1000, amount := 42000 })
    (.token .insufficientFunds) = true := by decide +kernel

def unwrapOk1 : UnwrapT :=
  { wrappedAmount := some 50000, escrowAmount := 150000, recipientAmount := 50000, amount := 12555 }
def unwrapOk2 : UnwrapT :=
  { up := token2022Id, wp := splTokenId, escrowAmount := 42000, wrappedAmount := some 50000
    recipientAmount := 25000, amount := 40000 }
def unwrapOk3 : UnwrapT :=
  { up := token2022Id, escrowAmount := 100000, wrappedAmount := some 150000, amount := 100000 }

-- test_successful_spl_token_2022_to_spl_token_unwrap
example : unwrapOk1.good unwrapOk1.result = true := by decide +kernel
-- test_successful_spl_token_to_spl_token_2022_unwrap
example : unwrapOk2.good unwrapOk2.result = true := by decide +kernel
-- test_successful_token_2022_to_token_2022_unwrap
example : unwrapOk3.good unwrapOk3.result = true := by decide +kernel

def unwrapMs1 : UnwrapT :=
  { authority := msKey, signers := msSigners, up := token2022Id, wp := splTokenId
    wrappedAmount := some 100000, amount := 100000 }
def unwrapMs2 : UnwrapT :=
  { authority := msKey, signers := msSigners, escrowAmount := 202, wrappedAmount := some 101
    recipientAmount := 101, amount := 101 }

-- test_unwrap_with_spl_token_multisig
example : unwrapMs1.good unwrapMs1.result = true := by decide +kernel
-- test_unwrap_with_spl_token_2022_multisig
example : unwrapMs2.good unwrapMs2.result = true := by decide +kernel

def unwrapHook : UnwrapT :=
  { up := token2022Id, wrappedAmount := some 50000, recipientAmount := 50000
    recipientOwner := systemId, recipientExts := [.transferHookAccount], escrowAmount := 150000
    escrowExts := [.transferHookAccount], amount := 12555, uMint := { exts := [transferHook] }
    extra := hookAccounts }

-- test_unwrap_with_transfer_hook (the hook runs after the transfer, as the last thing Unwrap does)
example : unwrapHook.good (unwrapHook.result.map countHook) = true := by decide +kernel
example : okAnd (unwrapHook.result.map countHook) (fun L => (L counter).data = .bytes [1]) = true := by
  decide +kernel

def unwrapNative : UnwrapT :=
  { up := token2022Id, wp := splTokenId, u := uniq 70, recipientOwner := systemId
    recipientAmount := 25000, recipientNative := some 25000, escrowAmount := 42000
    wrappedAmount := some 50000, amount := 40000 }

-- test_successfully_unwraps_to_native_mint
example : unwrapNative.good unwrapNative.result = true := by decide +kernel

def unwrapFeeT : UnwrapT :=
  { up := token2022Id, amount := 500000, escrowAmount := 500000, uMint := { exts := [feeConfig] }
    escrowExts := [.transferFeeAmount], recipientExts := [.transferFeeAmount] }

-- unwrap_with_transfer_fee
example : okAnd unwrapFeeT.result (fun L =>
    amountAt L UnwrapT.source = some 0 && amountAt L UnwrapT.recipient = some 495000 &&
    withheldAt L UnwrapT.recipient = some 5000 && amountAt L unwrapFeeT.E = some 0) = true := by
  decide +kernel

def unwrapConf : UnwrapT :=
  { up := token2022Id, wp := splTokenId, uMint := { exts := [confidential] }
    wrappedAmount := some 50000, recipientAmount := 25000, amount := 30000 }

-- test_unwrap_with_confidential_transfer_mint
example : unwrapConf.good unwrapConf.result = true := by decide +kernel

end TokenWrap.Conf
