import Verif.Conformance.Common
/-!
# /repo/program/tests/test_wrap.rs on the model
-/

namespace TokenWrap.Conf

/-- `WrapBuilder`: /repo/program/tests/helpers/wrap_builder.rs:18-281 (defaults included). -/
structure WrapT where
  amount : UInt64 := 500
  up : Pubkey := splTokenId
  wp : Pubkey := token2022Id
  u : Pubkey := uniq 1
  uMint : M := {}
  /-- `TransferAuthority::default()` is the all-zero key -/
  authority : Pubkey := systemId
  signers : List Pubkey := []
  wrappedMint : Option Pubkey := none
  wrappedAuthority : Option Pubkey := none
  escrowAddr : Option Pubkey := none
  escrowOwner : Option Pubkey := none
  escrowAccount : Option Account := none
  escrowExts : Option (List AcctExt) := none
  sourceAmount : Option Nat := none
  sourceNative : Option Nat := none
  sourceExts : List AcctExt := []
  recipientAmount : Nat := 0
  extra : List (Pubkey × Account) := []

namespace WrapT
variable (b : WrapT)

def source : Pubkey := uniq 2
def recipient : Pubkey := uniq 3
def W : Pubkey := b.wrappedMint.getD (wrappedOf b.u b.wp)
def A : Pubkey := b.wrappedAuthority.getD (authOf b.W)
def E : Pubkey := b.escrowAddr.getD (escrowOf b.u b.up b.wp)

def ledger : Ledger := ledgerOf (
  [ (recipient, (T.account { mint := b.W, owner := recipient, amount := b.recipientAmount } b.wp)),
    (b.W, (M.account { authority := some (authOf (wrappedOf b.u b.wp)) } b.wp)),
    (source, (T.account { mint := b.u, owner := b.authority
                          amount := b.sourceAmount.getD b.amount.toNat
                          isNative := b.sourceNative, exts := b.sourceExts } b.up)),
    (b.u, b.uMint.account b.up),
    (b.E, b.escrowAccount.getD (T.account
      { mint := b.u, owner := b.escrowOwner.getD b.A
        exts := b.escrowExts.getD (if b.up = token2022Id then [.immutableOwner] else []) } b.up)),
    (msKey, msAccount b.up) ] ++ b.extra)

def ix : Instr :=
  let i := Build.wrap crateId recipient b.W b.A b.up b.wp source b.u b.E b.authority b.signers b.amount
  { i with accounts := i.accounts ++ b.extra.map (fun p => .rw p.1 false) }

def result : Res Ledger := run b.ix b.ledger

/-- `assert_wrap_result`: test_wrap.rs:89-121. -/
def good (r : Res Ledger) : Bool := okAnd r (fun L =>
  amountAt L b.E = some b.amount.toNat && amountAt L source = some 0 &&
  amountAt L recipient = some (b.recipientAmount + b.amount.toNat) &&
  supplyAt L b.W = some (supply0 + b.amount.toNat))

end WrapT

-- test_zero_amount_wrap
example : errW (WrapT.result { amount := 0 }) .zeroWrapAmount = true := by decide +kernel
-- test_incorrect_wrapped_mint_address
example : errW (WrapT.result { wrappedMint := some (uniq 40) }) .wrappedMintMismatch = true := by
  decide +kernel
-- test_incorrect_wrapped_mint_authority
example : errW (WrapT.result { wrappedAuthority := some (uniq 40) }) .mintAuthorityMismatch = true := by
  decide +kernel
-- test_incorrect_escrow_address
example : errW (WrapT.result { escrowAddr := some (uniq 40) }) .escrowMismatch = true := by
  decide +kernel
-- test_incorrect_escrow_owner
example : errW (WrapT.result { escrowOwner := some (uniq 40) }) .escrowOwnerMismatch = true := by
  decide +kernel
-- test_wrap_amount_exceeds_balance (`ProgramError::Custom(1)` is the token program's)
example : err (WrapT.result { amount := 101, sourceAmount := some 100 }) (.token .insufficientFunds)
    = true := by decide +kernel
-- test_wrap_with_uninitialized_escrow
example : err (WrapT.result
    { escrowAccount := some ⟨100000000, splTokenId, .bytes (List.replicate 165 0)⟩ })
    .uninitializedAccount = true := by decide +kernel

def wrapOk1 : WrapT := { amount := 12555, recipientAmount := 50000 }
def wrapOk2 : WrapT :=
  { up := token2022Id, wp := splTokenId, amount := 7543, recipientAmount := 64532 }
def wrapOk3 : WrapT :=
  { up := token2022Id, wp := token2022Id, amount := 599, recipientAmount := 345 }

-- test_successful_spl_token_wrap
example : wrapOk1.good wrapOk1.result = true := by decide +kernel
-- test_successful_spl_token_2022_to_spl_token_wrap
example : wrapOk2.good wrapOk2.result = true := by decide +kernel
-- test_successful_spl_token_2022_to_token_2022
example : wrapOk3.good wrapOk3.result = true := by decide +kernel

def wrapMs1 : WrapT :=
  { amount := 8000, recipientAmount := 500000, authority := msKey, signers := msSigners }
def wrapMs2 : WrapT :=
  { up := token2022Id, amount := 252, recipientAmount := 10000, authority := msKey
    signers := msSigners }

-- test_wrap_with_spl_token_multisig
example : wrapMs1.good wrapMs1.result = true := by decide +kernel
-- test_wrap_with_token_2022_multisig
example : wrapMs2.good wrapMs2.result = true := by decide +kernel

/-- The counter of `test_transfer_hook` (/repo/program/test-transfer-hook) and what the hook does. -/
def counter : Pubkey := uniq 60
def countHook (L : Ledger) : Ledger :=
  L.set counter { L counter with data := match (L counter).data with
    | .bytes (c :: rest) => .bytes ((c + 1) :: rest) | d => d }
def hookAccounts : List (Pubkey × Account) :=
  [(counter, ⟨100000000, hookProg, .bytes [0]⟩), (hookProg, ⟨1, uniq 99, .bytes []⟩),
   (uniq 61, ⟨100000000, hookProg, .bytes [1, 2, 3]⟩)]

def wrapHook : WrapT :=
  { up := token2022Id, amount := 12555, recipientAmount := 50000, uMint := { exts := [transferHook] }
    sourceExts := [.transferHookAccount], escrowExts := some [.transferHookAccount, .immutableOwner]
    extra := hookAccounts }

-- test_wrap_with_transfer_hook
example : wrapHook.good
    (processWrapHooked env wrapHook.ix.accounts wrapHook.amount countHook wrapHook.ledger) = true := by
  decide +kernel
example : okAnd (processWrapHooked env wrapHook.ix.accounts wrapHook.amount countHook wrapHook.ledger)
    (fun L => (L counter).data = .bytes [1]) = true := by decide +kernel

/-- `spl_token_2022_interface::native_mint::id()` (base58 decoding immaterial here). -/
def wrapNative : WrapT :=
  { up := token2022Id, wp := splTokenId, u := uniq 70, amount := 12555, recipientAmount := 50000
    sourceNative := some 12555 }

-- test_successfully_wraps_native_mint
example : wrapNative.good wrapNative.result = true := by decide +kernel

def wrapFeeT : WrapT :=
  { up := token2022Id, amount := 500000, uMint := { exts := [feeConfig] }
    sourceExts := [.transferFeeAmount], escrowExts := some [.transferFeeAmount, .immutableOwner] }

-- wrap_with_transfer_fee: 1% of 500_000 is 5_000
example : okAnd wrapFeeT.result (fun L =>
    amountAt L WrapT.recipient = some 495000 && amountAt L wrapFeeT.E = some 495000 &&
    withheldAt L wrapFeeT.E = some 5000) = true := by decide +kernel

def wrapConf : WrapT :=
  { up := token2022Id, amount := 12555, recipientAmount := 50000
    uMint := { exts := [confidential] } }

-- test_wrap_with_confidential_transfer_mint
example : wrapConf.good wrapConf.result = true := by decide +kernel

end TokenWrap.Conf
