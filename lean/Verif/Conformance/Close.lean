import Verif.Conformance.Common
/-!
# /repo/program/tests/test_stuck_escrow.rs on the model
-/

namespace TokenWrap.Conf

/-- `CloseStuckEscrowBuilder`: /repo/program/tests/helpers/close_stuck_escrow_builder.rs. -/
structure CloseT where
  up : Pubkey := token2022Id
  wp : Pubkey := token2022Id
  u : Pubkey := uniq 1
  uMint : M := {}
  wrappedMint : Option (Pubkey × Account) := none
  wrappedAuthority : Option Pubkey := none
  escrowOwner : Pubkey := token2022Id
  escrowAddr : Option Pubkey := none
  escrowAccount : Option Account := none
  dest : Pubkey := uniq 5

namespace CloseT
variable (b : CloseT)

def W : Pubkey := (b.wrappedMint.map (·.1)).getD (wrappedOf b.u b.wp)
def A : Pubkey := b.wrappedAuthority.getD (authOf b.W)
def E : Pubkey := b.escrowAddr.getD (escrowOf b.u b.up b.wp)

def ledger : Ledger := ledgerOf
  [ (b.E, b.escrowAccount.getD ⟨env.rentMin 165, b.escrowOwner, .bytes (List.replicate 165 0)⟩),
    (b.u, b.uMint.account b.up),
    (b.W, (b.wrappedMint.map (·.2)).getD (M.account {} b.wp)) ]

def ix : Instr := Build.closeStuckEscrow crateId b.E b.dest b.u b.W b.A
def result : Res Ledger := run b.ix b.ledger

/-- An escrow account (of the default unwrapped mint) with the given contents. -/
def esc (owner : Pubkey) (amount : Nat) (frozen : Bool) (exts : List AcctExt) : Option Account :=
  some (T.account { mint := uniq 1, owner, amount, frozen, exts } token2022Id)

end CloseT

/-- The authority PDA the escrow of these tests belongs to. -/
def closeA : Pubkey := authOf (wrappedOf (uniq 1) token2022Id)

-- test_close_stuck_escrow_fails_for_spl_token
example : err (CloseT.result { escrowOwner := splTokenId }) .incorrectProgramId = true := by
  decide +kernel
-- test_close_stuck_escrow_fails_for_spl_token_mint
example : err (CloseT.result { up := splTokenId }) .incorrectProgramId = true := by decide +kernel
-- test_close_stuck_escrow_fails_wrapped_mint_mismatch
example : errW (CloseT.result { wrappedMint := some (uniq 40, ⟨0, token2022Id, .bytes []⟩) })
    .wrappedMintMismatch = true := by decide +kernel
-- test_close_stuck_escrow_fails_wrapped_mint_authority_mismatch
example : errW (CloseT.result { wrappedAuthority := some (uniq 40) }) .mintAuthorityMismatch = true := by
  decide +kernel
-- test_close_stuck_escrow_fails_escrow_mismatch
example : errW (CloseT.result
    { escrowAddr := some (uniq 40), escrowAccount := some ⟨env.rentMin 165, token2022Id, .bytes []⟩ })
    .escrowMismatch = true := by decide +kernel
-- test_close_stuck_escrow_fails_escrow_owner_mismatch
example : errW (CloseT.result { escrowAccount := CloseT.esc (uniq 40) 0 false [] })
    .escrowOwnerMismatch = true := by decide +kernel
-- test_close_stuck_escrow_fails_with_non_zero_balance
example : err (CloseT.result { escrowAccount := CloseT.esc closeA 100 false [] })
    .invalidAccountData = true := by decide +kernel
-- test_close_stuck_escrow_fails_when_in_good_state
example : errW (CloseT.result
    { uMint := { exts := [transferHook] }
      escrowAccount := CloseT.esc closeA 0 false [.immutableOwner, .transferHookAccount] })
    .escrowInGoodState = true := by decide +kernel
-- test_fails_for_ext_requiring_immutable_owner_and_in_good_state
example : errW (CloseT.result
    { uMint := { exts := [.nonTransferable] }
      escrowAccount := CloseT.esc closeA 0 false [.nonTransferableAccount, .immutableOwner] })
    .escrowInGoodState = true := by decide +kernel
-- test_close_stuck_escrow_succeeds: the escrow is closed, its lamports are at the destination
example : okAnd (CloseT.result
    { uMint := { exts := [transferHook] }, escrowAccount := CloseT.esc closeA 0 false [] }) (fun L =>
    L (CloseT.E {}) = Account.empty && (L (uniq 5)).lamports = 2039280) = true := by decide +kernel
-- test_close_stuck_escrow_fails_when_account_frozen
example : err (CloseT.result { escrowAccount := CloseT.esc closeA 0 true [.immutableOwner] })
    .invalidAccountData = true := by decide +kernel

/-! ## test_end_to_end_close_mint_case -/

namespace EndToEnd

def payer : Pubkey := uniq 6
def closeAuthority : Pubkey := uniq 7
def u : Pubkey := uniq 1
def W : Pubkey := wrappedOf u token2022Id
def B : Pubkey := backOf W
def A : Pubkey := authOf W
def E : Pubkey := escrowOf u token2022Id token2022Id
def rcp : Pubkey := (associatedTokenAddress crypto payer W token2022Id).getD default
def src : Pubkey := uniq 2

def start : Ledger := ledgerOf
  [ (payer, ⟨10000000000, systemId, .bytes []⟩),
    (u, M.account { supply := 0, exts := [.mintCloseAuthority (some closeAuthority)] } token2022Id),
    (W, ⟨env.rentMin (mintAccountLen [65, 64]), systemId, .bytes []⟩),
    (B, ⟨env.rentMin 32, systemId, .bytes []⟩),
    (src, T.account { mint := u, owner := payer, amount := 5000, exts := [.transferFeeAmount] }
      token2022Id) ]

def fee : MintExt :=
  .transferFeeConfig ⟨some payer, some payer, 0, ⟨0, 1000000, 100⟩, ⟨0, 1000000, 100⟩⟩

/-- The ten instructions of the chain, in order. -/
def chain : List (Ledger → Res Ledger) :=
  [ run (Build.createMint crateId W B u token2022Id false),
    ataCreate env A u token2022Id,
    tokenExec env token2022Id (.closeAccount u payer closeAuthority []) (fun k => k = closeAuthority),
    fun L => do
      let L1 ← sysAllocate (fun k => k = u) u (mintAccountLen [108]) L
      let L2 ← sysAssign (fun k => k = u) u token2022Id L1
      moveLamports L2 payer u (env.rentMin (mintAccountLen [108])),
    tokenExec env token2022Id (.initMintExt u fee) (fun _ => false),
    tokenExec env token2022Id (.initializeMint2 u payer none 12) (fun _ => false),
    run (Build.closeStuckEscrow crateId E payer u W A),
    ataCreate env A u token2022Id,
    ataCreate env payer W token2022Id,
    run (Build.wrap crateId rcp W A token2022Id token2022Id src u E payer [] 5000) ]

def go (n : Nat) : Res Ledger := (chain.take n).foldlM (fun L f => f L) start

example : chain.length = 10 := rfl
example : okAnd (go 3) (fun L => L u = Account.empty) = true := by decide +kernel
example : okAnd (go 6) (fun L => (mintAt L u).isSome && amountAt L E = some 0) = true := by
  decide +kernel
-- without closing it, the stale escrow makes the wrap impossible
example : (match go 6 with
    | .ok L => match ataCreate env payer W token2022Id L with
      | .ok L => err (run (Build.wrap crateId rcp W A token2022Id token2022Id src u E payer [] 5000) L)
          (.token .invalidState)
      | .error _ => false
    | .error _ => false) = true := by decide +kernel
-- the whole chain succeeds
example : okAnd (go 10) (fun L => amountAt L E = some 4950 && amountAt L rcp = some 4950 &&
    withheldAt L E = some 50) = true := by decide +kernel

end EndToEnd

end TokenWrap.Conf
