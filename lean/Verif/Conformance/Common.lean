import Verif.World
import Verif.Serde
/-!
# The repository's own tests, run on the model: common part

`Conformance/*.lean` replay the test suite of /repo/program/tests on the model: every `#[test]` is an
`example` (evaluated by the kernel) with the accounts the test builds and the result the test asserts.
They are evidence that the model behaves like the program; they are not claims.

Here: /repo/program/tests/helpers/{common,mint_builder,token_account_builder,extensions}.rs.
-/

namespace TokenWrap.Conf

/-- A toy hash of eight mixed bytes; about half of its values are "on the curve", so that the bump
search has something to do. -/
def crypto : Crypto where
  hash b :=
    let h (m s : UInt8) : UInt8 := b.foldl (fun acc x => acc * m + x) s
    ⟨[h 31 7, h 37 5, h 41 3, h 43 1, h 47 9, h 53 11, h 59 13, h 61 15] ++ List.replicate 24 0, by
      simp⟩
  onCurve k := (k.bytes[3]?.getD 0) % 2 = 1

/-- The program id of `/repo/program/test-metadata-owner` and its account that returns nothing. -/
def ownerProg : Pubkey := .lit 200
def noReturn : Pubkey := .lit 201

/-- `test_metadata_owner`'s `Emit`: /repo/program/test-metadata-owner/src/processor.rs:24-47. -/
def testEmit (prog key : Pubkey) (L : Ledger) : Except Nat (Option (Pubkey × Bytes)) :=
  if prog ≠ ownerProg then .error 0
  else if key = noReturn then .ok none
  else match (L key).data with
    | .mint m => match m.tokenMetadata? with
      | some md => .ok (some (prog, md.borsh))
      | none => .error 1
    | _ => .error 2

/-- Mollusk's environment: epoch 0, default rent, programs that reject nothing further. -/
def env : Env := Serde.serdeEnv
  { cr := crypto, programId := crateId, epoch := 0
    rentMin := fun n => (128 + n) * 6960
    reject := fun _ _ _ _ => none
    mplReject := fun _ _ _ _ => none
    mplPad := fun s => s ++ "\x00\x00"
    mplCost := fun l => 15115600 - l
    mplExtra := fun _ => (some 254, some .fungible)
    emit := testEmit
    hashOrder := List.reverse
    jsonCreators := fun _ => "", parseCreators := fun _ => none
    jsonCollection := fun _ => "", parseCollection := fun _ => none
    jsonUses := fun _ => "", parseUses := fun _ => none
    jsonKey := fun _ => "\"MetadataV1\"", jsonTokenStandard := fun _ => "ts"
    jsonCollectionDetails := fun _ => "cd", jsonProgrammableConfig := fun _ => "pc" }

/-- `Pubkey::new_unique()`: distinct keys. -/
def uniq (n : UInt8) : Pubkey := .lit n

/-- The ledger made of the listed accounts; the first entry of a key counts. -/
def ledgerOf (l : List (Pubkey × Account)) : Ledger := fun k => (l.lookup k).getD Account.empty

/-- `DEFAULT_MINT_SUPPLY`: /repo/program/tests/helpers/common.rs:14. -/
def supply0 : Nat := 500000000

/-- `MintBuilder::build`: /repo/program/tests/helpers/mint_builder.rs:98-145. -/
structure M where
  authority : Option Pubkey := some (uniq 90)
  freeze : Option Pubkey := none
  supply : Nat := supply0
  decimals : UInt8 := 12
  exts : List MintExt := []

def M.mint (m : M) : Mint :=
  { mintAuthority := m.authority, supply := m.supply, decimals := m.decimals
    freezeAuthority := m.freeze, exts := m.exts }

def M.account (m : M) (prog : Pubkey) : Account := ⟨100000000, prog, .mint m.mint⟩

/-- `TokenAccountBuilder::build`: /repo/program/tests/helpers/token_account_builder.rs:117-184. -/
structure T where
  mint : Pubkey
  owner : Pubkey
  amount : Nat := 0
  frozen : Bool := false
  isNative : Option Nat := none
  exts : List AcctExt := []

def T.acct (t : T) : TokenAcct :=
  { mint := t.mint, owner := t.owner, amount := t.amount, delegate := none, delegatedAmount := 0
    frozen := t.frozen, isNative := t.isNative, closeAuthority := none, exts := t.exts, withheld := 0
    confidential := 0 }

def T.account (t : T) (prog : Pubkey) : Account :=
  ⟨2039280 + t.isNative.getD 0, prog, .token t.acct⟩

/-- The extensions of /repo/program/tests/helpers/extensions.rs:58-122. -/
def hookProg : Pubkey := .lit 210
def transferHook : MintExt := .transferHook none (some hookProg)
def fee0 : TransferFee := ⟨0, 50000, 100⟩
def feeConfig : MintExt :=
  .transferFeeConfig ⟨some (uniq 91), some (uniq 92), 0, fee0, fee0⟩
def confidential : MintExt := .confidentialTransferMint none false none

/-- `setup_multisig`: /repo/program/tests/helpers/common.rs:66-109. -/
def msKey : Pubkey := uniq 80
def msSigners : List Pubkey := [uniq 81, uniq 82, uniq 83]
def msAccount (prog : Pubkey) : Account := ⟨100000000, prog, .multisig ⟨2, msSigners⟩⟩

/-- The derived addresses. -/
def wrappedOf (u wp : Pubkey) : Pubkey := (wrappedMintAddress crypto u wp).getD default
def authOf (w : Pubkey) : Pubkey := (authorityAddress crypto w).getD default
def escrowOf (u up wp : Pubkey) : Pubkey := (escrowAddress crypto u up wp).getD default
def backOf (w : Pubkey) : Pubkey := (backpointerAddress crypto w).getD default
def pointerOf (u : Pubkey) : Pubkey := (canonicalPointerAddress crypto u).getD default
def mplOf (m : Pubkey) : Pubkey := (metaplexPda crypto m).getD default

/-! ## Assertions -/

/-- `Check::err`. -/
def err {α : Type} (r : Res α) (e : Err) : Bool :=
  match r with | .ok _ => false | .error e' => e' = e

/-- `Check::err` with an error of this program. -/
def errW {α : Type} (r : Res α) (e : TokenWrapError) : Bool := err r (wrapErr e)

/-- `Check::success`, and the resulting ledger satisfies `p`. -/
def okAnd (r : Res Ledger) (p : Ledger → Bool) : Bool :=
  match r with | .ok L => p L | .error _ => false

def amountAt (L : Ledger) (k : Pubkey) : Option Nat :=
  match (L k).data with | .token t => some t.amount | _ => none

def withheldAt (L : Ledger) (k : Pubkey) : Option Nat :=
  match (L k).data with | .token t => some t.withheld | _ => none

def mintAt (L : Ledger) (k : Pubkey) : Option Mint :=
  match (L k).data with | .mint m => some m | _ => none

def supplyAt (L : Ledger) (k : Pubkey) : Option Nat := (mintAt L k).map (·.supply)

def run (ix : Instr) (L : Ledger) : Res Ledger :=
  processInstruction env ix.accounts ix.data L

end TokenWrap.Conf
