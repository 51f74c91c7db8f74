import Verif.Processor
import Verif.Props.Pda
/-!
# A concrete world, used to show that the hypotheses of the theorems are met

An unwrapped Token-2022 mint with a 1% transfer fee, its wrapped SPL mint, an escrow, a source
account, a recipient.
-/

namespace TokenWrap.Example

/-- Environment with the toy hash of Props/Pda.lean, epoch 5 and a flat rent of 100 lamports. -/
def env : Env where
  cr := toyCrypto
  programId := crateId
  epoch := 5
  rentMin _ := 100
  reject _ _ _ _ := none
  mplReject _ _ _ _ := none
  mplPad s := s
  mplCost _ := 10
  mplExtra _ := (none, none)
  emit _ _ _ := .error 0
  hashOrder l := l
  jsonCreators _ := "c"
  parseCreators _ := none
  jsonCollection _ := "c"
  parseCollection _ := none
  jsonUses _ := "u"
  parseUses _ := none
  jsonKey _ := "k"
  jsonTokenStandard _ := "t"
  jsonCollectionDetails _ := "d"
  jsonProgrammableConfig _ := "p"

/-- unwrapped mint -/
def u : Pubkey := .lit 1
/-- wrapped mint (SPL Token) -/
def W : Pubkey := ((wrappedMintAddress toyCrypto u splTokenId).getD default)
/-- authority -/
def A : Pubkey := ((authorityAddress toyCrypto W).getD default)
/-- escrow -/
def E : Pubkey := ((associatedTokenAddress toyCrypto A u token2022Id).getD default)
/-- backpointer -/
def B : Pubkey := ((backpointerAddress toyCrypto W).getD default)
/-- user's unwrapped account -/
def src : Pubkey := .lit 2
/-- user's wrapped account -/
def rcp : Pubkey := .lit 3
/-- the user -/
def user : Pubkey := .lit 4
/-- the mint authority of the unwrapped mint -/
def issuer : Pubkey := .lit 5

def feeCfg : TransferFeeConfig :=
  { authority := some issuer, withdrawAuthority := some issuer, withheld := 0
    older := ⟨0, 7, 0⟩, newer := ⟨4, 50, 100⟩ }

def uMint (exts : List MintExt) : Mint :=
  { mintAuthority := some issuer, supply := 5000, decimals := 6, freezeAuthority := none, exts }

def acct (mint owner : Pubkey) (amount : Nat) (exts : List AcctExt) : TokenAcct :=
  { mint, owner, amount, delegate := none, delegatedAmount := 0, frozen := false, isNative := none,
    closeAuthority := none, exts, withheld := 0, confidential := 0 }

def wMint (supply : Nat) : Mint :=
  { mintAuthority := some A, supply, decimals := 6, freezeAuthority := none, exts := [] }

/-- The world: mint extensions, escrow balance, escrow extensions, wrapped supply = recipient's
wrapped balance. -/
def world (exts : List MintExt) (escBal : Nat) (escExts : List AcctExt) (supply : Nat) : Ledger :=
  fun k =>
    if k = u then ⟨200, token2022Id, .mint (uMint exts)⟩
    else if k = W then ⟨200, splTokenId, .mint (wMint supply)⟩
    else if k = E then ⟨200, token2022Id, .token (acct u A escBal escExts)⟩
    else if k = src then ⟨200, token2022Id, .token (acct u user 5000 [.transferFeeAmount])⟩
    else if k = rcp then ⟨200, splTokenId, .token (acct W user supply [])⟩
    else if k = B then ⟨200, crateId, .bytes u.bytes⟩
    else Account.empty

def goodExts : List AcctExt := [.immutableOwner, .transferFeeAmount]

/-- A healthy world: 10 tokens escrowed and 10 wrapped tokens. -/
def L0 : Ledger := world [.transferFeeConfig feeCfg] 10 goodExts 10

def wrapAccounts : List Meta :=
  (Build.wrap crateId rcp W A token2022Id splTokenId src u E user [] 1000).accounts

def unwrapAccounts : List Meta :=
  (Build.unwrap crateId E src A u splTokenId token2022Id rcp W user [] 7).accounts

/-- Did it succeed? -/
def ok {α : Type} (r : Res α) : Bool := match r with | .ok _ => true | .error _ => false

/-- Did it fail with this error? -/
def fails {α : Type} (r : Res α) (e : Err) : Bool :=
  match r with | .ok _ => false | .error e' => e' = e

/-- The resulting ledger. -/
def get (r : Res Ledger) : Ledger := match r with | .ok L => L | .error _ => fun _ => Account.empty

theorem get_eq {r : Res Ledger} (h : ok r = true) : r = .ok (get r) := by
  cases r with
  | ok _ => rfl
  | error _ => cases h

example : [u, W, A, E, B, src, rcp, user, issuer].Nodup := by decide +kernel
example : ok (processInstruction env wrapAccounts (TokenWrapInstruction.wrap 1000).pack L0) = true := by
  decide +kernel
example : ok (processInstruction env unwrapAccounts (TokenWrapInstruction.unwrap 7).pack L0) = true := by
  decide +kernel

end TokenWrap.Example
