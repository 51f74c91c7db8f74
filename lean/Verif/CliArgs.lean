import Verif.CliMain
/-!
# The words of the command line: /repo/clients/cli/src/{common,wrap,unwrap,cli}.rs and the `*Args` structures

`CliMain.lean` runs a command whose arguments are values.  Here the arguments are the words the user typed:
addresses, amounts, blockhashes, `PUBKEY=SIGNATURE` pairs and signer sources.

External, with the behaviour assumed here: `clap` (which word belongs to which argument, `requires`),
`u64::from_str`, `Pubkey::from_str`, `pubkey_from_path`, `signer_from_source_with_config`,
`parse_url_or_moniker`.

Simplifications: a signer source that cannot be parsed is reported like one that cannot be loaded; signers are
loaded before the chain is asked instead of in between (which matters only for the choice among several errors).
-/

namespace TokenWrap
namespace CliArgs

open CliText CliMain

/-- A `Machine` that can also turn words into addresses: `address` is the public key of a key file, a prompt or
a hardware wallet (`pubkey_from_path` for a word that is not an address), `urlOk` is the check of `parse_url`. -/
structure Shell extends Machine where
  address : String → Option Pubkey
  urlOk : String → Bool
  /-- the address of somebody absent is a signer source if absence is allowed (`NullSigner`) -/
  absentKey : ∀ s k, Serde.ofBase58 s.toList = some k → signer s true = some (.absent k)

/-! ## Single words -/

/-- One step of `u64::from_str` (core, external): `checked_mul(10)` and `checked_add`. -/
def pushDigit (acc : Nat) (c : Char) : Option Nat :=
  if c.isDigit then
    let r := acc * 10 + (c.toNat - '0'.toNat)
    if r < 2 ^ 64 then some r else none
  else none

/-- `u64::from_str` (core, external) for `amount`: /repo/clients/cli/src/wrap.rs:50-52, unwrap.rs:49-51.  One
leading `+` is allowed. -/
def parseU64 (cs : List Char) : Option UInt64 :=
  match cs with
  | [] => none
  | ['+'] => none
  | '+' :: ds => (ds.foldlM pushDigit 0).map UInt64.ofNat
  | ds => (ds.foldlM pushDigit 0).map UInt64.ofNat

/-- `parse_pubkey`, `parse_address`: /repo/clients/cli/src/common.rs:17-25.  A word that is an address is that
address, whatever files there are. -/
def parsePubkey (sh : Shell) (s : String) : Except MainErr Pubkey :=
  match Serde.ofBase58 s.toList with
  | some k => .ok k
  | none => okOr (sh.address s) .usage

/-- `parse_token_program`: /repo/clients/cli/src/common.rs:27-34. -/
def parseTokenProgram (sh : Shell) (s : String) : Except MainErr Pubkey := do
  let k ← parsePubkey sh s
  require (parsedTokenProgram k) .usage
  pure k

/-- An optional argument. -/
def parseOpt {α : Type} (parse : String → Except MainErr α) : Option String → Except MainErr (Option α)
  | none => .ok none
  | some s => do
    let a ← parse s
    pure (some a)

/-- `value_parser!(Hash)`: /repo/clients/cli/src/wrap.rs:83-84. -/
def parseHash (s : String) : Except MainErr Pubkey := okOr (Serde.ofBase58 s.toList) .usage

/-- The pairs of `--signer`: /repo/clients/cli/src/wrap.rs:86-95. -/
def parsePresigners (l : List String) : Except MainErr (List (Pubkey × Signature)) :=
  l.mapM fun s => okOr (parsePresigner s.toList) .usage

/-- `normalize_to_url_if_moniker` (solana-clap-v3-utils, external). -/
def ofMoniker (s : String) : String :=
  if s = "m" ∨ s = "mainnet-beta" then "https://api.mainnet-beta.solana.com"
  else if s = "t" ∨ s = "testnet" then "https://api.testnet.solana.com"
  else if s = "d" ∨ s = "devnet" then "https://api.devnet.solana.com"
  else if s = "l" ∨ s = "localhost" then "http://localhost:8899"
  else s

/-- `parse_url_or_moniker` (external) for `--url`: /repo/clients/cli/src/cli.rs:53-60. -/
def parseUrl (sh : Shell) (s : String) : Except MainErr String := do
  require (sh.urlOk (ofMoniker s)) .usage
  pure (ofMoniker s)

/-! ## Commands -/

/-- The words of `WrapArgs`: /repo/clients/cli/src/wrap.rs:41-101. -/
structure WrapWords where
  unwrappedTokenAccount : String
  wrappedTokenProgram : String
  amount : String
  transferAuthority : Option String := none
  unwrappedMint : Option String := none
  recipient : Option String := none
  unwrappedTokenProgram : Option String := none
  multisig : List String := []
  blockhash : Option String := none
  presigners : List String := []
  signOnly : Bool := false

/-- The words of `UnwrapArgs`: /repo/clients/cli/src/unwrap.rs:41-102. -/
structure UnwrapWords where
  wrappedTokenAccount : String
  recipient : String
  amount : String
  transferAuthority : Option String := none
  unwrappedMint : Option String := none
  wrappedTokenProgram : Option String := none
  unwrappedTokenProgram : Option String := none
  multisig : List String := []
  blockhash : Option String := none
  presigners : List String := []
  signOnly : Bool := false

/-- The words of a command: /repo/clients/cli/src/cli.rs:92-113. -/
inductive Words
  | createMint (unwrappedMint wrappedTokenProgram : String) (idempotent : Bool)
  | wrap (w : WrapWords)
  | findPdas (unwrappedMint wrappedTokenProgram : String)
  | unwrap (w : UnwrapWords)
  | createEscrow (unwrappedMint wrappedTokenProgram : String) (idempotent : Bool)
  | closeEscrow (unwrappedMint destination wrappedTokenProgram : String)
  | syncSpl (unwrappedMint : String) (source program : Option String)
  | sync22 (unwrappedMint : String) (source program : Option String)

/-- What `clap` makes of the words of a wrap: everything but the signers. -/
def WrapWords.parse (sh : Shell) (w : WrapWords) : Except MainErr WrapCmd := do
  let acct ← parsePubkey sh w.unwrappedTokenAccount
  let prog ← parseTokenProgram sh w.wrappedTokenProgram
  let amount ← okOr (parseU64 w.amount.toList) .usage
  let mint ← parseOpt (parsePubkey sh) w.unwrappedMint
  let rcp ← parseOpt (parsePubkey sh) w.recipient
  let uprog ← parseOpt (parseTokenProgram sh) w.unwrappedTokenProgram
  let bh ← parseOpt parseHash w.blockhash
  let pre ← parsePresigners w.presigners
  require (w.blockhash.isSome || (w.multisig.isEmpty && w.presigners.isEmpty)) .usage
  pure
    { unwrappedTokenAccount := acct
      wrappedTokenProgram := prog
      amount := amount
      unwrappedMint := mint
      recipient := rcp
      unwrappedTokenProgram := uprog
      blockhash := bh
      presigners := pre
      signOnly := w.signOnly }

/-- What `clap` makes of the words of an unwrap: everything but the signers. -/
def UnwrapWords.parse (sh : Shell) (w : UnwrapWords) : Except MainErr UnwrapCmd := do
  let acct ← parsePubkey sh w.wrappedTokenAccount
  let rcp ← parsePubkey sh w.recipient
  let amount ← okOr (parseU64 w.amount.toList) .usage
  let mint ← parseOpt (parsePubkey sh) w.unwrappedMint
  let prog ← parseOpt (parseTokenProgram sh) w.wrappedTokenProgram
  let uprog ← parseOpt (parseTokenProgram sh) w.unwrappedTokenProgram
  let bh ← parseOpt parseHash w.blockhash
  let pre ← parsePresigners w.presigners
  require (w.blockhash.isSome || (w.multisig.isEmpty && w.presigners.isEmpty)) .usage
  pure
    { wrappedTokenAccount := acct
      recipient := rcp
      amount := amount
      unwrappedMint := mint
      wrappedTokenProgram := prog
      unwrappedTokenProgram := uprog
      blockhash := bh
      presigners := pre
      signOnly := w.signOnly }

/-- What `clap` makes of the words of a command: /repo/clients/cli/src/create_mint.rs:29-41,
find_pdas.rs:21-30, create_escrow_account.rs:26-38, close_stuck_escrow.rs:24-36,
sync_metadata_to_spl_token.rs:28-43, sync_metadata_to_token2022.rs:36-54. -/
def Words.parse (sh : Shell) : Words → Except MainErr Command
  | .createMint u p idem => do
    let u ← parsePubkey sh u
    let p ← parseTokenProgram sh p
    pure (.createMint u p idem)
  | .wrap w => do
    let cmd ← w.parse sh
    pure (.wrap cmd)
  | .findPdas u p => do
    let u ← parsePubkey sh u
    let p ← parseTokenProgram sh p
    pure (.findPdas u p)
  | .unwrap w => do
    let cmd ← w.parse sh
    pure (.unwrap cmd)
  | .createEscrow u p idem => do
    let u ← parsePubkey sh u
    let p ← parseTokenProgram sh p
    pure (.createEscrow u p idem)
  | .closeEscrow u d p => do
    let u ← parsePubkey sh u
    let d ← parsePubkey sh d
    let p ← parseTokenProgram sh p
    pure (.closeEscrow u d p)
  | .syncSpl u s p => do
    let u ← parsePubkey sh u
    let s ← parseOpt (parsePubkey sh) s
    let p ← parseOpt (parsePubkey sh) p
    pure (.syncSpl u s p)
  | .sync22 u s p => do
    let u ← parsePubkey sh u
    let s' ← parseOpt (parsePubkey sh) s
    let p' ← parseOpt (parsePubkey sh) p
    require (p.isNone || s.isSome) .usage
    pure (.sync22 u s' p')

/-- `signer_from_source_with_config` with `allow_null_signer: true`: /repo/clients/cli/src/wrap.rs:209-247,
unwrap.rs:199-213, 378-393. -/
def loadSigner (sh : Shell) (s : String) : Except MainErr Signer := okOr (sh.signer s true) .signer

/-- The signers of a command. -/
def Words.load (sh : Shell) : Words → Command → Except MainErr Command
  | .wrap w, .wrap cmd => do
    let auth ← parseOpt (loadSigner sh) w.transferAuthority
    let ms ← w.multisig.mapM (loadSigner sh)
    pure (.wrap { cmd with transferAuthority := auth, multisig := ms })
  | .unwrap w, .unwrap cmd => do
    let auth ← parseOpt (loadSigner sh) w.transferAuthority
    let ms ← w.multisig.mapM (loadSigner sh)
    pure (.unwrap { cmd with transferAuthority := auth, multisig := ms })
  | _, cmd => pure cmd

/-- The words of a command line up to the command that is run: parsing, the configuration, the signers. -/
def command (sh : Shell) (f : Flags) (w : Words) : Except MainErr (Flags × Command) := do
  let url ← parseOpt (parseUrl sh) f.url
  let cmd ← w.parse sh
  let f := { f with url := url }
  let _ ← configure sh.toMachine f
  let cmd ← w.load sh cmd
  pure (f, cmd)

/-- `main`, from the words: /repo/clients/cli/src/main.rs:22-36. -/
def run (showSignOnly : SignOnlyData → Text) (signOnlyJson : SignOnlyData → Json) (sh : Shell) (f : Flags)
    (w : Words) (Lq Ls : String → Ledger) : MainOutcome :=
  match command sh f w with
  | .error e => ⟨[], .error e, Ls⟩
  | .ok (f', cmd) => CliMain.main showSignOnly signOnlyJson sh.toMachine f' cmd Lq Ls

end CliArgs
end TokenWrap
