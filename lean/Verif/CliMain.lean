import Verif.CliText
/-!
# The CLI from its flags to its output: /repo/clients/cli/src/{main,config,cli}.rs

`main` (main.rs:22-36) parses the command line, builds the configuration, runs the command and prints its
result.  Configuration files, key files and the nodes behind the URLs are those of a `Machine`.

The signers named by the arguments of a command (`--transfer-authority`, `--multisig-signer`) are loaded
already here (`WrapCmd`, `UnwrapCmd`); only the fee payer is not.  `CliArgs.lean` adds their loading and the
parsing of the words of the command line.
-/

namespace TokenWrap
namespace CliMain

open CliText

/-- `solana_cli_config::Config` (external), the two fields that are used. -/
structure Settings where
  url : String
  keypairPath : String
deriving DecidableEq, Repr

/-- The computer the CLI runs on: its configuration files (`solana_cli_config::Config::load`), the default
place of the file (`CONFIG_FILE`, none if there is no home directory), the default settings, the signer
loader of solana-clap-v3-utils (given a source and whether somebody absent will do), and the nodes. -/
structure Machine where
  load : String → Option Settings
  defaultFile : Option String
  defaults : Settings
  signer : String → Bool → Option Signer
  /-- a null signer is only made if allowed -/
  present : ∀ s k, signer s false ≠ some (.absent k)
  /-- what can be loaded without leave can be loaded with it -/
  leave : ∀ s x, signer s false = some x → signer s true = some x
  node : String → Cluster

/-- The global flags of `Cli`: /repo/clients/cli/src/cli.rs:38-91. -/
structure Flags where
  config : Option String := none
  url : Option String := none
  feePayer : Option String := none
  dryRun : Bool := false
  verbose : Bool := false
  output : Option String := none
deriving DecidableEq, Repr

/-- Why a run ends with an error (exit code 1, or 2 for `usage`). -/
inductive MainErr
  | usage
  | configFile
  | feePayer
  | signer
  | command (e : ClientErr)
deriving DecidableEq, Repr

/-- The parser: `--output` takes one of five words and excludes `--verbose`
(/repo/clients/cli/src/cli.rs:77-91). -/
def parseFormat (f : Flags) : Except MainErr (Option OutputFormat) :=
  match f.output with
  | none => .ok none
  | some w =>
    if f.verbose then .error .usage
    else match parseOutputFormat w with
      | none => .error .usage
      | some fmt => .ok (some fmt)

/-- The settings: a file that is named must load; the default file need not
(/repo/clients/cli/src/config.rs:29-36). -/
def settings (m : Machine) (f : Flags) : Except MainErr Settings :=
  match f.config with
  | some file => okOr (m.load file) .configFile
  | none => match m.defaultFile with
    | some file => .ok ((m.load file).getD m.defaults)
    | none => .ok m.defaults

/-- The fee payer: /repo/clients/cli/src/config.rs:43-61. -/
def feePayer (m : Machine) (f : Flags) (s : Settings) : Except MainErr Signer :=
  match f.feePayer with
  | some source => okOr (m.signer source true) .feePayer
  | none => okOr (m.signer s.keypairPath false) .feePayer

/-- `Cli::parse` and `Config::new`: the URL of the node and the rest of the configuration
(/repo/clients/cli/src/config.rs:24-75). -/
def configure (m : Machine) (f : Flags) : Except MainErr (String × CliConfig) := do
  let fmt ← parseFormat f
  let s ← settings m f
  let payer ← feePayer m f s
  pure (f.url.getD s.url, { payer := payer, format := outputFormat fmt f.verbose, dryRun := f.dryRun })

/-- Everything a run leaves behind: what it printed on the way, the printed result or the error, and the
chains. -/
structure MainOutcome where
  notices : List Notice
  result : Except MainErr Printed
  ledgers : String → Ledger

/-- `main`: reads the chains at `Lq` and sends at `Ls`. -/
def main (showSignOnly : SignOnlyData → Text) (signOnlyJson : SignOnlyData → Json) (m : Machine) (f : Flags)
    (cmd : Command) (Lq Ls : String → Ledger) : MainOutcome :=
  match configure m f with
  | .error e => ⟨[], .error e, Ls⟩
  | .ok (url, cfg) =>
    let o := cmd.run (m.node url) cfg (Lq url) (Ls url)
    ⟨o.printed,
     match o.result with
      | .ok out => .ok (formatOutput showSignOnly signOnlyJson cfg.format out)
      | .error e => .error (.command e),
     fun u => if u = url then o.ledger else Ls u⟩

end CliMain
end TokenWrap
