import Verif.CliRun
/-!
# The text the CLI prints: /repo/clients/cli/src/output.rs and the `Display` / `Serialize` implementations

`format_output` (output.rs:28-33) hands the result of a command to `OutputFormat::formatted_string`
(solana-cli-output, external): `display` and `verbose` use `Display`, `quiet` uses `QuietDisplay`, the two
JSON formats use `Serialize`.

Simplifications: colours and bold face are left out (as when the output is not a terminal);
`CliSignOnlyData` is printed by solana-cli-output, so its text and JSON are parameters; JSON is modelled as
a value, its text (serde_json) is external.
-/

namespace TokenWrap
namespace CliText

/-- Text. -/
abbrev Text := List Char

/-- `writeln_name_value(f, name, value)` (solana-cli-output, external) for a value that is not empty. -/
def row (r : String × Text) : Text := r.1.toList ++ ' ' :: (r.2 ++ ['\n'])

/-- "Signers:" and the signatures, one per line (for instance /repo/clients/cli/src/wrap.rs:156-159). -/
def signersText (l : List Signature) : Text :=
  "Signers:".toList ++ '\n' :: l.flatMap fun s => ' ' :: ' ' :: (s.text ++ ['\n'])

/-- A key as text. -/
abbrev keyText (k : Pubkey) : Text := Serde.toBase58 k

/-- A row that is only printed if there is a value. -/
def optRow (name : String) (v : Option Text) : List (String × Text) := (v.map fun t => (name, t)).toList

/-- The rows of each `Display` implementation:
/repo/clients/cli/src/wrap.rs:131-151, unwrap.rs:135-161, find_pdas.rs:46-70, create_mint.rs:60-93,
create_escrow_account.rs:58-79, close_stuck_escrow.rs:53-54, sync_metadata_to_spl_token.rs:72-97,
sync_metadata_to_token2022.rs:78-91. -/
def rows : CliOutput → List (String × Text)
  | .wrap o =>
    [("Unwrapped mint address:", keyText o.unwrappedMint),
     ("Wrapped mint address:", keyText o.wrappedMint),
     ("Unwrapped token account:", keyText o.unwrappedTokenAccount),
     ("Recipient wrapped token account:", keyText o.recipient),
     ("Escrow account:", keyText o.escrow),
     ("Amount:", Serde.nat10 o.amount.toNat)]
  | .unwrap o =>
    [("Unwrapped token program:", keyText o.unwrappedTokenProgram),
     ("Unwrapped mint address:", keyText o.unwrappedMint),
     ("Wrapped mint address:", keyText o.wrappedMint),
     ("Wrapped token account:", keyText o.wrappedTokenAccount),
     ("Escrow account:", keyText o.escrow),
     ("Recipient unwrapped token account:", keyText o.recipient),
     ("Amount unwrapped:", Serde.nat10 o.amount.toNat)]
  | .findPdas o =>
    [("Wrapped mint address:", keyText o.wrappedMint),
     ("Wrapped mint authority:", keyText o.authority),
     ("Wrapped backpointer address:", keyText o.backpointer),
     ("Unwrapped escrow address:", keyText o.escrow)]
  | .createMint o =>
    [("Unwrapped mint address:", keyText o.unwrappedMint),
     ("Wrapped mint address:", keyText o.wrappedMint),
     ("Wrapped backpointer address:", keyText o.backpointer),
     ("Funded wrapped mint lamports:", Serde.nat10 o.fundedMint),
     ("Funded backpointer lamports:", Serde.nat10 o.fundedBackpointer)] ++
      optRow "Signature:" (o.signature.map Signature.text)
  | .createEscrow o =>
    [("Escrow Account Address:", keyText o.escrow),
     ("Escrow Account Owner (wrapped mint authority):", keyText o.owner),
     ("Unwrapped Token Program ID:", keyText o.unwrappedTokenProgram)] ++
      optRow "Signature:" (o.signature.map Signature.text)
  | .closeEscrow o =>
    [("Unwrapped mint:", keyText o.unwrappedMint),
     ("Escrow account:", keyText o.escrow)]
  | .syncSpl o =>
    [("Unwrapped mint:", keyText o.unwrappedMint),
     ("Wrapped mint:", keyText o.wrappedMint),
     ("Wrapped mint authority:", keyText o.authority),
     ("Metaplex metadata account:", keyText o.metaplexMetadata)] ++
      optRow "Source metadata:" (o.source.map keyText) ++
      optRow "Owner program:" (o.program.map keyText) ++
      optRow "Signature:" (o.signature.map Signature.text)
  | .sync22 o =>
    [("Unwrapped mint:", keyText o.unwrappedMint),
     ("Wrapped mint:", keyText o.wrappedMint),
     ("Wrapped mint authority:", keyText o.authority)] ++
      optRow "Source metadata:" (o.source.map keyText) ++
      optRow "Metadata program id:" (o.program.map keyText)

/-- What follows the rows: the signatures, or the data of `--sign-only`
(/repo/clients/cli/src/wrap.rs:153-160, unwrap.rs:163-170, close_stuck_escrow.rs:56-59,
sync_metadata_to_token2022.rs:93-96). -/
def tail (showSignOnly : SignOnlyData → Text) : CliOutput → Text
  | .wrap o => match o.signOnly with
    | some d => showSignOnly d ++ ['\n']
    | none => signersText o.signatures
  | .unwrap o => match o.signOnly with
    | some d => showSignOnly d ++ ['\n']
    | none => signersText o.signatures
  | .closeEscrow o => signersText o.signatures
  | .sync22 o => signersText o.signatures
  | _ => []

/-- `Display`. -/
def display (showSignOnly : SignOnlyData → Text) (o : CliOutput) : Text :=
  (rows o).flatMap row ++ tail showSignOnly o

/-! ## JSON -/

/-- A JSON value. -/
inductive Json
  | null
  | num (n : Nat)
  | str (s : Text)
  | arr (l : List Json)
  | obj (l : List (String × Json))

/-- `#[serde(rename_all = "camelCase")]` on the name of a field. -/
def camelGo : Bool → Text → Text
  | _, [] => []
  | up, c :: cs => if c = '_' then camelGo true cs else (if up then c.toUpper else c) :: camelGo false cs

/-- The JSON name of a field. -/
def camel (s : String) : String := String.ofList (camelGo false s.toList)

/-- `#[serde_as(as = "DisplayFromStr")]` on a key. -/
def keyJson (k : Pubkey) : Json := .str (keyText k)

/-- `#[serde_as(as = "Option<DisplayFromStr>")]`. -/
def optStr (v : Option Text) : Json :=
  match v with
  | none => .null
  | some t => .str t

/-- A plain `Signature` (solana-signature, external): an array of its 64 bytes. -/
def sigJson (s : Signature) : Json := .arr (s.bytes.map fun b => .num b.toNat)

/-- `Vec<Signature>`. -/
def sigsJson (l : List Signature) : Json := .arr (l.map sigJson)

/-- `Option<CliSignOnlyData>`. -/
def signOnlyJson (f : SignOnlyData → Json) : Option SignOnlyData → Json
  | none => .null
  | some d => f d

/-- The fields of each output struct in order, under their Rust names:
/repo/clients/cli/src/wrap.rs:106-127, unwrap.rs:107-131, find_pdas.rs:34-43, create_mint.rs:46-57,
create_escrow_account.rs:43-55, close_stuck_escrow.rs:41-49, sync_metadata_to_spl_token.rs:48-69,
sync_metadata_to_token2022.rs:58-75. -/
def fields (f : SignOnlyData → Json) : CliOutput → List (String × Json)
  | .wrap o =>
    [("unwrapped_mint_address", keyJson o.unwrappedMint),
     ("wrapped_mint_address", keyJson o.wrappedMint),
     ("unwrapped_token_account", keyJson o.unwrappedTokenAccount),
     ("recipient_token_account", keyJson o.recipient),
     ("escrow_account", keyJson o.escrow),
     ("amount", .num o.amount.toNat),
     ("signatures", sigsJson o.signatures),
     ("sign_only_data", signOnlyJson f o.signOnly)]
  | .unwrap o =>
    [("unwrapped_mint_address", keyJson o.unwrappedMint),
     ("unwrapped_token_program", keyJson o.unwrappedTokenProgram),
     ("wrapped_mint_address", keyJson o.wrappedMint),
     ("wrapped_token_account", keyJson o.wrappedTokenAccount),
     ("escrow_account", keyJson o.escrow),
     ("recipient_token_account", keyJson o.recipient),
     ("amount", .num o.amount.toNat),
     ("signatures", sigsJson o.signatures),
     ("sign_only_data", signOnlyJson f o.signOnly)]
  | .findPdas o =>
    [("wrapped_mint_address", keyJson o.wrappedMint),
     ("wrapped_mint_authority", keyJson o.authority),
     ("wrapped_backpointer_address", keyJson o.backpointer),
     ("unwrapped_escrow", keyJson o.escrow)]
  | .createMint o =>
    [("unwrapped_mint_address", keyJson o.unwrappedMint),
     ("wrapped_mint_address", keyJson o.wrappedMint),
     ("wrapped_backpointer_address", keyJson o.backpointer),
     ("funded_wrapped_mint_lamports", .num o.fundedMint),
     ("funded_backpointer_lamports", .num o.fundedBackpointer),
     ("signature", optStr (o.signature.map Signature.text))]
  | .createEscrow o =>
    [("escrow_account_address", keyJson o.escrow),
     ("escrow_account_owner", keyJson o.owner),
     ("unwrapped_token_program_id", keyJson o.unwrappedTokenProgram),
     ("signature", optStr (o.signature.map Signature.text))]
  | .closeEscrow o =>
    [("unwrapped_mint", keyJson o.unwrappedMint),
     ("escrow_account", keyJson o.escrow),
     ("signatures", sigsJson o.signatures)]
  | .syncSpl o =>
    [("unwrapped_mint", keyJson o.unwrappedMint),
     ("wrapped_mint", keyJson o.wrappedMint),
     ("wrapped_mint_authority", keyJson o.authority),
     ("metaplex_metadata", keyJson o.metaplexMetadata),
     ("source_metadata", optStr (o.source.map keyText)),
     ("owner_program", optStr (o.program.map keyText)),
     ("signature", optStr (o.signature.map Signature.text))]
  | .sync22 o =>
    [("unwrapped_mint", keyJson o.unwrappedMint),
     ("wrapped_mint", keyJson o.wrappedMint),
     ("wrapped_mint_authority", keyJson o.authority),
     ("source_metadata", optStr (o.source.map keyText)),
     ("metadata_program_id", optStr (o.program.map keyText)),
     ("signatures", sigsJson o.signatures)]

/-- `Serialize`. -/
def json (f : SignOnlyData → Json) (o : CliOutput) : Json :=
  .obj ((fields f o).map fun p => (camel p.1, p.2))

/-! ## Formats -/

/-- `parse_output_format`: /repo/clients/cli/src/output.rs:8-17; the parser of the command line admits only
these words (/repo/clients/cli/src/cli.rs:82-88). -/
def parseOutputFormat (s : String) : Option OutputFormat :=
  if s = "display" then some .display
  else if s = "json" then some .json
  else if s = "json-compact" then some .jsonCompact
  else if s = "quiet" then some .quiet
  else if s = "verbose" then some .verbose
  else none

/-- What goes to standard output at the end of a run. -/
inductive Printed
  | text (t : Text)
  | json (j : Json)

/-- `format_output` (/repo/clients/cli/src/output.rs:28-33) with `OutputFormat::formatted_string`; the
`QuietDisplay` implementations write nothing (for instance /repo/clients/cli/src/wrap.rs:166-170), the
`VerboseDisplay` ones are the default, `Display`.  `main` adds a newline
(/repo/clients/cli/src/main.rs:33). -/
def formatOutput (showSignOnly : SignOnlyData → Text) (f : SignOnlyData → Json) (fmt : OutputFormat)
    (o : CliOutput) : Printed :=
  match fmt with
  | .display => .text (display showSignOnly o)
  | .verbose => .text (display showSignOnly o)
  | .quiet => .text []
  | .json => .json (json f o)
  | .jsonCompact => .json (json f o)

end CliText
end TokenWrap
