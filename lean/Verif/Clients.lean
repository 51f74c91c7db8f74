import Verif.Processor
import Verif.Ata
/-!
# Model of the clients: /repo/clients/cli/src and /repo/clients/js/src

Only the logic that decides which instructions are sent and with which arguments is modelled: the RPC
node is the ledger the command reads, argument parsing, key files and terminal output are left out.
-/

namespace TokenWrap

/-- An instruction a client puts into its transaction. -/
inductive ClientIx
  | /-- `solana_system_interface::instruction::transfer` -/
    transfer (src dst : Pubkey) (lamports : Nat)
  | /-- an instruction of the Token Wrap program -/
    call (ix : Instr)
  | /-- `create_associated_token_account(payer, wallet, mint, token program)` -/
    createAta (payer wallet mint prog : Pubkey)
deriving DecidableEq, Repr

/-! ## create-mint -/

/-- Account size whose rent the CLI pays: /repo/clients/cli/src/create_mint.rs:124-128. -/
def cliMintSize (wprog : Pubkey) : Res Nat :=
  if wprog = token2022Id then defaultToken2022Customizer.token2022MintSpace else .ok 82

/-- "Fund the account if it doesn't exist or is insufficiently funded":
/repo/clients/cli/src/create_mint.rs:118-147, 149-177.  A missing account has no lamports; Rust's
`saturating_sub` is subtraction of naturals. -/
def cliFund (payer dst : Pubkey) (rent lamports : Nat) : List ClientIx :=
  if 0 < rent - lamports then [.transfer payer dst (rent - lamports)] else []

/-- `command_create_mint`: /repo/clients/cli/src/create_mint.rs:102-209. -/
def cliCreateMint (env : Env) (payer u wprog : Pubkey) (idempotent : Bool) (L : Ledger) :
    Res (List ClientIx) := do
  let w ← okOr (wrappedMintAddress env.cr u wprog) .panicked
  let b ← okOr (backpointerAddress env.cr w) .panicked
  let size ← cliMintSize wprog
  pure (cliFund payer w (env.rentMin size) (L w).lamports ++
    cliFund payer b (env.rentMin 32) (L b).lamports ++
    [.call (Build.createMint crateId w b u wprog idempotent)])

/-- The JS funding test: /repo/clients/js/src/create-mint.ts:75-85, 98-108. -/
def jsFund (payer dst : Pubkey) (rent lamports : Nat) : List ClientIx :=
  if lamports < rent then [.transfer payer dst (rent - lamports)] else []

/-- `getMintSize()` / `getMintSize(DEFAULT_EXTENSIONS)`: /repo/clients/js/src/create-mint.ts:30-43,
64-67.  The size computed by @solana-program/token-2022 for a ConfidentialTransferMint and a
MetadataPointer. -/
def jsMintSize (wprog : Pubkey) : Nat :=
  if wprog = token2022Id then
    mintAccountLen ([MintExt.confidentialTransferMint none true none,
      .metadataPointer none none].map MintExt.valueLen)
  else mintAccountLen []

/-- `createMint`: /repo/clients/js/src/create-mint.ts:46-125. -/
def jsCreateMint (env : Env) (payer u wprog : Pubkey) (idempotent : Bool) (L : Ledger) :
    Res (List ClientIx) := do
  let w ← okOr (wrappedMintAddress env.cr u wprog) .panicked
  let b ← okOr (backpointerAddress env.cr w) .panicked
  pure (jsFund payer w (env.rentMin (jsMintSize wprog)) (L w).lamports ++
    jsFund payer b (env.rentMin 32) (L b).lamports ++
    [.call (Build.createMint crateId w b u wprog idempotent)])

/-! ## Executing a client's transaction -/

/-- One instruction of a client's transaction. -/
def runClientIx (env : Env) (ix : ClientIx) (L : Ledger) : Res Ledger :=
  match ix with
  | .transfer src dst n => sysTransfer src dst n L
  | .call ix => processInstruction env ix.accounts ix.data L
  | .createAta payer wallet mint prog => ataCreatePaid env payer wallet mint prog L

/-- The instructions of a client's transaction, in order. -/
def runClient (env : Env) : List ClientIx → Ledger → Res Ledger
  | [], L => .ok L
  | ix :: rest, L => do
    let L1 ← runClientIx env ix L
    runClient env rest L1

end TokenWrap
