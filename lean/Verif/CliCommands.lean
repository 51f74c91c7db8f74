import Verif.Clients
/-!
# Model of the CLI commands: /repo/clients/cli/src

Modelled: which accounts each command looks up, which arguments it refuses, which instruction it
builds, and which keys sign the transaction.  The RPC node is the ledger read at that moment; the
transaction may be executed on a later, different ledger.  Not modelled: argument parsing, key files,
hardware wallets, blockhashes, printing.
-/

namespace TokenWrap

/-- How a client command can fail before it sends anything. -/
inductive ClientErr
  | accountNotFound | notATokenAccount | notAMint | wrongOwner | argumentMismatch | alreadyExists
  | /-- no bump gives an address, or `Transaction::partial_sign` panics -/ panicked
  | notAllSame | noTransactions | missingSignatures
  | /-- a JS codec refuses a value or runs out of bytes -/ codec
  | insufficientAccounts | unidentified
  | /-- the RPC node refuses the transaction, or it fails -/ refused
deriving DecidableEq, Repr

/-! ## Reading the chain: /repo/clients/cli/src/common.rs -/

/-- `rpc_client.get_account`: an account without lamports does not exist. -/
def rpcAccount (L : Ledger) (k : Pubkey) : Except ClientErr Account :=
  if (L k).lamports = 0 then .error .accountNotFound else .ok (L k)

/-- `get_account_owner`: /repo/clients/cli/src/common.rs:90-93. -/
def rpcOwner (L : Ledger) (k : Pubkey) : Except ClientErr Pubkey := do
  let a ← rpcAccount L k
  pure a.owner

/-- `get_mint_for_token_account`: /repo/clients/cli/src/common.rs:81-88. -/
def rpcTokenMint (L : Ledger) (k : Pubkey) : Except ClientErr Pubkey := do
  let a ← rpcAccount L k
  match a.data with
  | .token t => pure t.mint
  | _ => .error .notATokenAccount

/-- `assert_mint_account`: /repo/clients/cli/src/common.rs:95-117. -/
def rpcAssertMint (L : Ledger) (k : Pubkey) : Except ClientErr Unit := do
  let a ← rpcAccount L k
  require (a.owner = splTokenId || a.owner = token2022Id) .wrongOwner
  match a.data with
  | .mint _ => pure ()
  | _ => .error .notAMint

/-! ## Transactions and signatures -/

/-- A signer handed to `partial_sign`: `real = false` is a `NullSigner`, which leaves an empty
signature for somebody else to fill in.  Simplification: a presigner's signature is valid (otherwise
`partial_sign` panics), so presigners are real signers. -/
structure CliSigner where
  key : Pubkey
  real : Bool
deriving DecidableEq, Repr

/-- The transaction a command sends. -/
structure CliTx where
  payer : Pubkey
  instructions : List ClientIx
  signers : List CliSigner
deriving DecidableEq, Repr

/-- Keys an instruction marks as signers. -/
def ClientIx.signerKeys : ClientIx → List Pubkey
  | .transfer src _ _ => [src]
  | .call ix => (ix.accounts.filter (·.signer)).map (·.key)
  | .createAta payer _ _ _ => [payer]

/-- The required signers of the message compiled by `Transaction::new_with_payer`: the payer and
every key marked as signer by an instruction (as a set). -/
def requiredSigners (payer : Pubkey) (ixs : List ClientIx) : List Pubkey :=
  payer :: ixs.flatMap ClientIx.signerKeys

/-- `Transaction::partial_sign`: panics if a signer is not a required signer of the message. -/
def partialSign (payer : Pubkey) (ixs : List ClientIx) (signers : List CliSigner) :
    Except ClientErr CliTx := do
  require (signers.all fun s => (requiredSigners payer ixs).contains s.key) .panicked
  pure ⟨payer, ixs, signers⟩

/-- Does the transaction carry a signature of `k`?  The last signer given for a key wins. -/
def CliTx.hasSignature (tx : CliTx) (k : Pubkey) : Bool :=
  match tx.signers.reverse.find? (fun s => s.key = k) with
  | some s => s.real
  | none => false

/-- The signer list of `wrap` and `unwrap`: /repo/clients/cli/src/wrap.rs:286-304,
/repo/clients/cli/src/unwrap.rs:244-262. -/
def cliSigners (payer authority : CliSigner) (multisig presigners : List CliSigner) :
    List CliSigner :=
  [payer] ++
    (if payer.key ≠ authority.key ∧ multisig.isEmpty then [authority] else []) ++
    multisig ++ presigners

/-! ## wrap -/

/-- `WrapArgs` and the fee payer: /repo/clients/cli/src/wrap.rs:41-101. -/
structure CliWrapArgs where
  payer : CliSigner
  unwrappedTokenAccount : Pubkey
  wrappedTokenProgram : Pubkey
  amount : UInt64
  unwrappedMint : Option Pubkey := none
  recipient : Option Pubkey := none
  unwrappedTokenProgram : Option Pubkey := none
  transferAuthority : Option CliSigner := none
  multisig : List CliSigner := []
  presigners : List CliSigner := []

/-- `if let Some(x) = arg { x } else { query }`: /repo/clients/cli/src/wrap.rs:182-186, 204-210,
253-257. -/
def orQuery (arg : Option Pubkey) (query : Except ClientErr Pubkey) : Except ClientErr Pubkey :=
  match arg with
  | some x => .ok x
  | none => query

/-- The addresses of a wrap. -/
structure WrapAddrs where
  mint : Pubkey
  wrappedMint : Pubkey
  authority : Pubkey
  recipient : Pubkey
  program : Pubkey
  escrow : Pubkey
deriving DecidableEq, Repr

/-- The part of `command_wrap` that finds the addresses: /repo/clients/cli/src/wrap.rs:182-186, 198-210,
253-263. -/
def cliWrapAddrs (env : Env) (args : CliWrapArgs) (L : Ledger) : Except ClientErr WrapAddrs := do
  let u ← orQuery args.unwrappedMint (rpcTokenMint L args.unwrappedTokenAccount)
  let w ← okOr (wrappedMintAddress env.cr u args.wrappedTokenProgram) .panicked
  let auth ← okOr (authorityAddress env.cr w) .panicked
  let rcp ← orQuery args.recipient
    (okOr (associatedTokenAddress env.cr args.payer.key w args.wrappedTokenProgram) .panicked)
  let uprog ← orQuery args.unwrappedTokenProgram (rpcOwner L args.unwrappedTokenAccount)
  let escrow ← okOr (escrowAddress env.cr u uprog args.wrappedTokenProgram) .panicked
  pure ⟨u, w, auth, rcp, uprog, escrow⟩

/-- The instruction of `command_wrap`: /repo/clients/cli/src/wrap.rs:265-278. -/
def cliWrapIx (args : CliWrapArgs) (a : WrapAddrs) : ClientIx :=
  .call (Build.wrap crateId a.recipient a.wrappedMint a.authority a.program args.wrappedTokenProgram
    args.unwrappedTokenAccount a.mint a.escrow (args.transferAuthority.getD args.payer).key
    (args.multisig.map (·.key)) args.amount)

/-- `command_wrap` up to sending: /repo/clients/cli/src/wrap.rs:174-307. -/
def cliWrap (env : Env) (args : CliWrapArgs) (L : Ledger) : Except ClientErr CliTx := do
  let a ← cliWrapAddrs env args L
  partialSign args.payer.key [cliWrapIx args a]
    (cliSigners args.payer (args.transferAuthority.getD args.payer) args.multisig args.presigners)

/-! ## unwrap -/

/-- `UnwrapArgs` and the fee payer: /repo/clients/cli/src/unwrap.rs:41-102. -/
structure CliUnwrapArgs where
  payer : CliSigner
  wrappedTokenAccount : Pubkey
  recipient : Pubkey
  amount : UInt64
  unwrappedMint : Option Pubkey := none
  wrappedTokenProgram : Option Pubkey := none
  unwrappedTokenProgram : Option Pubkey := none
  transferAuthority : Option CliSigner := none
  multisig : List CliSigner := []
  presigners : List CliSigner := []

/-- "Provided … does not match actual …": /repo/clients/cli/src/unwrap.rs:316-329, 334-346,
351-362. -/
def cliAgree (arg : Option Pubkey) (queried : Pubkey) : Except ClientErr Pubkey :=
  match arg with
  | some a => if a ≠ queried then .error .argumentMismatch else .ok a
  | none => .ok queried

/-- The addresses of an unwrap (`ResolvedAddrs`): /repo/clients/cli/src/unwrap.rs:295-303. -/
structure UnwrapAddrs where
  wrappedProgram : Pubkey
  mint : Pubkey
  program : Pubkey
  wrappedMint : Pubkey
  authority : Pubkey
  escrow : Pubkey
deriving DecidableEq, Repr

/-- `resolve_addresses`: /repo/clients/cli/src/unwrap.rs:306-409. -/
def cliUnwrapAddrs (env : Env) (args : CliUnwrapArgs) (L : Ledger) :
    Except ClientErr UnwrapAddrs := do
  let wprog ← cliAgree args.wrappedTokenProgram (← rpcOwner L args.wrappedTokenAccount)
  let u ← cliAgree args.unwrappedMint (← rpcTokenMint L args.recipient)
  let uprog ← cliAgree args.unwrappedTokenProgram (← rpcOwner L u)
  let w ← okOr (wrappedMintAddress env.cr u wprog) .panicked
  let auth ← okOr (authorityAddress env.cr w) .panicked
  let escrow ← okOr (escrowAddress env.cr u uprog wprog) .panicked
  pure ⟨wprog, u, uprog, w, auth, escrow⟩

/-- The instruction of `command_unwrap`: /repo/clients/cli/src/unwrap.rs:221-234. -/
def cliUnwrapIx (args : CliUnwrapArgs) (a : UnwrapAddrs) : ClientIx :=
  .call (Build.unwrap crateId a.escrow args.recipient a.authority a.mint a.wrappedProgram a.program
    args.wrappedTokenAccount a.wrappedMint (args.transferAuthority.getD args.payer).key
    (args.multisig.map (·.key)) args.amount)

/-- `command_unwrap` up to sending: /repo/clients/cli/src/unwrap.rs:183-265. -/
def cliUnwrap (env : Env) (args : CliUnwrapArgs) (L : Ledger) : Except ClientErr CliTx := do
  let a ← cliUnwrapAddrs env args L
  partialSign args.payer.key [cliUnwrapIx args a]
    (cliSigners args.payer (args.transferAuthority.getD args.payer) args.multisig args.presigners)

/-! ## create-escrow-account, close-stuck-escrow -/

/-- `command_create_escrow_account`: /repo/clients/cli/src/create_escrow_account.rs:88-171.  `none`
means nothing is sent. -/
def cliCreateEscrow (env : Env) (payer : CliSigner) (u wprog : Pubkey) (idempotent : Bool)
    (L : Ledger) : Except ClientErr (Option CliTx) := do
  rpcAssertMint L u
  let uprog ← rpcOwner L u
  let w ← okOr (wrappedMintAddress env.cr u wprog) .panicked
  let auth ← okOr (authorityAddress env.cr w) .panicked
  let escrow ← okOr (escrowAddress env.cr u uprog wprog) .panicked
  match rpcAccount L escrow with
  | .ok _ => if idempotent then pure none else .error .alreadyExists
  | .error _ => do
    let tx ← partialSign payer.key [.createAta payer.key auth u uprog] [payer]
    pure (some tx)

/-- `command_close_stuck_escrow`: /repo/clients/cli/src/close_stuck_escrow.rs:72-136. -/
def cliCloseStuckEscrow (env : Env) (payer : CliSigner) (u destination wprog : Pubkey) (L : Ledger) :
    Except ClientErr CliTx := do
  let uprog ← rpcOwner L u
  require (uprog = token2022Id) .wrongOwner
  let w ← okOr (wrappedMintAddress env.cr u wprog) .panicked
  let auth ← okOr (authorityAddress env.cr w) .panicked
  let escrow ← okOr (escrowAddress env.cr u uprog wprog) .panicked
  partialSign payer.key [.call (Build.closeStuckEscrow crateId escrow destination u w auth)] [payer]

/-! ## sync-metadata-to-token2022, sync-metadata-to-spl-token -/

/-- `resolve_source_metadata_account`:
/repo/clients/cli/src/sync_metadata_to_token2022.rs:163-196. -/
def cliResolveSource (env : Env) (u : Pubkey) (L : Ledger) : Except ClientErr (Option Pubkey) := do
  let a ← rpcAccount L u
  let pda ← okOr (metaplexPda env.cr u) .panicked
  if a.owner = splTokenId then pure (some pda)
  else if a.owner = token2022Id then
    match a.data with
    | .mint m =>
      match m.metadataPointer? with
      | some (_, some addr) => if addr = u then pure none else pure (some addr)
      | some (_, none) => pure (some pda)
      | none => pure (some pda)
    | _ => .error .notAMint
  else .error .wrongOwner

/-- `command_sync_metadata_to_token2022`:
/repo/clients/cli/src/sync_metadata_to_token2022.rs:109-161.  The argument parser refuses a metadata
program without a metadata account (lines 50-52). -/
def cliSync22 (env : Env) (payer : CliSigner) (u : Pubkey) (source program : Option Pubkey)
    (L : Ledger) : Except ClientErr CliTx := do
  require (program.isNone || source.isSome) .argumentMismatch
  let w ← okOr (wrappedMintAddress env.cr u token2022Id) .panicked
  let auth ← okOr (authorityAddress env.cr w) .panicked
  let src ← (match source with
    | some k => pure (some k)
    | none => cliResolveSource env u L)
  partialSign payer.key [.call (Build.syncMetadataToToken2022 crateId w auth u src program)] [payer]

/-- `command_sync_metadata_to_spl_token`:
/repo/clients/cli/src/sync_metadata_to_spl_token.rs:105-154. -/
def cliSyncSpl (env : Env) (payer : CliSigner) (u : Pubkey) (source program : Option Pubkey) :
    Except ClientErr CliTx := do
  let w ← okOr (wrappedMintAddress env.cr u splTokenId) .panicked
  let auth ← okOr (authorityAddress env.cr w) .panicked
  let mpl ← okOr (metaplexPda env.cr w) .panicked
  partialSign payer.key [.call (Build.syncMetadataToSplToken crateId mpl auth w u source program)]
    [payer]

/-! ## find-pdas -/

/-- `PdasOutput`: /repo/clients/cli/src/find_pdas.rs:34-43. -/
structure PdasOutput where
  wrappedMint : Pubkey
  authority : Pubkey
  backpointer : Pubkey
  escrow : Pubkey
deriving DecidableEq, Repr

/-- `command_get_pdas`: /repo/clients/cli/src/find_pdas.rs:79-103. -/
def cliFindPdas (env : Env) (u wprog : Pubkey) (L : Ledger) : Except ClientErr PdasOutput := do
  let w ← okOr (wrappedMintAddress env.cr u wprog) .panicked
  let back ← okOr (backpointerAddress env.cr w) .panicked
  let auth ← okOr (authorityAddress env.cr w) .panicked
  let uprog ← rpcOwner L u
  let escrow ← okOr (escrowAddress env.cr u uprog wprog) .panicked
  pure ⟨w, auth, back, escrow⟩

end TokenWrap
