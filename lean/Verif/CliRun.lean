import Verif.Message
import Verif.Serde
/-!
# Running the CLI: /repo/clients/cli/src (common.rs, config.rs, cli.rs and the `command_*` functions)

`CliCommands.lean` models which transaction a command builds.  Here are whole runs: key pairs, absent
signers and signatures handed in, signing, `--sign-only`, `--dry-run`, sending, and the result that is
printed.

External and trusted, with the behaviour assumed here: Ed25519 and the encoding of messages (`Wire`),
`Transaction::partial_sign` and `new_signed_with_payer`, `return_signers_data`, the RPC node
(`Cluster`, `sendAndConfirm`).

Simplifications: a run reads the chain at one ledger (`Lq`) and sends at another (`Ls`); fees are not
charged; a transaction is not refused as a duplicate; the notices a command prints before it acts,
key files, prompts and hardware wallets are left out.  The
signature slots of a transaction are listed in order of first mention instead of sorted by key (the
payer comes first in both).
-/

namespace TokenWrap

/-! ## Signatures -/

/-- `solana_signature::Signature`: 64 bytes. -/
structure Signature where
  bytes : Bytes
  len : bytes.length = 64

namespace Signature

theorem ext' {a b : Signature} (h : a.bytes = b.bytes) : a = b := by
  cases a; cases b; simp at h; subst h; rfl

instance : DecidableEq Signature := fun a b =>
  decidable_of_iff (a.bytes = b.bytes) ⟨ext', fun h => by rw [h]⟩

instance : Repr Signature := ⟨fun k _ => repr k.bytes⟩

/-- `Signature::default()`: the empty slot. -/
def zero : Signature := ⟨List.replicate 64 0, by simp⟩

/-- `Signature::to_string`. -/
def text (s : Signature) : List Char := Serde.base58 s.bytes

/-- `Signature::from_str`: decode, and insist on 64 bytes. -/
def parse (cs : List Char) : Option Signature := do
  let bs ← Serde.unbase58 cs
  if h : bs.length = 64 then some ⟨bs, h⟩ else none

end Signature

/-- Ed25519 (external) and the bytes of a message with a blockhash (external).  A signature made with a
secret key verifies under its public key; the empty slot never does. -/
structure Wire where
  pub : Bytes → Pubkey
  sign : Bytes → Bytes → Signature
  verify : Pubkey → Bytes → Signature → Bool
  encode : Message → Pubkey → Bytes
  correct : ∀ secret m, verify (pub secret) m (sign secret m) = true
  empty : ∀ k m, verify k m .zero = false

/-- A signer the CLI has got hold of (`Arc<dyn Signer>`): a key pair, the key of somebody who is not
here (`NullSigner`), or a signature handed in (`Presigner`). -/
inductive Signer
  | keypair (secret : Bytes)
  | absent (key : Pubkey)
  | presigned (key : Pubkey) (sig : Signature)
deriving DecidableEq, Repr

/-- `Signer::pubkey`. -/
def Signer.key (w : Wire) : Signer → Pubkey
  | .keypair secret => w.pub secret
  | .absent k => k
  | .presigned k _ => k

/-- `Signer::sign_message`; an absent signer leaves the slot empty. -/
def Signer.signature (w : Wire) (m : Bytes) : Signer → Signature
  | .keypair secret => w.sign secret m
  | .absent _ => .zero
  | .presigned _ s => s

/-- A `Presigner` refuses to "sign" a message its signature is not for. -/
def Signer.usable (w : Wire) (m : Bytes) : Signer → Bool
  | .presigned k s => w.verify k m s
  | _ => true

/-- The signer as `CliCommands.lean` sees it. -/
def Signer.abs (w : Wire) (s : Signer) : CliSigner :=
  ⟨s.key w, match s with | .absent _ => false | _ => true⟩

/-- A transaction with its signature slots. -/
structure SentTx where
  message : Message
  blockhash : Pubkey
  signatures : List (Pubkey × Signature)
deriving DecidableEq, Repr

/-- What the signers leave in the slot of `k`: the last one given for a key wins. -/
def slotOf (w : Wire) (m : Bytes) (signers : List Signer) (k : Pubkey) : Signature :=
  match signers.reverse.find? (fun s => s.key w = k) with
  | some s => s.signature w m
  | none => .zero

/-- `Transaction::new_with_payer`, then `partial_sign` (external): panics if a signer is not a required
signer of the message, or a signature handed in is not for it. -/
def signTx (w : Wire) (msg : Message) (blockhash : Pubkey) (signers : List Signer) :
    Except ClientErr SentTx := do
  let required := requiredSigners msg.payer msg.instructions
  let m := w.encode msg blockhash
  require (signers.all fun s => required.contains (s.key w)) .panicked
  require (signers.all (·.usable w m)) .panicked
  pure ⟨msg, blockhash, required.dedup.map fun k => (k, slotOf w m signers k)⟩

/-- `Transaction::new_signed_with_payer` (external): also panics if a slot stays empty. -/
def signTxFully (w : Wire) (msg : Message) (blockhash : Pubkey) (signers : List Signer) :
    Except ClientErr SentTx := do
  let tx ← signTx w msg blockhash signers
  require (tx.signatures.all fun e => e.2 ≠ .zero) .panicked
  pure tx

/-- Does every slot hold a valid signature? -/
def SentTx.verified (w : Wire) (tx : SentTx) : Bool :=
  tx.signatures.all fun e => w.verify e.1 (w.encode tx.message tx.blockhash) e.2

/-! ## The text of a signature: /repo/clients/cli/src/common.rs:36-46 -/

/-- A `PUBKEY=SIGNATURE` line as `return_signers_data` prints it (solana-cli-output, external). -/
def signerLine (k : Pubkey) (s : Signature) : List Char := Serde.toBase58 k ++ '=' :: s.text

/-- `parse_presigner`: /repo/clients/cli/src/common.rs:36-46.  Splits at the first `=`. -/
def parsePresigner (cs : List Char) : Option (Pubkey × Signature) :=
  match cs.dropWhile (· ≠ '=') with
  | [] => none
  | _ :: rest => do
    let k ← Serde.ofBase58 (cs.takeWhile (· ≠ '='))
    let s ← Signature.parse rest
    pure (k, s)

/-- `parse_token_program` after the address is parsed: /repo/clients/cli/src/common.rs:27-34. -/
def parsedTokenProgram (k : Pubkey) : Bool := k = splTokenId || k = token2022Id

/-- `CliSignOnlyData` (solana-cli-output, external), without the blockhash. -/
structure SignOnlyData where
  message : Bytes
  signers : List (List Char)
  absent : List (List Char)
  badSig : List (List Char)
deriving DecidableEq, Repr

/-- `return_signers_data` (solana-cli-output, external), as called in
/repo/clients/cli/src/wrap.rs:313-320 and unwrap.rs:271-278: a slot with a valid signature is printed
as a line, an empty one as absent, any other as bad. -/
def SentTx.signOnlyData (w : Wire) (tx : SentTx) : SignOnlyData :=
  let m := w.encode tx.message tx.blockhash
  { message := m
    signers := (tx.signatures.filter fun e => w.verify e.1 m e.2).map fun e => signerLine e.1 e.2
    absent := (tx.signatures.filter fun e => !w.verify e.1 m e.2 && e.2 = .zero).map
      fun e => Serde.toBase58 e.1
    badSig := (tx.signatures.filter fun e => !w.verify e.1 m e.2 && e.2 ≠ .zero).map
      fun e => Serde.toBase58 e.1 }

/-! ## The RPC node and the configuration -/

/-- The chain the CLI talks to (external): `latest` is the blockhash it hands out, `live` says which
blockhashes it still accepts. -/
structure Cluster where
  env : Env
  wire : Wire
  demoted : List Pubkey
  latest : Pubkey
  live : Pubkey → Bool

/-- `OutputFormat` (solana-cli-output), named as in /repo/clients/cli/src/output.rs:8-17. -/
inductive OutputFormat
  | display | json | jsonCompact | quiet | verbose
deriving DecidableEq, Repr

/-- The output format of a run: /repo/clients/cli/src/config.rs:61-65. -/
def outputFormat (format : Option OutputFormat) (verbose : Bool) : OutputFormat :=
  match format, verbose with
  | some f, _ => f
  | none, true => .verbose
  | none, false => .display

/-- `Config`: /repo/clients/cli/src/config.rs:16-21.  `Config::new` (lines 24-73) always sets a fee
payer. -/
structure CliConfig where
  payer : Signer
  format : OutputFormat := .display
  dryRun : Bool := false

/-- What `process_transaction` prints: the log of a simulation (here only whether it succeeded) and the
line "Simulation succeeded". -/
inductive Notice
  | simulationLog (succeeded : Bool)
  | simulationSucceeded
deriving DecidableEq, Repr

/-- `println_display`: /repo/clients/cli/src/output.rs:19-26. -/
def CliConfig.prints (cfg : CliConfig) : Bool := cfg.format = .display || cfg.format = .verbose

/-- `simulate_transaction` (external; neither signatures nor the ledger matter to it afterwards): does
the message run? -/
def simulates (c : Cluster) (tx : SentTx) (L : Ledger) : Bool :=
  match tx.message.run c.env c.demoted L with
  | .ok _ => true
  | .error _ => false

/-- `send_and_confirm_transaction_with_spinner` (external): refused unless the blockhash is accepted,
every signature is valid and the message runs. -/
def sendAndConfirm (c : Cluster) (tx : SentTx) (L : Ledger) : Except ClientErr Ledger := do
  require (c.live tx.blockhash && tx.verified c.wire) .refused
  match tx.message.run c.env c.demoted L with
  | .ok L' => pure L'
  | .error _ => .error .refused

/-- What `process_transaction` prints about a simulation: /repo/clients/cli/src/common.rs:53-68.  The
simulation's verdict (`simulation_data.value.err`) is not looked at. -/
def simulationNotices (c : Cluster) (cfg : CliConfig) (tx : SentTx) (L : Ledger) : List Notice :=
  if cfg.format = .verbose then [.simulationLog (simulates c tx L), .simulationSucceeded]
  else if cfg.prints then [.simulationSucceeded] else []

/-- `process_transaction`: /repo/clients/cli/src/common.rs:48-79.  What it prints, what it returns, and
the ledger afterwards. -/
def processTransaction (c : Cluster) (cfg : CliConfig) (tx : SentTx) (L : Ledger) :
    List Notice × Except ClientErr (Option Signature) × Ledger :=
  if cfg.dryRun then
    (simulationNotices c cfg tx L, .ok none, L)
  else
    match sendAndConfirm c tx L with
    | .ok L' => ([], .ok (tx.signatures.head?.map (·.2)), L')
    | .error e => ([], .error e, L)

/-! ## Outputs -/

/-- `WrapOutput`: /repo/clients/cli/src/wrap.rs:106-127. -/
structure WrapOutput where
  unwrappedMint : Pubkey
  wrappedMint : Pubkey
  unwrappedTokenAccount : Pubkey
  recipient : Pubkey
  escrow : Pubkey
  amount : UInt64
  signatures : List Signature
  signOnly : Option SignOnlyData
deriving DecidableEq, Repr

/-- `UnwrapOutput`: /repo/clients/cli/src/unwrap.rs:107-131. -/
structure UnwrapOutput where
  unwrappedTokenProgram : Pubkey
  unwrappedMint : Pubkey
  wrappedMint : Pubkey
  escrow : Pubkey
  wrappedTokenAccount : Pubkey
  recipient : Pubkey
  amount : UInt64
  signatures : List Signature
  signOnly : Option SignOnlyData
deriving DecidableEq, Repr

/-- `CreateMintOutput`: /repo/clients/cli/src/create_mint.rs:46-57. -/
structure CreateMintOutput where
  unwrappedMint : Pubkey
  wrappedMint : Pubkey
  backpointer : Pubkey
  fundedMint : Nat
  fundedBackpointer : Nat
  signature : Option Signature
deriving DecidableEq, Repr

/-- `CreateEscrowAccountOutput`: /repo/clients/cli/src/create_escrow_account.rs:43-55. -/
structure CreateEscrowOutput where
  escrow : Pubkey
  owner : Pubkey
  unwrappedTokenProgram : Pubkey
  signature : Option Signature
deriving DecidableEq, Repr

/-- `CloseStuckEscrowOutput`: /repo/clients/cli/src/close_stuck_escrow.rs:41-49. -/
structure CloseEscrowOutput where
  unwrappedMint : Pubkey
  escrow : Pubkey
  signatures : List Signature
deriving DecidableEq, Repr

/-- `SyncMetadataToToken2022Output`: /repo/clients/cli/src/sync_metadata_to_token2022.rs:58-75. -/
structure Sync22Output where
  unwrappedMint : Pubkey
  wrappedMint : Pubkey
  authority : Pubkey
  source : Option Pubkey
  program : Option Pubkey
  signatures : List Signature
deriving DecidableEq, Repr

/-- `SyncMetadataToSplTokenOutput`: /repo/clients/cli/src/sync_metadata_to_spl_token.rs:48-69. -/
structure SyncSplOutput where
  unwrappedMint : Pubkey
  wrappedMint : Pubkey
  authority : Pubkey
  metaplexMetadata : Pubkey
  source : Option Pubkey
  program : Option Pubkey
  signature : Option Signature
deriving DecidableEq, Repr

/-- What a successful command prints at the end. -/
inductive CliOutput
  | createMint (o : CreateMintOutput)
  | wrap (o : WrapOutput)
  | findPdas (o : PdasOutput)
  | unwrap (o : UnwrapOutput)
  | createEscrow (o : CreateEscrowOutput)
  | closeEscrow (o : CloseEscrowOutput)
  | syncSpl (o : SyncSplOutput)
  | sync22 (o : Sync22Output)
deriving DecidableEq, Repr

/-! ## Commands -/

/-- `WrapArgs`, with the signer sources loaded: /repo/clients/cli/src/wrap.rs:41-101. -/
structure WrapCmd where
  unwrappedTokenAccount : Pubkey
  wrappedTokenProgram : Pubkey
  amount : UInt64
  transferAuthority : Option Signer := none
  unwrappedMint : Option Pubkey := none
  recipient : Option Pubkey := none
  unwrappedTokenProgram : Option Pubkey := none
  multisig : List Signer := []
  blockhash : Option Pubkey := none
  presigners : List (Pubkey × Signature) := []
  signOnly : Bool := false

/-- `UnwrapArgs`, with the signer sources loaded: /repo/clients/cli/src/unwrap.rs:41-102. -/
structure UnwrapCmd where
  wrappedTokenAccount : Pubkey
  recipient : Pubkey
  amount : UInt64
  transferAuthority : Option Signer := none
  unwrappedMint : Option Pubkey := none
  wrappedTokenProgram : Option Pubkey := none
  unwrappedTokenProgram : Option Pubkey := none
  multisig : List Signer := []
  blockhash : Option Pubkey := none
  presigners : List (Pubkey × Signature) := []
  signOnly : Bool := false

/-- `Command`: /repo/clients/cli/src/cli.rs:92-113. -/
inductive Command
  | createMint (unwrappedMint wrappedTokenProgram : Pubkey) (idempotent : Bool)
  | wrap (cmd : WrapCmd)
  | findPdas (unwrappedMint wrappedTokenProgram : Pubkey)
  | unwrap (cmd : UnwrapCmd)
  | createEscrow (unwrappedMint wrappedTokenProgram : Pubkey) (idempotent : Bool)
  | closeEscrow (unwrappedMint destination wrappedTokenProgram : Pubkey)
  | syncSpl (unwrappedMint : Pubkey) (source program : Option Pubkey)
  | sync22 (unwrappedMint : Pubkey) (source program : Option Pubkey)

/-- The arguments of a wrap as `CliCommands.lean` has them. -/
def WrapCmd.args (w : Wire) (payer : Signer) (cmd : WrapCmd) : CliWrapArgs where
  payer := payer.abs w
  unwrappedTokenAccount := cmd.unwrappedTokenAccount
  wrappedTokenProgram := cmd.wrappedTokenProgram
  amount := cmd.amount
  unwrappedMint := cmd.unwrappedMint
  recipient := cmd.recipient
  unwrappedTokenProgram := cmd.unwrappedTokenProgram
  transferAuthority := cmd.transferAuthority.map (·.abs w)
  multisig := cmd.multisig.map (·.abs w)
  presigners := cmd.presigners.map fun e => ⟨e.1, true⟩

/-- The arguments of an unwrap as `CliCommands.lean` has them. -/
def UnwrapCmd.args (w : Wire) (payer : Signer) (cmd : UnwrapCmd) : CliUnwrapArgs where
  payer := payer.abs w
  wrappedTokenAccount := cmd.wrappedTokenAccount
  recipient := cmd.recipient
  amount := cmd.amount
  unwrappedMint := cmd.unwrappedMint
  wrappedTokenProgram := cmd.wrappedTokenProgram
  unwrappedTokenProgram := cmd.unwrappedTokenProgram
  transferAuthority := cmd.transferAuthority.map (·.abs w)
  multisig := cmd.multisig.map (·.abs w)
  presigners := cmd.presigners.map fun e => ⟨e.1, true⟩

/-- The command line parser refuses other token programs (`parse_token_program`) and multisig members
or signatures without a blockhash (`requires`): /repo/clients/cli/src/wrap.rs:47-48, 70-96. -/
def WrapCmd.parses (cmd : WrapCmd) : Bool :=
  parsedTokenProgram cmd.wrappedTokenProgram && cmd.unwrappedTokenProgram.all parsedTokenProgram &&
    (cmd.blockhash.isSome || (cmd.multisig.isEmpty && cmd.presigners.isEmpty))

/-- The same for unwrap: /repo/clients/cli/src/unwrap.rs:66-97. -/
def UnwrapCmd.parses (cmd : UnwrapCmd) : Bool :=
  cmd.wrappedTokenProgram.all parsedTokenProgram && cmd.unwrappedTokenProgram.all parsedTokenProgram &&
    (cmd.blockhash.isSome || (cmd.multisig.isEmpty && cmd.presigners.isEmpty))

/-- The signers a wrap or unwrap brings itself: /repo/clients/cli/src/wrap.rs:286-297,
/repo/clients/cli/src/unwrap.rs:244-255. -/
def ownSigners (w : Wire) (payer authority : Signer) (multisig : List Signer) : List Signer :=
  [payer] ++
    (if payer.key w ≠ authority.key w ∧ multisig.isEmpty then [authority] else []) ++ multisig

/-- The signatures handed in: /repo/clients/cli/src/wrap.rs:299-304,
/repo/clients/cli/src/unwrap.rs:257-262. -/
def presigned (pre : List (Pubkey × Signature)) : List Signer :=
  pre.map fun e => .presigned e.1 e.2

/-- A command ready to be sent: the transaction if there is one, whether it is only signed, and the
output given the signature the node returned. -/
structure Prepared where
  tx : Option SentTx
  signOnly : Bool
  output : Option Signature → CliOutput

/-- `command_wrap` up to sending, and its output: /repo/clients/cli/src/wrap.rs:174-335. -/
def WrapCmd.prepare (c : Cluster) (cfg : CliConfig) (cmd : WrapCmd) (L : Ledger) :
    Except ClientErr Prepared := do
  require cmd.parses .argumentMismatch
  let args := cmd.args c.wire cfg.payer
  let a ← cliWrapAddrs c.env args L
  let tx ← signTx c.wire ⟨args.payer.key, [cliWrapIx args a]⟩ (cmd.blockhash.getD c.latest)
    (ownSigners c.wire cfg.payer (cmd.transferAuthority.getD cfg.payer) cmd.multisig ++
      presigned cmd.presigners)
  pure ⟨some tx, cmd.signOnly, fun _ => .wrap
    { unwrappedMint := a.mint, wrappedMint := a.wrappedMint
      unwrappedTokenAccount := cmd.unwrappedTokenAccount, recipient := a.recipient
      escrow := a.escrow, amount := cmd.amount, signatures := tx.signatures.map (·.2)
      signOnly := if cmd.signOnly then some (tx.signOnlyData c.wire) else none }⟩

/-- `command_unwrap` up to sending, and its output: /repo/clients/cli/src/unwrap.rs:183-293. -/
def UnwrapCmd.prepare (c : Cluster) (cfg : CliConfig) (cmd : UnwrapCmd) (L : Ledger) :
    Except ClientErr Prepared := do
  require cmd.parses .argumentMismatch
  let args := cmd.args c.wire cfg.payer
  let a ← cliUnwrapAddrs c.env args L
  let tx ← signTx c.wire ⟨args.payer.key, [cliUnwrapIx args a]⟩ (cmd.blockhash.getD c.latest)
    (ownSigners c.wire cfg.payer (cmd.transferAuthority.getD cfg.payer) cmd.multisig ++
      presigned cmd.presigners)
  pure ⟨some tx, cmd.signOnly, fun _ => .unwrap
    { unwrappedTokenProgram := a.program, unwrappedMint := a.mint, wrappedMint := a.wrappedMint
      escrow := a.escrow, wrappedTokenAccount := cmd.wrappedTokenAccount
      recipient := cmd.recipient, amount := cmd.amount, signatures := tx.signatures.map (·.2)
      signOnly := if cmd.signOnly then some (tx.signOnlyData c.wire) else none }⟩

/-- `command_create_mint` up to sending, and its output: /repo/clients/cli/src/create_mint.rs:102-208.
Simplification: a size that cannot be computed is reported like a panic. -/
def prepareCreateMint (c : Cluster) (cfg : CliConfig) (u wprog : Pubkey) (idempotent : Bool)
    (L : Ledger) : Except ClientErr Prepared := do
  require (parsedTokenProgram wprog) .argumentMismatch
  let w ← okOr (wrappedMintAddress c.env.cr u wprog) .panicked
  let b ← okOr (backpointerAddress c.env.cr w) .panicked
  let size ← okOr (cliMintSize wprog).toOption .panicked
  let ixs ← okOr (cliCreateMint c.env (cfg.payer.key c.wire) u wprog idempotent L).toOption .panicked
  let tx ← signTxFully c.wire ⟨cfg.payer.key c.wire, ixs⟩ c.latest [cfg.payer]
  pure ⟨some tx, false, fun s => .createMint
    ⟨u, w, b, c.env.rentMin size - (L w).lamports, c.env.rentMin 32 - (L b).lamports, s⟩⟩

/-- `command_create_escrow_account` up to sending, and its output:
/repo/clients/cli/src/create_escrow_account.rs:88-171. -/
def prepareCreateEscrow (c : Cluster) (cfg : CliConfig) (u wprog : Pubkey) (idempotent : Bool)
    (L : Ledger) : Except ClientErr Prepared := do
  require (parsedTokenProgram wprog) .argumentMismatch
  let tx? ← cliCreateEscrow c.env (cfg.payer.abs c.wire) u wprog idempotent L
  let uprog ← rpcOwner L u
  let w ← okOr (wrappedMintAddress c.env.cr u wprog) .panicked
  let auth ← okOr (authorityAddress c.env.cr w) .panicked
  let escrow ← okOr (escrowAddress c.env.cr u uprog wprog) .panicked
  match tx? with
  | none => pure ⟨none, false, fun s => .createEscrow ⟨escrow, auth, uprog, s⟩⟩
  | some t => do
    let tx ← signTxFully c.wire t.message c.latest [cfg.payer]
    pure ⟨some tx, false, fun s => .createEscrow ⟨escrow, auth, uprog, s⟩⟩

/-- `command_close_stuck_escrow` up to sending, and its output:
/repo/clients/cli/src/close_stuck_escrow.rs:72-136. -/
def prepareCloseEscrow (c : Cluster) (cfg : CliConfig) (u destination wprog : Pubkey) (L : Ledger) :
    Except ClientErr Prepared := do
  require (parsedTokenProgram wprog) .argumentMismatch
  let t ← cliCloseStuckEscrow c.env (cfg.payer.abs c.wire) u destination wprog L
  let uprog ← rpcOwner L u
  let escrow ← okOr (escrowAddress c.env.cr u uprog wprog) .panicked
  let tx ← signTxFully c.wire t.message c.latest [cfg.payer]
  pure ⟨some tx, false, fun _ => .closeEscrow ⟨u, escrow, tx.signatures.map (·.2)⟩⟩

/-- `command_sync_metadata_to_spl_token` up to sending, and its output:
/repo/clients/cli/src/sync_metadata_to_spl_token.rs:105-154. -/
def prepareSyncSpl (c : Cluster) (cfg : CliConfig) (u : Pubkey) (source program : Option Pubkey) :
    Except ClientErr Prepared := do
  let t ← cliSyncSpl c.env (cfg.payer.abs c.wire) u source program
  let w ← okOr (wrappedMintAddress c.env.cr u splTokenId) .panicked
  let auth ← okOr (authorityAddress c.env.cr w) .panicked
  let mpl ← okOr (metaplexPda c.env.cr w) .panicked
  let tx ← signTx c.wire t.message c.latest [cfg.payer]
  pure ⟨some tx, false, fun s => .syncSpl ⟨u, w, auth, mpl, source, program, s⟩⟩

/-- The source account of a sync to Token-2022:
/repo/clients/cli/src/sync_metadata_to_token2022.rs:121-125. -/
def cliSource22 (env : Env) (u : Pubkey) (source : Option Pubkey) (L : Ledger) :
    Except ClientErr (Option Pubkey) :=
  match source with
  | some k => pure (some k)
  | none => cliResolveSource env u L

/-- `command_sync_metadata_to_token2022` up to sending, and its output:
/repo/clients/cli/src/sync_metadata_to_token2022.rs:109-161. -/
def prepareSync22 (c : Cluster) (cfg : CliConfig) (u : Pubkey) (source program : Option Pubkey)
    (L : Ledger) : Except ClientErr Prepared := do
  let t ← cliSync22 c.env (cfg.payer.abs c.wire) u source program L
  let w ← okOr (wrappedMintAddress c.env.cr u token2022Id) .panicked
  let auth ← okOr (authorityAddress c.env.cr w) .panicked
  let src ← cliSource22 c.env u source L
  let tx ← signTx c.wire t.message c.latest [cfg.payer]
  pure ⟨some tx, false, fun _ => .sync22 ⟨u, w, auth, src, program, tx.signatures.map (·.2)⟩⟩

/-- `Command::execute` up to sending: /repo/clients/cli/src/cli.rs:115-138. -/
def Command.prepare (c : Cluster) (cfg : CliConfig) (L : Ledger) :
    Command → Except ClientErr Prepared
  | .createMint u wprog idempotent => prepareCreateMint c cfg u wprog idempotent L
  | .wrap cmd => cmd.prepare c cfg L
  | .findPdas u wprog => do
    require (parsedTokenProgram wprog) .argumentMismatch
    let o ← cliFindPdas c.env u wprog L
    pure ⟨none, false, fun _ => .findPdas o⟩
  | .unwrap cmd => cmd.prepare c cfg L
  | .createEscrow u wprog idempotent => prepareCreateEscrow c cfg u wprog idempotent L
  | .closeEscrow u destination wprog => prepareCloseEscrow c cfg u destination wprog L
  | .syncSpl u source program => prepareSyncSpl c cfg u source program
  | .sync22 u source program => prepareSync22 c cfg u source program L

/-- What a run leaves behind: the simulation notices, the result, and the ledger. -/
structure Outcome where
  printed : List Notice
  result : Except ClientErr CliOutput
  ledger : Ledger

/-- Sending what was prepared, at the ledger `L`: `if !args.sign_only` in wrap and unwrap, always in the
other commands that have a transaction. -/
def Prepared.finish (c : Cluster) (cfg : CliConfig) (p : Prepared) (L : Ledger) : Outcome :=
  match p.tx, p.signOnly with
  | some tx, false =>
    match processTransaction c cfg tx L with
    | (notices, .ok s, L') => ⟨notices, .ok (p.output s), L'⟩
    | (notices, .error e, L') => ⟨notices, .error e, L'⟩
  | _, _ => ⟨[], .ok (p.output none), L⟩

/-- A run of the CLI that reads the chain at `Lq` and sends at `Ls`: `main`,
/repo/clients/cli/src/main.rs:22-36. -/
def Command.run (c : Cluster) (cfg : CliConfig) (cmd : Command) (Lq Ls : Ledger) : Outcome :=
  match cmd.prepare c cfg Lq with
  | .ok p => p.finish c cfg Ls
  | .error e => ⟨[], .error e, Ls⟩

end TokenWrap
