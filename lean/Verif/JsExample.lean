import Verif.Message
/-!
# The published walk-throughs: /repo/clients/js/src/examples

`single-signer.ts` and `multisig.ts`: create the wrapped mint, create the escrow, create a token account
for the wrapped tokens, wrap, unwrap the same amount back.  Each step is a transaction of its own, built
from what the chain shows at that moment, and the script stops at the first failure (`await`).
Not modelled: the connection, blockhashes, transaction fees, console output.
-/

namespace TokenWrap.Js

/-! ## `createTokenAccount`: /repo/clients/js/src/utilities.ts:35-78 -/

/-- The instructions `createTokenAccount` puts into its transaction. -/
inductive SetupIx
  | /-- `getCreateAccountInstruction` of @solana-program/system -/
    createAccount (payer newAccount : Pubkey) (lamports space : Nat) (owner : Pubkey)
  | /-- `getInitializeAccountInstruction` of @solana-program/token or token-2022 -/
    initializeAccount (prog account mint owner : Pubkey)
deriving DecidableEq, Repr

/-- `SystemInstruction::CreateAccount` (system program; external, trusted): the new account has no
lamports yet; it is allocated, assigned and funded.  Payer and new account both sign. -/
def sysCreateAccount (payer key : Pubkey) (lamports space : Nat) (owner : Pubkey) (L : Ledger) :
    Res Ledger := do
  require ((L key).lamports = 0) (.system 0)
  let L1 ← sysAllocate (fun _ => true) key space L
  let L2 ← sysAssign (fun _ => true) key owner L1
  sysTransfer payer key lamports L2

/-- One of these instructions, executed.  `InitializeAccount` does what `InitializeAccount3` does. -/
def runSetupIx (env : Env) (ix : SetupIx) (L : Ledger) : Res Ledger :=
  match ix with
  | .createAccount payer key lamports space owner => sysCreateAccount payer key lamports space owner L
  | .initializeAccount prog account mint owner =>
    tokenExec env prog (.initializeAccount3 account mint owner []) (fun _ => false) L

/-- The instructions of the transaction, in order. -/
def runSetup (env : Env) : List SetupIx → Ledger → Res Ledger
  | [], L => .ok L
  | ix :: rest, L => do
    let L1 ← runSetupIx env ix L
    runSetup env rest L1

/-- `createTokenAccount` with `getInitializeTokenFn`: /repo/clients/js/src/utilities.ts:35-78.  `key` is
the freshly generated key pair. -/
def createTokenAccount (env : Env) (payer key mint owner tokenProgram : Pubkey) :
    Except ClientErr (List SetupIx) := do
  require (isTokenProgram tokenProgram) .wrongOwner
  pure [.createAccount payer key (env.rentMin 165) 165 tokenProgram,
        .initializeAccount tokenProgram key mint owner]

/-! ## The common part of both scripts -/

/-- Sending the escrow transaction if there is one to send:
/repo/clients/js/src/examples/single-signer.ts:75-93, multisig.ts:101-119. -/
def sendEscrow (env : Env) (r : EscrowResult) (L : Ledger) : Res Ledger :=
  match r with
  | .alreadyExists _ => .ok L
  | .create _ ixs => runClient env ixs L

/-- Everything before the wrap: /repo/clients/js/src/examples/single-signer.ts:39-116,
multisig.ts:65-142.  `owner` owns the new token account. -/
def exampleSetup (env : Env) (payer u wprog owner key : Pubkey) (L : Ledger) : Option Ledger := do
  let ixs ← (jsCreateMint env payer u wprog true L).toOption
  let L1 ← (runClient env ixs L).toOption
  let r ← (createEscrowAccount env payer u wprog L1).toOption
  let L2 ← (sendEscrow env r L1).toOption
  let w ← findWrappedMintPda env.cr u wprog
  let ixs ← (createTokenAccount env payer key w owner wprog).toOption
  (runSetup env ixs L2).toOption

/-! ## /repo/clients/js/src/examples/single-signer.ts -/

/-- The whole script: the ledgers after the wrap and after the unwrap, or `none` if some step fails.
/repo/clients/js/src/examples/single-signer.ts:31-173 (with `wprog` = Token-2022). -/
def singleSignerExample (env : Env) (payer u src wprog : Pubkey) (amount : Int) (key : Pubkey)
    (L : Ledger) : Option (Ledger × Ledger) := do
  let L3 ← exampleSetup env payer u wprog payer key L
  let wr ← (singleSignerWrap env
    { payer, unwrappedTokenAccount := src, wrappedTokenProgram := wprog, amount,
      unwrappedMint := some u, recipient := some key } L3).toOption
  let L4 ← (processInstruction env wr.ix.accounts wr.ix.data L3).toOption
  let ix ← (singleSignerUnwrap env
    { payer, wrappedTokenAccount := key, amount, recipient := src } L4).toOption
  let L5 ← (processInstruction env ix.accounts ix.data L4).toOption
  pure (L4, L5)

/-! ## /repo/clients/js/src/examples/multisig.ts -/

/-- The whole script: `msU` is the multisig owning the unwrapped tokens, `msW` the one that will own the
wrapped tokens, `members` the signers; the payer and each member sign their own copy, and the copies are
combined.  `encode` and `sign` are the message encoding and the signature scheme; `demoted` are the keys
the runtime takes the writable flag from.  /repo/clients/js/src/examples/multisig.ts:57-293. -/
def multisigExample {Sig : Type} (env : Env) (encode : Message → Bytes) (sign : Pubkey → Bytes → Sig)
    (demoted : List Pubkey) (payer u src wprog msU msW : Pubkey) (members : List Pubkey) (amount : Int)
    (key : Pubkey) (L : Ledger) : Option (Ledger × Ledger) := do
  let L3 ← exampleSetup env payer u wprog msW key L
  let w ← findWrappedMintPda env.cr u wprog
  let uprog ← (rpcOwner L3 src).toOption
  let auth ← findWrappedMintAuthorityPda env.cr w
  let groups := members.map (fun k => [k]) ++ [[payer]]
  let msg ← (multisigOfflineSignWrap env
    { payer, unwrappedTokenAccount := src, wrappedTokenProgram := wprog, amount, unwrappedMint := u,
      recipient := key, transferAuthority := ⟨msU, false⟩, wrappedMint := w,
      wrappedMintAuthority := auth, unwrappedTokenProgram := uprog,
      multiSigners := members }).toOption
  let _ ← (combinedMultisigTx (groups.map fun g => signWith sign g (unsigned encode msg))).toOption
  let L4 ← (msg.run env demoted L3).toOption
  let msg2 ← (multisigOfflineSignUnwrap env
    { payer, wrappedTokenProgram := wprog, amount, unwrappedMint := u, wrappedTokenAccount := key,
      recipient := src, transferAuthority := ⟨msW, false⟩, wrappedMint := w,
      wrappedMintAuthority := auth, unwrappedTokenProgram := uprog,
      multiSigners := members }).toOption
  let _ ← (combinedMultisigTx (groups.map fun g => signWith sign g (unsigned encode msg2))).toOption
  let L5 ← (msg2.run env demoted L4).toOption
  pure (L4, L5)

/-! ## The two sync scripts -/

/-- `sync-spl-to-token2022.ts`: /repo/clients/js/src/examples/sync-spl-to-token2022.ts:41-90.  The
Metaplex PDA of the unwrapped mint is passed as `sourceMetadata`, `ownerProgram` is left out. -/
def syncToToken2022Example (env : Env) (u : Pubkey) (L : Ledger) : Option Ledger := do
  let x ← TokenWrap.metaplexPda env.cr u
  let w ← findWrappedMintPda env.cr u token2022Id
  let a ← findWrappedMintAuthorityPda env.cr w
  let ix := sync22Ix crateId w a u none (some x) none
  (processInstruction env ix.accounts ix.data L).toOption

/-- `sync-token2022-to-spl.ts`: /repo/clients/js/src/examples/sync-token2022-to-spl.ts:45-93.  Neither
`sourceMetadata` nor `ownerProgram` is given. -/
def syncToSplExample (env : Env) (u : Pubkey) (L : Ledger) : Option Ledger := do
  let w ← findWrappedMintPda env.cr u splTokenId
  let x ← TokenWrap.metaplexPda env.cr w
  let a ← findWrappedMintAuthorityPda env.cr w
  let ix := syncSplIx crateId x a w u none none none none none
  (processInstruction env ix.accounts ix.data L).toOption

end TokenWrap.Js
