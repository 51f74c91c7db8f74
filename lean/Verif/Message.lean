import Verif.JsClient
import Mathlib.Data.List.Dedup
/-!
# Transaction messages

A client does not send instructions but a message.  In a message every key has one signer flag and one
writable flag, for all instructions together; those are the flags the program sees.  This is the
behaviour of `Message::new` / `compileTransaction` and of the runtime's message loader (external,
trusted); the code modelled here is the part of the clients that makes messages:
/repo/clients/cli/src/*.rs (`Transaction::new_with_payer`) and the two multisig functions of
/repo/clients/js/src.  Fees, blockhashes, the transaction size limit and address lookup tables are not
modelled: the ledger a message runs on is the one after the fee was charged.
-/

namespace TokenWrap

/-- The accounts an instruction of a client names: `solana_system_interface::instruction::transfer`,
`create_associated_token_account` (external), or those of the Token Wrap instruction. -/
def ClientIx.metas (cr : Crypto) : ClientIx → List Meta
  | .transfer src dst _ => [.rw src true, .rw dst false]
  | .call ix => ix.accounts
  | .createAta payer wallet mint prog =>
    [.rw payer true] ++ (associatedTokenAddress cr wallet mint prog).toList.map (.rw · false) ++
      [.ro wallet false, .ro mint false, .ro systemId false, .ro prog false]

/-- A message: the fee payer and the instructions. -/
structure Message where
  payer : Pubkey
  instructions : List ClientIx
deriving DecidableEq, Repr

/-- The signer flag of a key in the compiled message: the payer, and whatever some instruction marks as
signer. -/
def Message.isSigner (cr : Crypto) (msg : Message) (k : Pubkey) : Bool :=
  k = msg.payer || msg.instructions.any fun ix => (ix.metas cr).any fun m => m.key = k && m.signer

/-- The writable flag of a key in the loaded message: the payer, and whatever some instruction marks as
writable, except that the runtime takes the flag from some keys (`demoted`: reserved accounts and
invoked programs). -/
def Message.isWritable (cr : Crypto) (demoted : List Pubkey) (msg : Message) (k : Pubkey) : Bool :=
  (k = msg.payer || msg.instructions.any fun ix => (ix.metas cr).any fun m => m.key = k && m.writable) &&
    !demoted.contains k

/-- An account as the program sees it: with the flags of the message. -/
def Message.compileMeta (cr : Crypto) (demoted : List Pubkey) (msg : Message) (m : Meta) : Meta :=
  ⟨m.key, msg.isSigner cr m.key, msg.isWritable cr demoted m.key⟩

/-- An instruction as it is executed. -/
def Message.compileIx (cr : Crypto) (demoted : List Pubkey) (msg : Message) : ClientIx → ClientIx
  | .call ix => .call { ix with accounts := ix.accounts.map (msg.compileMeta cr demoted) }
  | ix => ix

/-- Executing a message: its instructions in order, all or nothing. -/
def Message.run (env : Env) (demoted : List Pubkey) (msg : Message) (L : Ledger) : Res Ledger :=
  runClient env (msg.instructions.map (msg.compileIx env.cr demoted)) L

/-- The message of a CLI command. -/
def CliTx.message (tx : CliTx) : Message := ⟨tx.payer, tx.instructions⟩

namespace Js

/-- `MultiSignerWrapIxBuilderArgs`: /repo/clients/js/src/wrap.ts:21-41. -/
structure MultisigWrapArgs where
  payer : Pubkey
  unwrappedTokenAccount : Pubkey
  wrappedTokenProgram : Pubkey
  amount : Int
  wrappedMint : Pubkey
  wrappedMintAuthority : Pubkey
  transferAuthority : Authority
  unwrappedMint : Pubkey
  recipient : Pubkey
  unwrappedTokenProgram : Pubkey
  multiSigners : List Pubkey

/-- `multisigOfflineSignWrap`: /repo/clients/js/src/wrap.ts:44-55. -/
def multisigOfflineSignWrap (env : Env) (a : MultisigWrapArgs) : Except ClientErr Message := do
  let ix ← buildWrapIx env a.unwrappedTokenAccount a.wrappedTokenProgram a.wrappedMint
    a.wrappedMintAuthority a.unwrappedMint a.recipient a.unwrappedTokenProgram a.transferAuthority
    a.multiSigners a.amount
  pure ⟨a.payer, [.call ix]⟩

/-- `MultiSignerUnWrapTxBuilderArgs`: /repo/clients/js/src/unwrap.ts:81-92, 187-194. -/
structure MultisigUnwrapArgs where
  payer : Pubkey
  wrappedTokenAccount : Pubkey
  amount : Int
  wrappedMint : Pubkey
  wrappedMintAuthority : Pubkey
  unwrappedMint : Pubkey
  recipient : Pubkey
  unwrappedTokenProgram : Pubkey
  wrappedTokenProgram : Pubkey
  transferAuthority : Authority
  multiSigners : List Pubkey

/-- `multisigOfflineSignUnwrap`: /repo/clients/js/src/unwrap.ts:197-208. -/
def multisigOfflineSignUnwrap (env : Env) (a : MultisigUnwrapArgs) : Except ClientErr Message := do
  let ix ← buildUnwrapIx env a.recipient a.wrappedMintAuthority a.unwrappedMint a.wrappedTokenProgram
    a.unwrappedTokenProgram a.wrappedTokenAccount a.wrappedMint a.transferAuthority a.multiSigners
    a.amount
  pure ⟨a.payer, [.call ix]⟩

/-- The unsigned transaction kit compiles from a message: one empty signature slot for every required
signer, each once.  The bytes of the message are those of some injective encoding (`encode`). -/
def unsigned {Sig : Type} (encode : Message → Bytes) (msg : Message) : SignedTx Sig :=
  ⟨encode msg, ((requiredSigners msg.payer msg.instructions).dedup).map (·, none)⟩

/-- Signing with some of the keys: fills the slots of those keys (`partiallySignTransaction...`,
external). -/
def signWith {Sig : Type} (sign : Pubkey → Bytes → Sig) (keys : List Pubkey) (tx : SignedTx Sig) :
    SignedTx Sig :=
  { tx with signatures := tx.signatures.map fun e =>
      if keys.contains e.1 then (e.1, some (sign e.1 tx.messageBytes)) else e }

end Js

end TokenWrap
