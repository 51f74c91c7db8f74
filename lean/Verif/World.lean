import Verif.Props.Pda
import Verif.Processor
import Verif.Ata
import Verif.Spec
/-!
# Histories: Token Wrap among arbitrary other transactions

`Step` is one top-level (or CPI) instruction executed by anybody: Token Wrap itself with arbitrary
accounts and data, either token program, the system program, the associated-token-account program,
a lamport movement, or any other program on its own accounts.  `History` is any finite sequence.

A Token-2022 transfer hook hands control to a third program in the middle of Wrap; this is modelled
(`processWrapHooked`).  The runtime's rules for lamports are part of the step relation: only its
owner program can debit an account, and an account without lamports may be removed at any time
(`BaseStep.gc`).
-/

namespace TokenWrap

/-! ## Who can sign -/

/-- Addresses for which somebody other than Token Wrap can provide a signature: key pairs, PDAs of
other programs, `create_with_seed` addresses (the runtime refuses seed owners that would imitate a
PDA), and associated token accounts whose wallet signs (`RecoverNested`). -/
inductive CanSign (cr : Crypto) : Pubkey → Prop
  | keypair {k : Pubkey} (h : cr.onCurve k = true) : CanSign cr k
  | pda {k q : Pubkey} (seeds : List Bytes) (hq : q ≠ crateId) (hq' : q ≠ ataProgramId)
      (h : createProgramAddress cr seeds q = some k) : CanSign cr k
  | withSeed {k : Pubkey} (pre : Bytes) (hm : ¬ pdaMarker <:+ pre) (h : cr.hash pre = k) :
      CanSign cr k
  | ata {k wallet mint p : Pubkey} (hw : CanSign cr wallet)
      (h : associatedTokenAddress cr wallet mint p = some k) : CanSign cr k

/-- `k` is derived from `i`, and the only byte strings that hash to it are the derivation's own:
no SHA-256 collision has been found for this address. -/
structure Reserved (cr : Crypto) (i : PdaInput) (k : Pubkey) : Prop where
  address : i.address cr = some k
  only : ∀ x, cr.hash x = k → ∃ bump, x = i.preimage bump

/-! ## One instruction -/

/-- What is executed. -/
inductive Act
  /-- Token Wrap, with any account list and instruction data -/
  | tokenWrap (env : Env) (accounts : List Meta) (data : Bytes)
  /-- a token-program instruction; `signed` are its signers -/
  | token (env : Env) (prog : Pubkey) (ix : TokenIx) (signed : Pubkey → Bool)
  /-- system program: allocate data for an account -/
  | allocate (key : Pubkey) (space : Nat)
  /-- system program: assign an account to a program -/
  | assign (key owner : Pubkey)
  /-- associated-token-account program: create -/
  | createAta (env : Env) (wallet mint prog : Pubkey)
  /-- lamports move -/
  | lamports
  /-- any other program (Metaplex, DeFi programs, ...) -/
  | other (prog : Pubkey)
  /-- the runtime removes an account without lamports -/
  | gc (key : Pubkey)

/-- The keys that sign `act`.  For Token Wrap also every authority PDA, because the program may sign
for one of them in its CPIs. -/
def Act.Signer (cr : Crypto) : Act → Pubkey → Prop
  | .tokenWrap _ accounts _, k => Signs accounts k ∨ ∃ w, authorityAddress cr w = some k
  | .token _ _ _ signed, k => signed k = true
  | _, _ => False

/-- `act` is not approved by a permanent delegate of the mint `u`: `u` has none, or that key does not
approve. -/
def PDIdle (cr : Crypto) (u : Pubkey) (act : Act) (L : Ledger) : Prop :=
  ∀ m pd, (L u).data = .mint m → m.permanentDelegate? = some pd → ¬ ApprovesBy L (act.Signer cr) pd

/-- Raw, zeroed data: the only state in which an account may change its owner program. -/
def Zeroed (d : Data) : Prop := ∃ b : Bytes, d = .bytes b ∧ b.all (· = 0) = true

/-- An instruction of another program takes ledger `L` to `L'`. -/
inductive BaseStep (cr : Crypto) : Act → Ledger → Ledger → Prop
  | token {env : Env} {prog : Pubkey} {ix : TokenIx} {signed : Pubkey → Bool} {L L' : Ledger}
      (hp : isTokenProgram prog = true) (hs : ∀ k, signed k = true → CanSign cr k)
      (h : tokenExec env prog ix signed L = .ok L') (hr : ∀ n, 0 < env.rentMin n) :
      BaseStep cr (.token env prog ix signed) L L'
  | allocate {key : Pubkey} {space : Nat} {L L' : Ledger} (hs : CanSign cr key)
      (h : sysAllocate (fun k => k = key) key space L = .ok L') :
      BaseStep cr (.allocate key space) L L'
  | assign {key owner : Pubkey} {L L' : Ledger} (hs : CanSign cr key)
      (hz : Zeroed (L key).data)
      (h : sysAssign (fun k => k = key) key owner L = .ok L') :
      BaseStep cr (.assign key owner) L L'
  /-- the ATA program; `fit` records that lamports are 64-bit numbers on chain -/
  | createAta {env : Env} {wallet mint prog : Pubkey} {L L' : Ledger} (hcr : env.cr = cr)
      (fit : env.rentMin (ataLen prog mint L) ≤ u64Max ∧ ∀ k, (L k).lamports ≤ u64Max)
      (h : ataCreate env wallet mint prog L = .ok L') (hr : ∀ n, 0 < env.rentMin n) :
      BaseStep cr (.createAta env wallet mint prog) L L'
  /-- fees and system-program transfers: debits need a system-owned account that signs -/
  | lamports {L L' : Ledger} (h : ∀ k, (L' k).owner = (L k).owner ∧ (L' k).data = (L k).data)
      (hl : ∀ k, (L' k).lamports < (L k).lamports → (L k).owner = systemId ∧ CanSign cr k) :
      BaseStep cr .lamports L L'
  | other {prog : Pubkey} {L L' : Ledger} (hp : isTokenProgram prog = false)
      (hc : prog ≠ crateId) (hsys : prog ≠ systemId)
      (hframe : ∀ k, (L k).owner ≠ prog → (L' k).owner = (L k).owner ∧ (L' k).data = (L k).data)
      (hown : ∀ k, (L k).owner = prog → (L' k).owner = prog ∨ Zeroed (L' k).data)
      (hl : ∀ k, (L k).owner ≠ prog → (L k).lamports ≤ (L' k).lamports) :
      BaseStep cr (.other prog) L L'
  | gc {key : Pubkey} {L : Ledger} (h : (L key).lamports = 0) :
      BaseStep cr (.gc key) L (L.set key Account.empty)

/-- Any number of instructions of other programs, each satisfying `ok` with the state it starts from. -/
inductive Run (cr : Crypto) (ok : Act → Ledger → Prop) : Ledger → Ledger → Prop
  | refl {L : Ledger} : Run cr ok L L
  | step {act : Act} {L L1 L2 : Ledger} (hok : ok act L) (h : BaseStep cr act L L1)
      (hr : Run cr ok L1 L2) : Run cr ok L L2

/-- `process_wrap` (/repo/program/src/processor.rs:203-317) when the unwrapped mint has a transfer
hook: `hook` is what the hook program does to the ledger at the end of the transfer CPI, before
`process_wrap` mints (lines 295-311).  `processWrap` is the case of no hook
(`processWrapHooked_id`).  The other instructions either run no hook or run it last (Unwrap), which
is covered by letting the hook's instructions follow as separate steps. -/
def processWrapHooked (env : Env) (accounts : List Meta) (amount : UInt64)
    (hook : Ledger → Ledger) (L : Ledger) : Res Ledger := do
  require (amount ≠ 0) (wrapErr .zeroWrapAmount)
  let a ← parseWrap accounts
  let expectedMint ← okOr
    (wrappedMintAddress env.cr a.unwrappedMint.key a.wrappedTokenProgram.key) .panicked
  require (expectedMint = a.wrappedMint.key) (wrapErr .wrappedMintMismatch)
  let (expectedAuthority, bump) ← okOr (authorityWithSeed env.cr a.wrappedMint.key) .panicked
  require (a.authority.key = expectedAuthority) (wrapErr .mintAuthorityMismatch)
  let expectedEscrow ← okOr (associatedTokenAddress env.cr a.authority.key a.unwrappedMint.key
    a.unwrappedTokenProgram.key) .panicked
  require (a.escrow.key = expectedEscrow) (wrapErr .escrowMismatch)
  let escrow ← unpackToken (L a.escrow.key).data
  require (escrow.owner = expectedAuthority) (wrapErr .escrowOwnerMismatch)
  let m ← unpackMint (L a.unwrappedMint.key).data
  let fee := wrapFee env m amount.toNat
  require (fee ≤ amount.toNat) .arithmeticOverflow
  let net := amount.toNat - fee
  let L1 ← wrapTransfer env accounts a m amount.toNat fee L
  let pda ← signerPda env (authoritySignerSeeds a.wrappedMint.key bump)
  invokeToken env accounts [pda] [a.unwrappedMint.key] a.wrappedTokenProgram.key
    (.mintTo a.wrappedMint.key a.recipient.key a.authority.key [] net) (hook L1)

theorem processWrapHooked_id (env : Env) (accounts : List Meta) (amount : UInt64) (L : Ledger) :
    processWrapHooked env accounts amount id L = processWrap env accounts amount L := rfl

/-- `act` takes ledger `L` to `L'`. -/
inductive Step (cr : Crypto) (ok : Act → Ledger → Prop) : Act → Ledger → Ledger → Prop
  | base {act : Act} {L L' : Ledger} (h : BaseStep cr act L L') : Step cr ok act L L'
  | tokenWrap {env : Env} {accounts : List Meta} {data : Bytes} {L L' : Ledger}
      (hcr : env.cr = cr) (hid : env.programId = crateId)
      (hs : ∀ k, Signs accounts k → CanSign cr k)
      (h : processInstruction env accounts data L = .ok L') (hr : ∀ n, 0 < env.rentMin n) :
      Step cr ok (.tokenWrap env accounts data) L L'
  /-- Wrap with a transfer hook running other programs' instructions in between -/
  | wrapHooked {env : Env} {accounts : List Meta} {amount : UInt64} {hook : Ledger → Ledger}
      {L L' : Ledger} (hcr : env.cr = cr) (hid : env.programId = crateId)
      (hs : ∀ k, Signs accounts k → CanSign cr k)
      (hhook : ∀ L1, Run cr ok L1 (hook L1))
      (h : processWrapHooked env accounts amount hook L = .ok L') (hr : ∀ n, 0 < env.rentMin n) :
      Step cr ok (.tokenWrap env accounts (TokenWrapInstruction.wrap amount).pack) L L'

/-- A finite history from `L0` to `L`; `trace` lists the actions, latest first; `ok` holds of every
action and the state in which it starts. -/
inductive History (cr : Crypto) (ok : Act → Ledger → Prop) (L0 : Ledger) : List Act → Ledger → Prop
  | start : History cr ok L0 [] L0
  | step {trace : List Act} {act : Act} {L L' : Ledger} (h : History cr ok L0 trace L) (hok : ok act L)
      (hs : Step cr ok act L L') : History cr ok L0 (act :: trace) L'

/-! ## A pair under observation -/

/-- An (unwrapped mint, wrapped token program) pair with its derived addresses: wrapped mint `W`,
authority `A`, backpointer `B`, and the escrow `E p` for each token program `p` the unwrapped mint
may belong to.  The propositions say that no hash collision interferes and that the unwrapped mint
is not itself one of these derived addresses. -/
structure Setting (cr : Crypto) where
  u : Pubkey
  wp : Pubkey
  W : Pubkey
  A : Pubkey
  B : Pubkey
  Es : Pubkey
  Et : Pubkey
  wpOk : wp = splTokenId ∨ wp = token2022Id
  rW : Reserved cr (.wrappedMint u wp) W
  rA : Reserved cr (.authority W) A
  rB : Reserved cr (.backpointer W) B
  rEs : Reserved cr (.ata A u splTokenId) Es
  rEt : Reserved cr (.ata A u token2022Id) Et
  uFree : u ≠ W ∧ u ≠ A ∧ u ≠ B ∧ u ≠ Es ∧ u ≠ Et
  aFree : A ≠ systemId ∧ A ≠ incineratorId
  wFree : W ∉ nativeMints

end TokenWrap
