import Verif.Token
import Verif.Errors
/-!
# Runtime and system program (environment model)

`invoke` / `invoke_signed`: privilege checks, borrow conflicts, PDA signatures; the system
instructions used by the program.  Trusted (see DESIGN.md).
-/

namespace TokenWrap

/-! ## Account metas of the CPIs (instruction builders of spl-token-2022-interface) -/

/-- Metas of an authority: read-only, signer iff no multisig signers are given; followed by the
multisig signers, read-only and signing. -/
def authMetas (auth : Pubkey) (signers : List Pubkey) : List Meta :=
  .ro auth signers.isEmpty :: signers.map (fun k => .ro k true)

/-- Account metas put into the CPI instruction by its builder.  Instructions that Token Wrap never
sends have no builder here (`[]`); third parties run those directly (see World.lean). -/
def TokenIx.metas : TokenIx → List Meta
  | .transferChecked src mint dst auth signers _ _ =>
    [.rw src false, .ro mint false, .rw dst false] ++ authMetas auth signers
  | .transferCheckedWithFee src mint dst auth signers _ _ _ =>
    [.rw src false, .ro mint false, .rw dst false] ++ authMetas auth signers
  | .mintTo mint dst auth signers _ => [.rw mint false, .rw dst false] ++ authMetas auth signers
  | .burn acct mint auth signers _ => [.rw acct false, .rw mint false] ++ authMetas auth signers
  | .closeAccount acct dst auth signers => [.rw acct false, .rw dst false] ++ authMetas auth signers
  | .initMintExt mint _ => [.rw mint false]
  | .initializeMint2 mint _ _ _ => [.rw mint false]
  | .initializeMetadata mint updateAuthority mintAuthority _ _ _ =>
    [.rw mint false, .ro updateAuthority false, .ro mint false, .ro mintAuthority true]
  | .updateField mint updateAuthority _ _ => [.rw mint false, .ro updateAuthority true]
  | .removeKey mint updateAuthority _ _ => [.rw mint false, .ro updateAuthority true]
  | _ => []

/-- Who signs, according to a list of metas. -/
def signedBy (metas : List Meta) (k : Pubkey) : Bool := metas.any fun m => m.key = k && m.signer

/-- Is `m` covered by the caller's own accounts and the PDAs it signs for? -/
def metaAllowed (caller : List Meta) (pdas : List Pubkey) (m : Meta) : Bool :=
  caller.any (fun c => c.key = m.key) &&
  (!m.writable || caller.any (fun c => c.key = m.key && c.writable)) &&
  (!m.signer || caller.any (fun c => c.key = m.key && c.signer) || m.key ∈ pdas)

/-- The checks before a CPI is entered: accounts to be written must not be borrowed by the caller,
the callee program must be among the caller's accounts, and no privilege may be escalated. -/
def cpiCheck (caller : List Meta) (pdas borrowed : List Pubkey) (callee : Pubkey)
    (metas : List Meta) : Res Unit := do
  require (metas.all fun m => !m.writable || m.key ∉ borrowed) .accountBorrowFailed
  require (caller.any fun c => c.key = callee) .missingAccount
  require (metas.all (metaAllowed caller pdas)) .privilegeEscalation

/-- CPI into a token program. The builder refuses other programs
(`check_spl_token_program_account`). -/
def invokeToken (env : Env) (caller : List Meta) (pdas borrowed : List Pubkey) (prog : Pubkey)
    (ix : TokenIx) (L : Ledger) : Res Ledger := do
  require (isTokenProgram prog) .incorrectProgramId
  cpiCheck caller pdas borrowed prog ix.metas
  tokenExec env prog ix (signedBy ix.metas) L

/-- Turn signer seeds into the PDA signed for (`invoke_signed` uses the executing program's id). -/
def signerPda (env : Env) (seeds : List Bytes) : Res Pubkey :=
  okOr (createProgramAddress env.cr seeds env.programId) .invalidSeeds

/-! ## System program -/

/-- `SystemInstruction::Allocate`: the account must sign, be system-owned and empty. -/
def sysAllocate (signed : Pubkey → Bool) (key : Pubkey) (space : Nat) (L : Ledger) : Res Ledger := do
  require (signed key) .missingRequiredSignature
  require ((L key).data = .bytes [] && (L key).owner = systemId) (.system 0)
  pure (L.setData key (.bytes (List.replicate space 0)))

/-- `SystemInstruction::Assign`: no-op if already owned by `owner`; otherwise the account must sign
and be system-owned. -/
def sysAssign (signed : Pubkey → Bool) (key owner : Pubkey) (L : Ledger) : Res Ledger :=
  if (L key).owner = owner then .ok L
  else do
    require (signed key) .missingRequiredSignature
    require ((L key).owner = systemId) (.system 1)
    pure (L.set key { L key with owner := owner })

/-- `invoke_signed(&allocate(key, space), ..)`. -/
def invokeAllocate (caller : List Meta) (pdas : List Pubkey) (key : Pubkey) (space : Nat)
    (L : Ledger) : Res Ledger := do
  cpiCheck caller pdas [] systemId [⟨key, true, true⟩]
  sysAllocate (fun k => k = key) key space L

/-- `invoke_signed(&assign(key, owner), ..)`. -/
def invokeAssign (caller : List Meta) (pdas : List Pubkey) (key owner : Pubkey) (L : Ledger) :
    Res Ledger := do
  cpiCheck caller pdas [] systemId [⟨key, true, true⟩]
  sysAssign (fun k => k = key) key owner L

/-- The program writes raw data into an account: the runtime accepts the change only if the program
owns the account and it is writable; writing back identical data is always accepted. -/
def writeOwn (env : Env) (m : Meta) (b : Bytes) (L : Ledger) : Res Ledger :=
  if (L m.key).data = .bytes b then .ok L
  else do
    require m.writable .readonlyDataModified
    require ((L m.key).owner = env.programId) .externalDataModified
    pure (L.setData m.key (.bytes b))

/-- `bytemuck::from_bytes_mut::<T>` for a 32-byte `T`: panics unless the data has 32 bytes. -/
def has32 (d : Data) : Bool := d.len = 32

end TokenWrap
