import Verif.Token
/-!
# The associated-token-account program (environment model, trusted)
-/

namespace TokenWrap

/-- The size of a new associated token account: 165 bytes for SPL Token, for Token-2022 what the
`GetAccountDataSize` CPI with `ImmutableOwner` answers for this mint. -/
def ataLen (prog mint : Pubkey) (L : Ledger) : Nat :=
  match (L mint).data with
  | .mint m => tokenAccountLen (newAcctExts prog m [.immutableOwner])
  | _ => 165

/-- `AssociatedTokenAccountInstruction::Create`: the address is the PDA of (wallet, token program,
mint); the account must be system-owned and empty; it is funded, allocated and assigned, given
`ImmutableOwner` (Token-2022) and initialised with `InitializeAccount3`.  Used by the clients to
create escrows (/repo/clients/cli/src/create_escrow_account.rs:88-171,
/repo/clients/js/src/utilities.ts:94-124).  Here the missing rent appears at the account; who pays it
is in `ataCreatePaid`. -/
def ataCreate (env : Env) (wallet mint prog : Pubkey) (L : Ledger) : Res Ledger := do
  require (isTokenProgram prog) .incorrectProgramId
  let k ← okOr (associatedTokenAddress env.cr wallet mint prog) .invalidSeeds
  require ((L k).owner = systemId && (L k).data = .bytes []) .invalidAccountOwner
  let L1 := L.set k
    ⟨max (L k).lamports (env.rentMin (ataLen prog mint L)), prog,
      .bytes (List.replicate (ataLen prog mint L) 0)⟩
  initializeAccount3Exec env prog L1 k mint wallet [.immutableOwner]

/-- `SystemInstruction::Transfer` (system program; external, trusted): the source carries no data and
has the lamports.  The signature of the source is the payer's, which every transaction has. -/
def sysTransfer (src dst : Pubkey) (n : Nat) (L : Ledger) : Res Ledger := do
  require ((L src).owner = systemId && (L src).data = .bytes []) (.system 2)
  require (n ≤ (L src).lamports) (.system 1)
  let L1 := L.setLamports src ((L src).lamports - n)
  pure (L1.setLamports dst ((L1 dst).lamports + n))

/-- The same instruction with its payer: what the account lacks of the rent-exempt minimum for its
size is transferred from the payer first (`create_pda_account`: `CreateAccount`, or `Transfer`,
`Allocate` and `Assign` if the address already holds lamports). -/
def ataCreatePaid (env : Env) (payer wallet mint prog : Pubkey) (L : Ledger) : Res Ledger := do
  let k ← okOr (associatedTokenAddress env.cr wallet mint prog) .invalidSeeds
  let missing := env.rentMin (ataLen prog mint L) - (L k).lamports
  let L1 ← if missing = 0 then pure L else sysTransfer payer k missing L
  ataCreate env wallet mint prog L1

end TokenWrap
