import Verif.Processor
import Verif.JsClient
import Verif.Clients
/-!
# What is reported when an instruction fails

The log line written by the entry point, the number the runtime reports for a failed transaction, and the
JavaScript client's way of recognising an error of Token Wrap.
-/

namespace TokenWrap

/-! ## The log line -/

/-- The name `ProgramError::to_str` gives an error of the model; `none` for failures the program does not
see: the runtime aborts the transaction when a callee fails (so `invoke` does not return), when a privilege is
escalated and when the program panics, and it judges modifications of account data after the program has
ended. -/
def Err.programErrorName : Err → Option String
  | .custom _ => none
  | .invalidArgument => some "Error: InvalidArgument"
  | .invalidInstructionData => some "Error: InvalidInstructionData"
  | .invalidAccountData => some "Error: InvalidAccountData"
  | .incorrectProgramId => some "Error: IncorrectProgramId"
  | .missingRequiredSignature => some "Error: MissingRequiredSignature"
  | .accountAlreadyInitialized => some "Error: AccountAlreadyInitialized"
  | .uninitializedAccount => some "Error: UninitializedAccount"
  | .notEnoughAccountKeys => some "Error: NotEnoughAccountKeys"
  | .accountBorrowFailed => some "Error: AccountBorrowFailed"
  | .invalidSeeds => some "Error: InvalidSeeds"
  | .accountNotRentExempt => some "Error: AccountNotRentExempt"
  | .invalidAccountOwner => some "Error: InvalidAccountOwner"
  | .arithmeticOverflow => some "Error: ArithmeticOverflow"
  | .incorrectAuthority => some "Error: IncorrectAuthority"
  | .borshIoError => some "Error: BorshIoError"
  | _ => none

/-- `log_error`, run by the entry point on every error `process_instruction` returns:
/repo/program/src/error.rs:109-112, /repo/program/src/entrypoint.rs:12-19.  `ProgramError::to_str::<E>`
(solana-program-error, external) asks `E::try_from` for the name of a custom code. -/
def logLine (err : Err) : Option String :=
  match err with
  | .custom n =>
    match TokenWrapError.tryFrom n with
    | .ok e => some e.toStr
    | .error _ => some "Error: Unknown"
  | err => err.programErrorName

/-! ## The number the runtime reports -/

/-- `TokenError as u32` (spl-token, shared by spl-token-2022; external): the codes of the token programs'
errors; `none` for their builtin errors and for errors whose code the model leaves open. -/
def TokenErr.code : TokenErr → Option UInt32
  | .notRentExempt => some 0
  | .insufficientFunds => some 1
  | .mintMismatch => some 3
  | .ownerMismatch => some 4
  | .fixedSupply => some 5
  | .alreadyInUse => some 6
  | .nativeNotSupported => some 10
  | .nonNativeHasBalance => some 11
  | .invalidState => some 13
  | .overflow => some 14
  | .authorityTypeNotSupported => some 15
  | .mintCannotFreeze => some 16
  | .accountFrozen => some 17
  | .mintDecimalsMismatch => some 18
  | _ => none

/-- The runtime may report the failure `err` of a top-level instruction as `InstructionError::Custom(n)`: the
error of a failing callee becomes the error of the instruction.  For token errors without a listed code and
for other callees any number is possible (over-approximation). -/
def ReportedAs (err : Err) (n : UInt32) : Prop :=
  match err with
  | .custom c => n = c
  | .token .missingRequiredSignature => False
  | .token .invalidAccountData => False
  | .token .incorrectProgramId => False
  | .token .uninitializedAccount => False
  | .token t => ∀ c, t.code = some c → n = c
  | .system _ => True
  | .external _ => True
  | _ => False

/-! ## Where a transaction fails -/

/-- The program an instruction of a client's transaction is addressed to; Token Wrap instructions built by
the JavaScript client carry `TOKEN_WRAP_PROGRAM_ADDRESS`. -/
def ClientIx.program : ClientIx → Pubkey
  | .transfer .. => systemId
  | .call _ => crateId
  | .createAta .. => ataProgramId

/-- The first instruction of a transaction that fails, with its index (the runtime's message processor,
external). -/
def failingIx (env : Env) : List ClientIx → Nat → Ledger → Option (Nat × Err)
  | [], _, _ => none
  | ix :: rest, i, L =>
    match runClientIx env ix L with
    | .error e => some (i, e)
    | .ok L1 => failingIx env rest (i + 1) L1

namespace Js

/-- `isProgramError` (`@solana/kit`, external): the error is `InstructionError::Custom` (here: `some` of
index and code), the instruction at its index is addressed to the program, and the code is the one asked
for, if any. -/
def isProgramError (error : Option (Nat × UInt32)) (instructions : List Pubkey) (programAddress : Pubkey)
    (code : Option UInt32) : Bool :=
  match error with
  | none => false
  | some (index, n) =>
    match instructions[index]? with
    | none => false
    | some p => if p = programAddress then (match code with | none => true | some c => n = c) else false

/-- `isTokenWrapError`: /repo/clients/js/src/generated/errors/tokenWrap.ts:82-89. -/
def isTokenWrapError (error : Option (Nat × UInt32)) (instructions : List Pubkey) (code : Option UInt32) :
    Bool :=
  isProgramError error instructions crateId code

end Js

/-! ## Reasoning about failures -/

/-- Whatever error `x` ends with satisfies `P`. -/
structure Raises {α : Type} (P : Err → Prop) (x : Res α) : Prop where
  out : ∀ e, x = .error e → P e

namespace Raises
variable {α β : Type} {P : Err → Prop}

theorem ok {a : α} : Raises P (.ok a : Res α) := ⟨fun _ h => by cases h⟩
theorem pure' {a : α} : Raises P (pure a : Res α) := ⟨fun _ h => by cases h⟩
theorem error {e : Err} (h : P e) : Raises P (.error e : Res α) := ⟨fun _ h' => by cases h'; exact h⟩

theorem bind {x : Res α} {f : α → Res β} (hx : Raises P x)
    (hf : ∀ a, x = .ok a → Raises P (f a)) : Raises P (x >>= f) := by
  cases x with
  | error e => exact ⟨fun e' h => hx.out e' (by simpa using h)⟩
  | ok a => exact hf a rfl

theorem require {c : Bool} {e : Err} (h : c = false → P e) : Raises P (TokenWrap.require c e) := by
  cases c with
  | true => exact ok
  | false => exact error (h rfl)

theorem okOr {o : Option α} {e : Err} (h : o = none → P e) : Raises P (TokenWrap.okOr o e) := by
  cases o with
  | some a => exact ok
  | none => exact error (h rfl)

theorem mono {Q : Err → Prop} {x : Res α} (h : Raises P x) (hPQ : ∀ e, P e → Q e) : Raises Q x :=
  ⟨fun e he => hPQ e (h.out e he)⟩

end Raises

/-- Not one of Token Wrap's own error codes. -/
def Err.foreign : Err → Bool
  | .custom _ => false
  | _ => true

/-- One step of a proof that a computation raises only foreign errors. -/
macro "foreign_step" : tactic =>
  `(tactic| first
    | exact Raises.ok
    | exact Raises.pure'
    | exact Raises.error rfl
    | exact Raises.require (fun _ => rfl)
    | exact Raises.okOr (fun _ => rfl)
    | assumption
    | (apply Raises.bind)
    | intro _
    | split
    | dsimp only)

/-- Computations that never fail with a code of Token Wrap. -/
abbrev Foreign {α : Type} (x : Res α) : Prop := Raises (fun e => e.foreign = true) x

section token
variable {env : Env} {prog : Pubkey} {L : Ledger} {signed : Pubkey → Bool}

theorem foreign_getToken {k : Pubkey} : Foreign (getToken prog L k) := by
  unfold getToken; repeat' foreign_step

theorem foreign_getMint {k : Pubkey} : Foreign (getMint prog L k) := by
  unfold getMint; repeat' foreign_step

theorem foreign_validateOwner {a b : Pubkey} {s : List Pubkey} :
    Foreign (validateOwner prog L a b s signed) := by
  unfold validateOwner; repeat' foreign_step

theorem foreign_spendAuth {t : TokenAcct} {pd : Option Pubkey} {a : Pubkey} {s : List Pubkey} {n : Nat} :
    Foreign (spendAuth prog L t pd a s signed n) := by
  unfold spendAuth
  repeat' first | exact foreign_validateOwner | foreign_step

theorem foreign_feeOf {e : Nat} {m : Mint} {n : Nat} : Foreign (feeOf prog e m n) := by
  unfold feeOf; repeat' foreign_step

theorem foreign_transferMove {src dst : Pubkey} {s d : TokenAcct} {n f : Nat} :
    Foreign (transferMove L src dst s d n f) := by
  unfold transferMove moveLamports; repeat' foreign_step

theorem foreign_transferCheck {s : TokenAcct} {n : Nat} {c : Option (Pubkey × UInt8)} :
    Foreign (transferCheck env prog L s n c) := by
  unfold transferCheck checkMint
  repeat' first | exact foreign_getMint | exact foreign_feeOf | foreign_step

/-- One step, knowing the helpers of the token programs. -/
macro "foreign_token" : tactic =>
  `(tactic| first
    | exact foreign_getToken
    | exact foreign_getMint
    | exact foreign_validateOwner
    | exact foreign_spendAuth
    | exact foreign_transferMove
    | exact foreign_transferCheck
    | foreign_step)

/-- The token programs do not fail with a code of Token Wrap (in the model their errors are kept apart). -/
theorem foreign_tokenExec {ix : TokenIx} : Foreign (tokenExec env prog ix signed L) := by
  unfold tokenExec
  split
  · exact .error rfl
  split
  · unfold transferExec; repeat' foreign_token
  · unfold transferExec; repeat' foreign_token
  · unfold transferExec; repeat' foreign_token
  · unfold mintToExec; repeat' foreign_token
  · unfold burnExec; repeat' foreign_token
  · unfold closeAccountExec; repeat' foreign_token
  · unfold approveExec; repeat' foreign_token
  · unfold revokeExec; repeat' foreign_token
  · unfold setAuthorityExec; repeat' foreign_token
  · unfold freezeExec; repeat' foreign_token
  · unfold initMintExtExec; repeat' foreign_token
  · unfold initializeMint2Exec preMintExts; repeat' foreign_token
  · unfold initializeAccount3Exec; repeat' foreign_token
  · unfold initializeMultisigExec; repeat' foreign_token
  · unfold addAcctExtExec; repeat' foreign_token
  · unfold syncNativeExec; repeat' foreign_token
  · unfold setTransferFeeExec; repeat' foreign_token
  · unfold withdrawWithheldExec; repeat' foreign_token
  · unfold harvestWithheldExec; repeat' foreign_token
  · unfold withdrawWithheldFromMintExec; repeat' foreign_token
  · unfold updateMintExtExec; repeat' foreign_token
  · unfold withdrawExcessLamportsExec excessAuthority; repeat' foreign_token
  · unfold unwrapLamportsExec moveLamports; repeat' foreign_token
  · unfold updateMetadataPointerExec; repeat' foreign_token
  · unfold confidentialExec; repeat' foreign_token
  · unfold confidentialExec; repeat' foreign_token
  · unfold confidentialTransferExec; repeat' foreign_token
  · unfold initializeMetadataExec; repeat' foreign_token
  · unfold metadataUpdateExec; repeat' foreign_token
  · unfold metadataUpdateExec removeKeyRes; repeat' foreign_token
  · unfold metadataUpdateExec; repeat' foreign_token

end token

section runtime
variable {env : Env} {L : Ledger}

theorem foreign_cpiCheck {c : List Meta} {p b : List Pubkey} {k : Pubkey} {ms : List Meta} :
    Foreign (cpiCheck c p b k ms) := by
  unfold cpiCheck; repeat' foreign_step

theorem foreign_invokeToken {c : List Meta} {p b : List Pubkey} {k : Pubkey} {ix : TokenIx} :
    Foreign (invokeToken env c p b k ix L) := by
  unfold invokeToken
  repeat' first | exact foreign_cpiCheck | exact foreign_tokenExec | foreign_step

theorem foreign_signerPda {s : List Bytes} : Foreign (signerPda env s) := by
  unfold signerPda; exact .okOr fun _ => rfl

theorem foreign_invokeAllocate {c : List Meta} {p : List Pubkey} {k : Pubkey} {n : Nat} :
    Foreign (invokeAllocate c p k n L) := by
  unfold invokeAllocate sysAllocate
  repeat' first | exact foreign_cpiCheck | foreign_step

theorem foreign_invokeAssign {c : List Meta} {p : List Pubkey} {k o : Pubkey} :
    Foreign (invokeAssign c p k o L) := by
  unfold invokeAssign sysAssign
  repeat' first | exact foreign_cpiCheck | foreign_step

theorem foreign_writeOwn {m : Meta} {b : Bytes} : Foreign (writeOwn env m b L) := by
  unfold writeOwn; repeat' foreign_step

theorem foreign_unpackToken {d : Data} : Foreign (unpackToken d) := by
  by_cases h : ∃ t, d = .token t
  · obtain ⟨t, rfl⟩ := h; exact .ok
  · refine ⟨fun e he => ?_⟩
    rcases unpackToken_error (d := d) (fun t ht => h ⟨t, ht⟩) with h' | h' <;>
      (rw [h'] at he; cases he; rfl)

theorem foreign_unpackMint {d : Data} : Foreign (unpackMint d) := by
  by_cases h : ∃ t, d = .mint t
  · obtain ⟨t, rfl⟩ := h; exact .ok
  · refine ⟨fun e he => ?_⟩
    rcases unpackMint_error (d := d) (fun t ht => h ⟨t, ht⟩) with h' | h' <;>
      (rw [h'] at he; cases he; rfl)

end runtime

end TokenWrap
