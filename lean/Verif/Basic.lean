/-!
# Basic vocabulary of the model

Bytes, 32-byte public keys, the well-known program ids used by the program, the error values an
instruction can end with, and the tiny `Except` toolkit used by every model function.
-/

namespace TokenWrap

/-- Byte strings (`&[u8]`, `Vec<u8>`). -/
abbrev Bytes := List UInt8

/-- A 32-byte address (`solana_pubkey::Pubkey`, used everywhere in /repo/program/src). -/
structure Pubkey where
  bytes : Bytes
  len : bytes.length = 32

namespace Pubkey

theorem ext' {a b : Pubkey} (h : a.bytes = b.bytes) : a = b := by
  cases a; cases b; simp at h; subst h; rfl

instance : DecidableEq Pubkey := fun a b =>
  decidable_of_iff (a.bytes = b.bytes) ⟨ext', fun h => by rw [h]⟩

instance : Repr Pubkey := ⟨fun k _ => repr k.bytes⟩

/-- Handy constructor for literals: a key whose first byte is `n` and the others 0. -/
def lit (n : UInt8) : Pubkey := ⟨n :: List.replicate 31 0, by simp⟩

/-- Handy constructor for literals: a key with the two given leading bytes. -/
def lit2 (m n : UInt8) : Pubkey := ⟨m :: n :: List.replicate 30 0, by simp⟩

instance : Inhabited Pubkey := ⟨lit 0⟩

end Pubkey

/-! ## Well-known addresses -/

/-- `declare_id!` of this program: /repo/program/src/lib.rs:19 (base58 decoded). -/
def crateId : Pubkey := ⟨[6, 230, 163, 101, 246, 85, 158, 144, 58, 85, 216, 85, 235, 22, 154, 24, 168, 116, 222, 8, 144, 68, 88, 185, 96, 51, 14, 249, 6, 199, 218, 174], rfl⟩

/-- `spl_token::id()` (used in /repo/program/src/processor.rs:89, 703, 824). -/
def splTokenId : Pubkey := ⟨[6, 221, 246, 225, 215, 101, 161, 147, 217, 203, 225, 70, 206, 235, 121, 172, 28, 180, 133, 237, 95, 91, 55, 145, 58, 140, 245, 133, 126, 255, 0, 169], rfl⟩

/-- `spl_token_2022_interface::id()` (used in /repo/program/src/processor.rs:90, 120, 267, 414). -/
def token2022Id : Pubkey := ⟨[6, 221, 246, 225, 238, 117, 143, 222, 24, 66, 93, 188, 228, 108, 205, 218, 182, 26, 252, 77, 131, 185, 13, 39, 254, 189, 249, 40, 216, 161, 139, 252], rfl⟩

/-- The associated-token-account program, used by
`get_associated_token_address_with_program_id` (/repo/program/src/lib.rs:202). -/
def ataProgramId : Pubkey := ⟨[140, 151, 37, 143, 78, 36, 137, 241, 187, 61, 16, 41, 20, 142, 13, 131, 11, 90, 19, 153, 218, 255, 16, 132, 4, 142, 123, 216, 219, 233, 248, 89], rfl⟩

/-- `solana_system_interface::program::id()` (/repo/program/src/instruction.rs:283). -/
def systemId : Pubkey := ⟨List.replicate 32 0, rfl⟩

/-- `mpl_token_metadata::ID` (/repo/program/src/processor.rs:722, metadata.rs:46). -/
def metaplexId : Pubkey := ⟨[11, 112, 101, 177, 227, 209, 124, 69, 56, 157, 82, 127, 107, 4, 195, 205, 88, 184, 108, 115, 26, 160, 253, 181, 73, 182, 209, 188, 3, 248, 41, 70], rfl⟩

/-- `solana_sysvar::rent::id()` (/repo/program/src/instruction.rs:432). -/
def rentSysvarId : Pubkey := ⟨[6, 167, 213, 23, 25, 44, 92, 81, 33, 140, 201, 76, 61, 74, 241, 127, 88, 218, 238, 8, 155, 161, 253, 68, 227, 219, 217, 138, 0, 0, 0, 0], rfl⟩

/-- The incinerator address (token programs let anyone burn/close its accounts). -/
def incineratorId : Pubkey := ⟨[0, 51, 144, 114, 141, 52, 17, 96, 121, 189, 201, 17, 191, 255, 0, 219, 212, 77, 46, 205, 204, 247, 156, 166, 225, 0, 56, 225, 0, 0, 0, 0], rfl⟩

/-- The two token programs the program supports
(`check_spl_token_program_account` in the instruction builders it calls). -/
def isTokenProgram (p : Pubkey) : Bool := p = splTokenId || p = token2022Id

theorem spl_ne_2022 : splTokenId ≠ token2022Id := by decide
theorem spl_ne_system : splTokenId ≠ systemId := by decide
theorem t22_ne_system : token2022Id ≠ systemId := by decide
theorem crate_ne_system : crateId ≠ systemId := by decide
theorem crate_ne_spl : crateId ≠ splTokenId := by decide
theorem crate_ne_t22 : crateId ≠ token2022Id := by decide
theorem mpl_ne_spl : metaplexId ≠ splTokenId := by decide
theorem mpl_ne_t22 : metaplexId ≠ token2022Id := by decide
theorem mpl_ne_system : metaplexId ≠ systemId := by decide
theorem mpl_ne_crate : metaplexId ≠ crateId := by decide

/-- `u64::MAX`. -/
def u64Max : Nat := 18446744073709551615

/-! ## Errors -/

/-- Errors raised inside the token programs (spl-token / spl-token-2022 `TokenError` and the
`ProgramError`s they return).  On chain these are also numeric codes; the model keeps them apart
from the codes of Token Wrap itself. -/
inductive TokenErr
  | accountFrozen | insufficientFunds | mintMismatch | mintDecimalsMismatch | ownerMismatch
  | missingRequiredSignature | fixedSupply | overflow | feeMismatch | invalidState
  | nativeNotSupported | nonNativeHasBalance | accountHasWithheldFees | invalidAccountData
  | incorrectProgramId | uninitializedAccount | alreadyInUse | immutableOwner | mintHasSupply
  | mintRequiredForTransfer | notRentExempt | mintCannotFreeze | authorityTypeNotSupported
  | extensionNotFound | keyNotFound | invalidNumber
  | /-- a rejection by an extension or check the model does not spell out -/ other (code : Nat)
deriving DecidableEq, Repr

/-- How an instruction can fail: the `ProgramError` values used by the program plus the runtime's
own failures. -/
inductive Err
  | custom (code : UInt32)
  | invalidArgument | invalidInstructionData | invalidAccountData | incorrectProgramId
  | missingRequiredSignature | accountAlreadyInitialized | uninitializedAccount
  | notEnoughAccountKeys | accountBorrowFailed | invalidSeeds | accountNotRentExempt
  | invalidAccountOwner | arithmeticOverflow | incorrectAuthority | borshIoError
  | /-- runtime: a CPI asks for a privilege the caller does not have -/ privilegeEscalation
  | /-- runtime: a CPI names an account the caller was not given -/ missingAccount
  | /-- runtime: data of an account of another program was modified -/ externalDataModified
  | /-- runtime: data of a read-only account was modified -/ readonlyDataModified
  | /-- runtime: the program aborted (Rust panic) -/ panicked
  | /-- failure inside a token program -/ token (e : TokenErr)
  | /-- failure inside the system program -/ system (code : Nat)
  | /-- failure inside another program (Metaplex, external metadata program) -/ external (code : Nat)
deriving DecidableEq, Repr

/-- `ProgramResult`-like computations. -/
abbrev Res (α : Type) := Except Err α

instance {ε α : Type} [DecidableEq ε] [DecidableEq α] : DecidableEq (Except ε α) := fun x y =>
  match x, y with
  | .ok a, .ok b => if h : a = b then isTrue (by rw [h]) else isFalse (by simpa using h)
  | .error a, .error b => if h : a = b then isTrue (by rw [h]) else isFalse (by simpa using h)
  | .ok _, .error _ => isFalse (by simp)
  | .error _, .ok _ => isFalse (by simp)

/-- `if !cond { return Err(e) }`. -/
def require {ε : Type} (c : Bool) (e : ε) : Except ε Unit := if c then .ok () else .error e

/-- `opt.ok_or(e)?`. -/
def okOr {ε α : Type} (o : Option α) (e : ε) : Except ε α :=
  match o with
  | some a => .ok a
  | none => .error e

section toolkit
variable {ε α β : Type}

@[simp] theorem bind_ok_iff {x : Except ε α} {f : α → Except ε β} {b : β} :
    (x >>= f) = .ok b ↔ ∃ a, x = .ok a ∧ f a = .ok b := by
  cases x <;> simp [bind, Except.bind]

@[simp] theorem ok_bind {a : α} {f : α → Except ε β} :
    ((Except.ok a : Except ε α) >>= f) = f a := rfl

@[simp] theorem error_bind {e : ε} {f : α → Except ε β} :
    ((Except.error e : Except ε α) >>= f) = .error e := rfl

@[simp] theorem require_ok_iff {c : Bool} {e : ε} {u : Unit} :
    require c e = .ok u ↔ c = true := by
  unfold require; split <;> simp_all

@[simp] theorem require_true {e : ε} : require true e = .ok () := rfl
@[simp] theorem require_false {e : ε} : require false e = .error e := rfl

@[simp] theorem okOr_ok_iff {o : Option α} {e : ε} {a : α} :
    okOr o e = .ok a ↔ o = some a := by
  cases o <;> simp [okOr]

@[simp] theorem okOr_some {e : ε} {a : α} : okOr (some a) e = .ok a := rfl
@[simp] theorem okOr_none {e : ε} : okOr (none : Option α) e = .error e := rfl

@[simp] theorem pure_ok_iff {a b : α} : (pure a : Except ε α) = .ok b ↔ a = b := by
  simp [pure, Except.pure]

end toolkit

end TokenWrap
