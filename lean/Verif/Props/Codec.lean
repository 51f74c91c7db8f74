import Verif.Instruction
/-!
# C01, C02, C03: instruction encoding and error codes
-/

namespace TokenWrap
open TokenWrapInstruction

theorem u64_le_roundtrip (x : UInt64) :
    readU64 (u64ToLe x) = some x := by
  have h : x.toNat < 2 ^ 64 := x.toNat_lt
  simp only [u64ToLe, readU64, u64OfLe, UInt8.toNat_ofNat']
  congr 1
  apply UInt64.toNat_inj.mp
  rw [UInt64.toNat_ofNat']
  omega

theorem u64_le_roundtrip' (b0 b1 b2 b3 b4 b5 b6 b7 : UInt8) :
    u64ToLe (u64OfLe b0 b1 b2 b3 b4 b5 b6 b7) = [b0, b1, b2, b3, b4, b5, b6, b7] := by
  have h0 := b0.toNat_lt; have h1 := b1.toNat_lt; have h2 := b2.toNat_lt
  have h3 := b3.toNat_lt; have h4 := b4.toNat_lt; have h5 := b5.toNat_lt
  have h6 := b6.toNat_lt; have h7 := b7.toNat_lt
  simp only [u64ToLe, u64OfLe, UInt64.toNat_ofNat', List.cons.injEq, and_true]
  refine ⟨?_, ?_, ?_, ?_, ?_, ?_, ?_, ?_⟩ <;>
  · apply UInt8.toNat_inj.mp
    rw [UInt8.toNat_ofNat']
    omega

theorem readU64_some_iff {rest : Bytes} {x : UInt64} :
    readU64 rest = some x ↔ rest = u64ToLe x := by
  constructor
  · intro h
    unfold readU64 at h
    split at h
    · simp only [Option.some.injEq] at h
      rw [← h, u64_le_roundtrip']
    · cases h
  · rintro rfl; exact u64_le_roundtrip x

theorem readKey_some_iff {rest : Bytes} {k : Pubkey} :
    readKey rest = some k ↔ rest = k.bytes := by
  unfold readKey
  constructor
  · intro h; split at h
    · simp only [Option.some.injEq] at h; rw [← h]
    · cases h
  · rintro rfl
    simp [k.len]

/-- **C01** Decoding an encoded instruction gives the instruction back. -/
theorem unpack_pack (ix : TokenWrapInstruction) : unpack (pack ix) = .ok ix := by
  cases ix with
  | createMint b => cases b <;> rfl
  | wrap a =>
    have := u64_le_roundtrip a
    simp [pack, unpack, this]
  | unwrap a =>
    have := u64_le_roundtrip a
    simp [pack, unpack, this]
  | closeStuckEscrow => rfl
  | syncMetadataToToken2022 => rfl
  | syncMetadataToSplToken => rfl
  | setCanonicalPointer k =>
    have : readKey k.bytes = some k := readKey_some_iff.mpr rfl
    simp [pack, unpack, this]

/-- **C01** (consequence) Different instructions have different encodings. -/
theorem pack_injective {a b : TokenWrapInstruction} (h : pack a = pack b) : a = b := by
  have := unpack_pack a
  rw [h, unpack_pack] at this
  simpa using this.symm

/-- **C02** The only byte string accepted for an instruction is its own encoding: no trailing or
missing bytes, no alternative tags, no booleans other than 0 and 1. -/
theorem unpack_eq_ok_iff (b : Bytes) (ix : TokenWrapInstruction) :
    unpack b = .ok ix ↔ b = pack ix := by
  constructor
  · intro h
    unfold unpack at h
    split at h
    · cases h
    · rename_i tag rest
      split at h
      · split at h
        · split at h
          · simp only [Except.ok.injEq] at h; subst_vars; rfl
          · split at h
            · simp only [Except.ok.injEq] at h; subst_vars; rfl
            · cases h
        · cases h
      · split at h
        · split at h
          · rename_i a ha
            rw [readU64_some_iff] at ha
            simp only [Except.ok.injEq] at h; subst_vars; rfl
          · cases h
        · split at h
          · split at h
            · rename_i a ha
              rw [readU64_some_iff] at ha
              simp only [Except.ok.injEq] at h; subst_vars; rfl
            · cases h
          · split at h
            · split at h
              · simp only [Except.ok.injEq] at h; subst_vars; rfl
              · cases h
            · split at h
              · split at h
                · simp only [Except.ok.injEq] at h; subst_vars; rfl
                · cases h
              · split at h
                · split at h
                  · simp only [Except.ok.injEq] at h; subst_vars; rfl
                  · cases h
                · split at h
                  · split at h
                    · rename_i k hk
                      rw [readKey_some_iff] at hk
                      simp only [Except.ok.injEq] at h; subst_vars; rfl
                    · cases h
                  · cases h
  · rintro rfl; exact unpack_pack ix

/-- **C02** Whatever is not an encoding is rejected, always with `InvalidInstructionData`. -/
theorem unpack_rejects (b : Bytes) (h : ∀ ix, b ≠ pack ix) :
    unpack b = .error .invalidInstructionData := by
  have hno : ∀ ix, unpack b ≠ .ok ix := fun ix hix => h ix ((unpack_eq_ok_iff b ix).mp hix)
  have hall : ∀ r, unpack b = r → r = .error .invalidInstructionData ∨ ∃ ix, r = .ok ix := by
    intro r hr
    unfold unpack at hr
    repeat' split at hr
    all_goals first
      | (left; exact hr.symm)
      | (right; exact ⟨_, hr.symm⟩)
  rcases hall _ rfl with h1 | ⟨ix, h1⟩
  · exact h1
  · exact absurd h1 (hno ix)

/-- **C02** Encoded lengths: 2, 9, 9, 1, 1, 1, 33 bytes and the tag is the first byte. -/
theorem pack_length (ix : TokenWrapInstruction) :
    (pack ix).length = match ix with
      | .createMint _ => 2
      | .wrap _ | .unwrap _ => 9
      | .closeStuckEscrow | .syncMetadataToToken2022 | .syncMetadataToSplToken => 1
      | .setCanonicalPointer _ => 33 := by
  cases ix <;> simp [pack, u64ToLe, Pubkey.len]

-- concrete, non-trivial instances
example : pack (.wrap 0x0102030405060708) = [1, 8, 7, 6, 5, 4, 3, 2, 1] := by decide
example : unpack [2, 255, 255, 255, 255, 255, 255, 255, 255] = .ok (.unwrap 18446744073709551615) :=
  (unpack_eq_ok_iff _ _).mpr (by decide)
example : unpack [0, 2] = .error .invalidInstructionData := by decide
example : ∀ ix, ([1, 0, 0, 0] : Bytes) ≠ pack ix := by
  intro ix h
  have := congrArg List.length h
  rw [pack_length] at this
  cases ix <;> simp at this

/-! ## C03 -/

/-- The documented list of errors with their codes: /repo/program/src/error.rs:12-70 (comments
`// 0`, `// 5`, `// 10`, `// 15`). -/
def documentedErrors : List TokenWrapError :=
  [.wrappedMintMismatch, .backpointerMismatch, .zeroWrapAmount, .mintAuthorityMismatch,
   .escrowOwnerMismatch, .invalidWrappedMintOwner, .invalidBackpointerOwner, .escrowMismatch,
   .escrowInGoodState, .unwrappedMintHasNoMetadata, .metaplexMetadataMismatch,
   .metadataPointerMissing, .metadataPointerUnset, .metadataPointerMismatch,
   .externalProgramReturnedNoData, .noSyncingToToken2022]

/-- **C03** The code of an error is its position in the documented list. -/
theorem error_code_is_position (e : TokenWrapError) :
    documentedErrors[e.code.toNat]? = some e := by
  cases e <;> rfl

/-- **C03** A code converts back to an error exactly when it is that error's code. -/
theorem tryFrom_eq_ok_iff (n : UInt32) (e : TokenWrapError) :
    TokenWrapError.tryFrom n = .ok e ↔ n = e.code := by
  constructor
  · intro h
    unfold TokenWrapError.tryFrom at h
    split at h <;> simp only [Except.ok.injEq, reduceCtorEq] at h <;> subst h <;> rfl
  · rintro rfl; cases e <;> rfl

/-- **C03** Any other code is `InvalidArgument`. -/
theorem tryFrom_unknown (n : UInt32) (h : 16 ≤ n.toNat) :
    TokenWrapError.tryFrom n = .error .invalidArgument := by
  unfold TokenWrapError.tryFrom
  split <;> first | rfl | (simp at h)

/-- **C03** Distinct errors are distinct `ProgramError`s. -/
theorem toErr_injective {a b : TokenWrapError} (h : a.toErr = b.toErr) : a = b := by
  have : TokenWrapError.tryFrom a.code = .ok b := (tryFrom_eq_ok_iff _ _).mpr (by
    simpa [TokenWrapError.toErr] using h)
  rw [(tryFrom_eq_ok_iff a.code a).mpr rfl] at this
  simpa using this

/-- **C03** Distinct errors print differently. -/
theorem toStr_injective {a b : TokenWrapError} (h : a.toStr = b.toStr) : a = b := by
  revert h; cases a <;> cases b <;> simp [TokenWrapError.toStr]

example : TokenWrapError.tryFrom 8 = .ok .escrowInGoodState := by decide
example : TokenWrapError.tryFrom 16 = .error .invalidArgument := tryFrom_unknown 16 (by decide)

end TokenWrap
