import Verif.Pda
/-! # Lemmas about program-derived addresses -/

namespace TokenWrap

theorem findBump_spec {cr : Crypto} {seeds : List Bytes} {pid : Pubkey} {n : Nat} {k : Pubkey}
    {b : UInt8} (h : findBump cr seeds pid n = some (k, b)) :
    createProgramAddress cr (seeds ++ [[b]]) pid = some k := by
  induction n with
  | zero => simp [findBump] at h
  | succ n ih =>
    unfold findBump at h
    split at h
    · rename_i k' hk'
      simp only [Option.some.injEq, Prod.mk.injEq] at h
      obtain ⟨rfl, rfl⟩ := h
      exact hk'
    · exact ih h

theorem findProgramAddress_spec {cr : Crypto} {seeds : List Bytes} {pid k : Pubkey} {b : UInt8}
    (h : findProgramAddress cr seeds pid = some (k, b)) :
    createProgramAddress cr (seeds ++ [[b]]) pid = some k := findBump_spec h

theorem createProgramAddress_spec {cr : Crypto} {seeds : List Bytes} {pid k : Pubkey}
    (h : createProgramAddress cr seeds pid = some k) :
    k = cr.hash (pdaPreimage seeds pid) ∧ cr.onCurve k = false := by
  unfold createProgramAddress at h
  split at h
  · dsimp only at h
    split at h
    · cases h
    · rename_i hc
      simp only [Option.some.injEq] at h
      subst h
      exact ⟨rfl, by simpa using hc⟩
  · cases h

/-- A found address is the hash of its preimage with the found bump, and is off the curve. -/
theorem findProgramAddress_hash {cr : Crypto} {seeds : List Bytes} {pid k : Pubkey} {b : UInt8}
    (h : findProgramAddress cr seeds pid = some (k, b)) :
    k = cr.hash (pdaPreimage (seeds ++ [[b]]) pid) ∧ cr.onCurve k = false :=
  createProgramAddress_spec (findProgramAddress_spec h)

theorem wrappedMintAddress_some {cr : Crypto} {u p k : Pubkey} :
    wrappedMintAddress cr u p = some k ↔ ∃ b, wrappedMintWithSeed cr u p = some (k, b) := by
  simp [wrappedMintAddress, wrappedMintAddressFor, wrappedMintWithSeed]

theorem authorityAddress_some {cr : Crypto} {w k : Pubkey} :
    authorityAddress cr w = some k ↔ ∃ b, authorityWithSeed cr w = some (k, b) := by
  simp [authorityAddress, authorityAddressFor, authorityWithSeed]

theorem backpointerAddress_some {cr : Crypto} {w k : Pubkey} :
    backpointerAddress cr w = some k ↔ ∃ b, backpointerWithSeed cr w = some (k, b) := by
  simp [backpointerAddress, backpointerAddressFor, backpointerWithSeed]

theorem canonicalPointerAddress_some {cr : Crypto} {u k : Pubkey} :
    canonicalPointerAddress cr u = some k ↔ ∃ b, canonicalPointerWithSeed cr u = some (k, b) := by
  simp [canonicalPointerAddress, canonicalPointerAddressFor, canonicalPointerWithSeed]

end TokenWrap
