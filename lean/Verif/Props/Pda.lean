import Verif.PdaLemmas
/-!
# C04, C05, C50: program-derived addresses
-/

namespace TokenWrap

/-- Everything an address of interest can be derived from (specification vocabulary). -/
inductive PdaInput
  | wrappedMint (unwrappedMint wrappedTokenProgram : Pubkey)
  | authority (wrappedMint : Pubkey)
  | backpointer (wrappedMint : Pubkey)
  | canonicalPointer (unwrappedMint : Pubkey)
  | ata (wallet mint tokenProgram : Pubkey)
  | metaplex (mint : Pubkey)

/-- The program that owns each kind of derived address. -/
def PdaInput.owner : PdaInput → Pubkey
  | .ata .. => ataProgramId
  | .metaplex .. => metaplexId
  | _ => crateId

/-- The seeds of each kind of derived address. -/
def PdaInput.seeds : PdaInput → List Bytes
  | .wrappedMint u p => wrappedMintSeeds u p
  | .authority w => authoritySeeds w
  | .backpointer w => backpointerSeeds w
  | .canonicalPointer u => canonicalPointerSeeds u
  | .ata wallet mint p => [wallet.bytes, p.bytes, mint.bytes]
  | .metaplex m => [[109, 101, 116, 97, 100, 97, 116, 97], metaplexId.bytes, m.bytes]

/-- The address the code derives from an input, through the public helpers of lib.rs. -/
def PdaInput.address (cr : Crypto) : PdaInput → Option Pubkey
  | .wrappedMint u p => wrappedMintAddress cr u p
  | .authority w => authorityAddress cr w
  | .backpointer w => backpointerAddress cr w
  | .canonicalPointer u => canonicalPointerAddress cr u
  | .ata wallet mint p => associatedTokenAddress cr wallet mint p
  | .metaplex m => metaplexPda cr m

/-- The exact bytes given to SHA-256 for an input and a bump. -/
def PdaInput.preimage (i : PdaInput) (bump : UInt8) : Bytes :=
  pdaPreimage (i.seeds ++ [[bump]]) i.owner

theorem PdaInput.preimage_length (i : PdaInput) (bump : UInt8) :
    (i.preimage bump).length = match i with
      | .wrappedMint .. => 122
      | .authority .. => 95
      | .backpointer .. => 97
      | .canonicalPointer .. => 103
      | .ata .. => 150
      | .metaplex .. => 126 := by
  cases i <;>
    simp [preimage, pdaPreimage, seeds, owner, wrappedMintSeeds, authoritySeeds, backpointerSeeds,
      canonicalPointerSeeds, wrappedMintSeed, authoritySeed, backpointerSeed, canonicalPointerSeed,
      pdaMarker, Pubkey.len]

theorem key_append_inj {a b : Pubkey} {x y : Bytes} (h : a.bytes ++ x = b.bytes ++ y) :
    a = b ∧ x = y := by
  have := List.append_inj h (by rw [a.len, b.len])
  exact ⟨Pubkey.ext' this.1, this.2⟩

/-- **C04** No two derivations share hash input: the hashed bytes determine the kind of address,
all of its arguments and the bump. -/
theorem pda_preimage_injective {i j : PdaInput} {a b : UInt8}
    (h : i.preimage a = j.preimage b) : i = j ∧ a = b := by
  have hl : (i.preimage a).length = (j.preimage b).length := by rw [h]
  rw [PdaInput.preimage_length, PdaInput.preimage_length] at hl
  cases i <;> cases j <;> simp at hl <;>
  simp [PdaInput.preimage, pdaPreimage, PdaInput.seeds, PdaInput.owner, wrappedMintSeeds,
      authoritySeeds, backpointerSeeds, canonicalPointerSeeds, wrappedMintSeed, authoritySeed,
      backpointerSeed, canonicalPointerSeed] at h
  · obtain ⟨h1, h⟩ := key_append_inj h
    obtain ⟨h2, h⟩ := key_append_inj h
    simp at h
    exact ⟨by rw [h1, h2], h⟩
  · obtain ⟨h1, h⟩ := key_append_inj h
    simp at h; exact ⟨by rw [h1], h⟩
  · obtain ⟨h1, h⟩ := key_append_inj h
    simp at h; exact ⟨by rw [h1], h⟩
  · obtain ⟨h1, h⟩ := key_append_inj h
    simp at h; exact ⟨by rw [h1], h⟩
  · obtain ⟨h1, h⟩ := key_append_inj h
    obtain ⟨h2, h⟩ := key_append_inj h
    obtain ⟨h3, h⟩ := key_append_inj h
    simp at h; exact ⟨by rw [h1, h2, h3], h⟩
  · obtain ⟨h1, h⟩ := key_append_inj h
    simp at h; exact ⟨by rw [h1], h⟩

/-- Two different byte strings with the same hash. -/
def HashCollision (cr : Crypto) : Prop := ∃ x y, x ≠ y ∧ cr.hash x = cr.hash y

theorem PdaInput.address_spec {cr : Crypto} {i : PdaInput} {k : Pubkey}
    (h : i.address cr = some k) :
    ∃ b, findProgramAddress cr i.seeds i.owner = some (k, b) := by
  cases i <;>
  simp [address, wrappedMintAddress, wrappedMintAddressFor, wrappedMintWithSeedFor,
    authorityAddress, authorityAddressFor, authorityWithSeedFor, backpointerAddress,
    backpointerAddressFor, backpointerWithSeedFor, canonicalPointerAddress,
    canonicalPointerAddressFor, canonicalPointerWithSeedFor, associatedTokenAddress,
    metaplexPda] at h <;>
  simpa [seeds, owner] using h

/-- **C04** If two derivations give the same address then they are the same derivation, or a SHA-256
collision has been exhibited. -/
theorem pda_address_injective {cr : Crypto} {i j : PdaInput} {k : Pubkey}
    (hi : i.address cr = some k) (hj : j.address cr = some k) :
    i = j ∨ HashCollision cr := by
  obtain ⟨a, ha⟩ := PdaInput.address_spec hi
  obtain ⟨b, hb⟩ := PdaInput.address_spec hj
  have h1 := (findProgramAddress_hash ha).1
  have h2 := (findProgramAddress_hash hb).1
  by_cases hp : i.preimage a = j.preimage b
  · exact .inl (pda_preimage_injective hp).1
  · exact .inr ⟨_, _, hp, h1.symm.trans h2⟩

/-- **C04** Derived addresses are never ordinary key pairs' addresses: they are off the curve. -/
theorem pda_off_curve {cr : Crypto} {i : PdaInput} {k : Pubkey} (hi : i.address cr = some k) :
    cr.onCurve k = false := by
  obtain ⟨b, hb⟩ := PdaInput.address_spec hi
  exact (findProgramAddress_hash hb).2

/-- **C05** Wrapped mint: the validated address is what its signer seeds re-create. -/
theorem wrappedMint_signer_seeds {cr : Crypto} {u p k : Pubkey} {b : UInt8}
    (h : wrappedMintWithSeed cr u p = some (k, b)) :
    createProgramAddress cr (wrappedMintSignerSeeds u p b) crateId = some k :=
  findProgramAddress_spec h

/-- **C05** Authority. -/
theorem authority_signer_seeds {cr : Crypto} {w k : Pubkey} {b : UInt8}
    (h : authorityWithSeed cr w = some (k, b)) :
    createProgramAddress cr (authoritySignerSeeds w b) crateId = some k :=
  findProgramAddress_spec h

/-- **C05** Backpointer. -/
theorem backpointer_signer_seeds {cr : Crypto} {w k : Pubkey} {b : UInt8}
    (h : backpointerWithSeed cr w = some (k, b)) :
    createProgramAddress cr (backpointerSignerSeeds w b) crateId = some k :=
  findProgramAddress_spec h

/-- **C05** Canonical pointer. -/
theorem canonicalPointer_signer_seeds {cr : Crypto} {u k : Pubkey} {b : UInt8}
    (h : canonicalPointerWithSeed cr u = some (k, b)) :
    createProgramAddress cr (canonicalPointerSignerSeeds u b) crateId = some k :=
  findProgramAddress_spec h

/-- **C50** The published escrow address is the ATA of the published authority of the published
wrapped mint. -/
theorem escrowAddress_eq (cr : Crypto) (u up wp w a : Pubkey)
    (hw : wrappedMintAddress cr u wp = some w) (ha : authorityAddress cr w = some a) :
    escrowAddress cr u up wp = associatedTokenAddress cr a u up := by
  simp only [wrappedMintAddress, authorityAddress] at hw ha
  simp [escrowAddress, escrowAddressFor, hw, ha]

/-- A toy hash for examples: keys `lit2 (length) (xor-free fold)`, never on the curve. -/
def toyCrypto : Crypto where
  hash b := .lit2 (UInt8.ofNat b.length) (b.foldl (fun acc x => acc * 31 + x) 7)
  onCurve _ := false

-- the hypotheses of C04/C05/C50 are met by concrete derivations
example : ∃ k b, wrappedMintWithSeed toyCrypto (.lit 1) splTokenId = some (k, b) := ⟨_, _, rfl⟩
example : (PdaInput.wrappedMint (.lit 1) splTokenId).address toyCrypto ≠ none := by decide
example : (PdaInput.wrappedMint (.lit 1) splTokenId).preimage 255 ≠
    (PdaInput.wrappedMint (.lit 2) splTokenId).preimage 255 := by decide

end TokenWrap
