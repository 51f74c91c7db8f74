import Verif.Props.Pda
import Verif.Props.Codec
import Verif.Serde
/-!
# The published addresses and the wire format, literally (C02, C50)

The specification below writes labels as text and numbers by division, and mentions none of the model's
seed or encoding functions.
-/

namespace TokenWrap

/-- The ASCII bytes of a label. -/
def ascii (s : String) : Bytes := s.toList.map fun c => UInt8.ofNat c.toNat

/-- What is hashed for a program-derived address: label, keys, bump, program, fixed suffix. -/
def pdaText (label : String) (keys : List Pubkey) (program : Pubkey) (bump : Nat) : Bytes :=
  ascii label ++ (keys.map Pubkey.bytes).flatten ++ [UInt8.ofNat bump] ++ program.bytes ++
    ascii "ProgramDerivedAddress"

/-- `k` is the program-derived address of `program` for `label` and `keys`: the hash with the largest
bump (255 down to 1) that is off the curve. -/
def IsPda (cr : Crypto) (label : String) (keys : List Pubkey) (program k : Pubkey) : Prop :=
  ∃ bump, 1 ≤ bump ∧ bump ≤ 255 ∧ k = cr.hash (pdaText label keys program bump) ∧
    cr.onCurve k = false ∧
    ∀ b, bump < b → b ≤ 255 → cr.onCurve (cr.hash (pdaText label keys program b)) = true

/-- The associated token account of a wallet: no label, under the ATA program. -/
def IsAta (cr : Crypto) (wallet mint tokenProgram k : Pubkey) : Prop :=
  IsPda cr "" [wallet, tokenProgram, mint] ataProgramId k

theorem IsPda.unique {cr : Crypto} {label : String} {keys : List Pubkey} {program k k' : Pubkey}
    (h : IsPda cr label keys program k) (h' : IsPda cr label keys program k') : k = k' := by
  obtain ⟨b, h1, h2, rfl, hc, hb⟩ := h
  obtain ⟨b', h1', h2', rfl, hc', hb'⟩ := h'
  rcases Nat.lt_trichotomy b b' with h | h | h
  · rw [hb b' h h2'] at hc'; cases hc'
  · rw [h]
  · rw [hb' b h h2] at hc; cases hc

theorem findBump_iff {cr : Crypto} {seeds : List Bytes} {pid k : Pubkey}
    (hl : seeds.length ≤ 15) (hs : ∀ s ∈ seeds, s.length ≤ 32) (n : Nat) :
    (∃ b, findBump cr seeds pid n = some (k, b)) ↔
      ∃ b, 1 ≤ b ∧ b ≤ n ∧ k = cr.hash (seeds.flatten ++ [UInt8.ofNat b] ++ pid.bytes ++ pdaMarker) ∧
        cr.onCurve k = false ∧
        ∀ b', b < b' → b' ≤ n →
          cr.onCurve (cr.hash (seeds.flatten ++ [UInt8.ofNat b'] ++ pid.bytes ++ pdaMarker)) = true := by
  have hcp : ∀ b, createProgramAddress cr (seeds ++ [[UInt8.ofNat b]]) pid =
      if cr.onCurve (cr.hash (seeds.flatten ++ [UInt8.ofNat b] ++ pid.bytes ++ pdaMarker)) then none
      else some (cr.hash (seeds.flatten ++ [UInt8.ofNat b] ++ pid.bytes ++ pdaMarker)) := by
    intro b
    unfold createProgramAddress
    rw [if_pos]
    · simp [pdaPreimage]
    · refine ⟨by simp; omega, ?_⟩
      intro s h
      rcases List.mem_append.1 h with h | h
      · exact hs s h
      · simp at h; subst h; simp
  induction n with
  | zero =>
    constructor
    · rintro ⟨b, h⟩; simp [findBump] at h
    · rintro ⟨b, h1, h2, _⟩; omega
  | succ n ih =>
    unfold findBump
    rw [hcp]
    by_cases hc : cr.onCurve (cr.hash (seeds.flatten ++ [UInt8.ofNat (n + 1)] ++ pid.bytes ++
        pdaMarker)) = true
    · rw [if_pos hc]
      dsimp only
      refine ih.trans ?_
      constructor
      · rintro ⟨b, h1, h2, h3, h4, h5⟩
        refine ⟨b, h1, by omega, h3, h4, ?_⟩
        intro b' hb hb'
        rcases Nat.lt_or_ge n b' with h | h
        · have : b' = n + 1 := by omega
          rw [this]; exact hc
        · exact h5 b' hb h
      · rintro ⟨b, h1, h2, h3, h4, h5⟩
        refine ⟨b, h1, ?_, h3, h4, fun b' hb hb' => h5 b' hb (by omega)⟩
        rcases Nat.lt_or_ge n b with h | h
        · have : b = n + 1 := by omega
          rw [this] at h3; rw [h3, hc] at h4; cases h4
        · exact h
    · rw [if_neg hc]
      dsimp only
      constructor
      · rintro ⟨b, h⟩
        simp only [Option.some.injEq, Prod.mk.injEq] at h
        refine ⟨n + 1, by omega, Nat.le_refl _, h.1.symm, ?_, fun b' hb hb' => by omega⟩
        rw [← h.1]; simpa using hc
      · rintro ⟨b, h1, h2, h3, h4, h5⟩
        rcases Nat.lt_or_ge b (n + 1) with h | h
        · exact absurd (h5 (n + 1) h (Nat.le_refl _)) hc
        · have : b = n + 1 := by omega
          rw [this] at h3
          exact ⟨_, by rw [h3]⟩

theorem find_iff_isPda {cr : Crypto} {label : String} {keys : List Pubkey} {pid k : Pubkey}
    {seeds : List Bytes} (hl : seeds.length ≤ 15) (hs : ∀ s ∈ seeds, s.length ≤ 32)
    (hf : seeds.flatten = ascii label ++ (keys.map Pubkey.bytes).flatten) :
    (findProgramAddress cr seeds pid).map (·.1) = some k ↔ IsPda cr label keys pid k := by
  have h0 : (findProgramAddress cr seeds pid).map (·.1) = some k ↔
      ∃ b, findBump cr seeds pid 255 = some (k, b) := by
    simp [findProgramAddress]
  rw [h0, findBump_iff hl hs, hf]
  have hm : pdaMarker = ascii "ProgramDerivedAddress" := by decide
  rw [hm]
  rfl

section
variable (cr : Crypto) (pid : Pubkey)

/-- **C50** The published address helpers, for any deployment `pid` of the program: the address is
`none` (panic) or exactly the program-derived address with the documented label and keys; the escrow
is the associated token account of the authority of the wrapped mint. -/
theorem published_addresses :
    (∀ u p k, wrappedMintAddressFor cr u p pid = some k ↔ IsPda cr "mint" [u, p] pid k) ∧
    (∀ w k, authorityAddressFor cr w pid = some k ↔ IsPda cr "authority" [w] pid k) ∧
    (∀ w k, backpointerAddressFor cr w pid = some k ↔ IsPda cr "backpointer" [w] pid k) ∧
    (∀ u k, canonicalPointerAddressFor cr u pid = some k ↔ IsPda cr "canonical_pointer" [u] pid k) ∧
    (∀ wallet mint p k, associatedTokenAddress cr wallet mint p = some k ↔
      IsAta cr wallet mint p k) ∧
    (∀ u up wp k, escrowAddressFor cr u up wp pid = some k ↔
      ∃ w a, IsPda cr "mint" [u, wp] pid w ∧ IsPda cr "authority" [w] pid a ∧ IsAta cr a u up k) ∧
    (∀ w k, metaplexPda cr w = some k ↔ IsPda cr "metadata" [metaplexId, w] metaplexId k) := by
  have key := fun (k : Pubkey) => k.len
  have h1 : ∀ u p k, wrappedMintAddressFor cr u p pid = some k ↔ IsPda cr "mint" [u, p] pid k :=
    fun u p k => find_iff_isPda (by simp [wrappedMintSeeds])
      (by simp [wrappedMintSeeds, wrappedMintSeed, key])
      (by rw [show ascii "mint" = wrappedMintSeed by decide]; simp [wrappedMintSeeds])
  have h2 : ∀ w k, authorityAddressFor cr w pid = some k ↔ IsPda cr "authority" [w] pid k :=
    fun w k => find_iff_isPda (by simp [authoritySeeds])
      (by simp [authoritySeeds, authoritySeed, key])
      (by rw [show ascii "authority" = authoritySeed by decide]; simp [authoritySeeds])
  have h3 : ∀ wallet mint p k, associatedTokenAddress cr wallet mint p = some k ↔
      IsAta cr wallet mint p k :=
    fun wallet mint p k => find_iff_isPda (by simp) (by simp [key])
      (by rw [show ascii "" = [] by decide]; simp)
  refine ⟨h1, h2, ?_, ?_, h3, ?_, ?_⟩
  · exact fun w k => find_iff_isPda (by simp [backpointerSeeds])
      (by simp [backpointerSeeds, backpointerSeed, key])
      (by rw [show ascii "backpointer" = backpointerSeed by decide]; simp [backpointerSeeds])
  · exact fun u k => find_iff_isPda (by simp [canonicalPointerSeeds])
      (by simp [canonicalPointerSeeds, canonicalPointerSeed, key])
      (by rw [show ascii "canonical_pointer" = canonicalPointerSeed by decide]
          simp [canonicalPointerSeeds])
  · intro u up wp k
    simp only [escrowAddressFor, Option.bind_eq_bind, Option.bind_eq_some_iff, h1, h2, h3]
    constructor
    · rintro ⟨w, hw, a, ha, hk⟩; exact ⟨w, a, hw, ha, hk⟩
    · rintro ⟨w, a, hw, ha, hk⟩; exact ⟨w, hw, a, ha, hk⟩
  · exact fun w k => find_iff_isPda (by simp) (by simp [key])
      (by rw [show ascii "metadata" = [109, 101, 116, 97, 100, 97, 116, 97] by decide]; simp)

/-- **C50** The plain helpers are the same functions for this deployment. -/
theorem published_addresses_default (u p w up wp : Pubkey) :
    wrappedMintAddress cr u p = wrappedMintAddressFor cr u p crateId ∧
    authorityAddress cr w = authorityAddressFor cr w crateId ∧
    backpointerAddress cr w = backpointerAddressFor cr w crateId ∧
    canonicalPointerAddress cr u = canonicalPointerAddressFor cr u crateId ∧
    escrowAddress cr u up wp = escrowAddressFor cr u up wp crateId :=
  ⟨rfl, rfl, rfl, rfl, rfl⟩

end

/-- Byte `i` of the little-endian encoding of a number. -/
def leByte (n i : Nat) : UInt8 := UInt8.ofNat (n / 256 ^ i % 256)

/-- **C02** The wire format, byte by byte: tag, then the argument (one byte 0/1; eight bytes, least
significant first; the 32 bytes of the address). -/
theorem wire_format :
    (∀ i, (TokenWrapInstruction.createMint i).pack = [0, if i then 1 else 0]) ∧
    (∀ a, (TokenWrapInstruction.wrap a).pack = 1 :: (List.range 8).map (leByte a.toNat)) ∧
    (∀ a, (TokenWrapInstruction.unwrap a).pack = 2 :: (List.range 8).map (leByte a.toNat)) ∧
    TokenWrapInstruction.closeStuckEscrow.pack = [3] ∧
    TokenWrapInstruction.syncMetadataToToken2022.pack = [4] ∧
    TokenWrapInstruction.syncMetadataToSplToken.pack = [5] ∧
    (∀ k, (TokenWrapInstruction.setCanonicalPointer k).pack = 6 :: k.bytes) := by
  have hle : ∀ a : UInt64, u64ToLe a = (List.range 8).map (leByte a.toNat) := by
    intro a
    have hb : ∀ n i, UInt8.ofNat (n / 2 ^ (8 * i)) = leByte n i := by
      intro n i
      unfold leByte
      rw [Nat.pow_mul]
      apply UInt8.toNat_inj.1
      simp
    simp only [u64ToLe, List.range, List.range.loop, List.map_cons, List.map_nil]
    have h0 := hb a.toNat 0; have h1 := hb a.toNat 1; have h2 := hb a.toNat 2
    have h3 := hb a.toNat 3; have h4 := hb a.toNat 4; have h5 := hb a.toNat 5
    have h6 := hb a.toNat 6; have h7 := hb a.toNat 7
    simp only [Nat.mul_zero, Nat.pow_zero, Nat.div_one, Nat.mul_one, Nat.reduceMul] at h0 h1 h2 h3 h4 h5 h6 h7
    rw [h0, h1, h2, h3, h4, h5, h6, h7]
  refine ⟨fun _ => rfl, fun a => ?_, fun a => ?_, rfl, rfl, rfl, fun _ => rfl⟩
  · exact congrArg _ (hle a)
  · exact congrArg _ (hle a)

namespace Example

example : (TokenWrapInstruction.wrap 258).pack = [1, 2, 1, 0, 0, 0, 0, 0, 0] := by decide
example : ∃ k, wrappedMintAddressFor toyCrypto (.lit 1) splTokenId crateId = some k ∧
    IsPda toyCrypto "mint" [.lit 1, splTokenId] crateId k :=
  ⟨_, rfl, ((published_addresses toyCrypto crateId).1 _ _ _).1 rfl⟩

end Example

end TokenWrap
