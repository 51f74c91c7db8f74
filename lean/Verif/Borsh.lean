import Verif.State
/-!
# Bytes: little-endian numbers, UTF-8 and the Borsh form of token metadata

`TokenMetadata::unpack_from_slice` (spl-token-metadata-interface, external) is what
/repo/program/src/metadata.rs:34 applies to the return data of a third-party metadata program, and what
`get_variable_len_extension::<TokenMetadata>` (/repo/program/src/metadata.rs:86,
/repo/program/src/processor.rs:583) applies to the metadata extension of a mint: Borsh, with bytes after
the value ignored (`try_from_slice_unchecked`).
-/

namespace TokenWrap

/-! ## Little-endian numbers -/

/-- The `w` low bytes of `n`, lowest first (`to_le_bytes`). -/
def leBytes : Nat → Nat → Bytes
  | 0, _ => []
  | w + 1, n => UInt8.ofNat n :: leBytes w (n / 256)

/-- The number written by these bytes, lowest first (`from_le_bytes`). -/
def leNat : Bytes → Nat
  | [] => 0
  | b :: bs => b.toNat + 256 * leNat bs

@[simp] theorem leBytes_length (w n : Nat) : (leBytes w n).length = w := by
  induction w generalizing n with
  | zero => rfl
  | succ w ih => simp [leBytes, ih]

theorem leNat_leBytes {w n : Nat} (h : n < 256 ^ w) : leNat (leBytes w n) = n := by
  induction w generalizing n with
  | zero => simp only [Nat.pow_zero] at h; show 0 = n; omega
  | succ w ih =>
    rw [Nat.pow_succ] at h
    simp only [leBytes, leNat, UInt8.toNat_ofNat']
    rw [ih (by omega)]
    omega

theorem leNat_lt (b : Bytes) : leNat b < 256 ^ b.length := by
  induction b with
  | nil => simp [leNat]
  | cons x b ih =>
    simp only [leNat, List.length_cons, Nat.pow_succ]
    have := x.toNat_lt
    omega

theorem leBytes_leNat (b : Bytes) : leBytes b.length (leNat b) = b := by
  induction b with
  | nil => rfl
  | cons x b ih =>
    simp only [leNat, List.length_cons, leBytes]
    have hx := x.toNat_lt
    have h1 : UInt8.ofNat (x.toNat + 256 * leNat b) = x := by
      apply UInt8.toNat_inj.1
      rw [UInt8.toNat_ofNat']
      omega
    have h2 : (x.toNat + 256 * leNat b) / 256 = leNat b := by omega
    rw [h1, h2, ih]

/-! ## UTF-8 -/

/-- The bytes of a string. -/
def utf8Bytes (s : String) : Bytes := s.toByteArray.data.toList

/-- `String::from_utf8`. -/
def ofUtf8? (b : Bytes) : Option String := String.fromUTF8? ⟨b.toArray⟩

@[simp] theorem utf8Bytes_length (s : String) : (utf8Bytes s).length = s.utf8ByteSize := by
  unfold utf8Bytes; rw [Array.length_toList]; rfl

theorem ofUtf8?_iff {b : Bytes} {s : String} : ofUtf8? b = some s ↔ b = utf8Bytes s := by
  unfold ofUtf8? String.fromUTF8? utf8Bytes
  constructor
  · intro h
    split at h
    · cases h; rfl
    · cases h
  · rintro rfl
    rw [dif_pos (by exact s.isValidUTF8)]
    rfl

/-! ## Borsh -/

/-- A string: length (u32) and bytes. -/
def borshStr (s : String) : Bytes := leBytes 4 s.utf8ByteSize ++ utf8Bytes s

/-- `OptionalNonZeroPubkey`: the zero key stands for `None`. -/
def optKeyBytes (k : Option Pubkey) : Bytes := (k.getD systemId).bytes

/-- One pair of the additional metadata. -/
def borshPair (p : String × String) : Bytes := borshStr p.1 ++ borshStr p.2

/-- `borsh::to_vec(&token_metadata)`. -/
def TokenMetadata.borsh (md : TokenMetadata) : Bytes :=
  optKeyBytes md.updateAuthority ++ (md.mint.bytes ++ (borshStr md.name ++ (borshStr md.symbol ++
    (borshStr md.uri ++ (leBytes 4 md.additional.length ++ md.additional.flatMap borshPair)))))

/-- Reading: the first `n` bytes. -/
def takeN (n : Nat) (b : Bytes) : Option (Bytes × Bytes) :=
  if n ≤ b.length then some (b.take n, b.drop n) else none

/-- Reading a u32. -/
def readU32 (b : Bytes) : Option (Nat × Bytes) :=
  (takeN 4 b).map fun (x, r) => (leNat x, r)

/-- Reading a string. -/
def readStr (b : Bytes) : Option (String × Bytes) := do
  let (n, r) ← readU32 b
  let (x, r) ← takeN n r
  let s ← ofUtf8? x
  some (s, r)

/-- Reading a key. -/
def takeKey (b : Bytes) : Option (Pubkey × Bytes) :=
  if h : (b.take 32).length = 32 then some (⟨b.take 32, h⟩, b.drop 32) else none

/-- `Option::<Pubkey>::from(OptionalNonZeroPubkey)`. -/
def nonZeroKey (k : Pubkey) : Option Pubkey := if k = systemId then none else some k

/-- Reading `n` pairs of strings. -/
def readPairs : Nat → Bytes → Option (List (String × String) × Bytes)
  | 0, b => some ([], b)
  | n + 1, b => do
    let (k, b) ← readStr b
    let (v, b) ← readStr b
    let (l, b) ← readPairs n b
    some ((k, v) :: l, b)

/-- `TokenMetadata::unpack_from_slice`. -/
def unborshMetadata? (b : Bytes) : Option TokenMetadata := do
  let (ua, b) ← takeKey b
  let (mint, b) ← takeKey b
  let (name, b) ← readStr b
  let (symbol, b) ← readStr b
  let (uri, b) ← readStr b
  let (n, b) ← readU32 b
  let (additional, _) ← readPairs n b
  some { updateAuthority := nonZeroKey ua, mint, name, symbol, uri, additional }

/-! ## Reading is the inverse of writing -/

theorem takeN_iff {n : Nat} {b x r : Bytes} : takeN n b = some (x, r) ↔ x.length = n ∧ b = x ++ r := by
  unfold takeN
  constructor
  · intro h
    split at h
    · cases h
      exact ⟨by simp only [List.length_take]; omega, (List.take_append_drop n b).symm⟩
    · cases h
  · rintro ⟨rfl, rfl⟩
    rw [if_pos (by simp)]
    simp

theorem readU32_iff {b r : Bytes} {n : Nat} :
    readU32 b = some (n, r) ↔ n < 2 ^ 32 ∧ b = leBytes 4 n ++ r := by
  unfold readU32
  simp only [Option.map_eq_some_iff, Prod.exists, Prod.mk.injEq]
  constructor
  · rintro ⟨x, r', h, rfl, rfl⟩
    obtain ⟨h1, rfl⟩ := takeN_iff.1 h
    have := leNat_lt x
    have e := leBytes_leNat x
    rw [h1] at this e
    exact ⟨this, by rw [e]⟩
  · rintro ⟨h, rfl⟩
    exact ⟨leBytes 4 n, r, takeN_iff.2 ⟨by simp, rfl⟩, leNat_leBytes h, rfl⟩

theorem readStr_iff {b r : Bytes} {s : String} :
    readStr b = some (s, r) ↔ s.utf8ByteSize < 2 ^ 32 ∧ b = borshStr s ++ r := by
  unfold readStr borshStr
  simp only [Option.bind_eq_bind, Option.bind_eq_some_iff, Prod.exists, Option.some.injEq,
    Prod.mk.injEq]
  constructor
  · rintro ⟨n, r1, h1, x, r2, h2, s', h3, rfl, rfl⟩
    obtain ⟨h0, rfl⟩ := readU32_iff.1 h1
    obtain ⟨rfl, rfl⟩ := takeN_iff.1 h2
    rw [ofUtf8?_iff.1 h3] at h0 ⊢
    rw [utf8Bytes_length] at h0 ⊢
    exact ⟨h0, by rw [List.append_assoc]⟩
  · rintro ⟨h, rfl⟩
    exact ⟨s.utf8ByteSize, utf8Bytes s ++ r, readU32_iff.2 ⟨h, by rw [List.append_assoc]⟩, utf8Bytes s, r,
      takeN_iff.2 ⟨utf8Bytes_length s, rfl⟩, s, ofUtf8?_iff.2 rfl, rfl, rfl⟩

theorem takeKey_iff {b r : Bytes} {k : Pubkey} : takeKey b = some (k, r) ↔ b = k.bytes ++ r := by
  unfold takeKey
  constructor
  · intro h
    split at h
    · cases h; exact (List.take_append_drop 32 b).symm
    · cases h
  · rintro rfl
    have h1 : (k.bytes ++ r).take 32 = k.bytes := by
      rw [List.take_append_of_le_length (by rw [k.len]; exact Nat.le_refl 32),
        List.take_of_length_le (by rw [k.len]; exact Nat.le_refl 32)]
    have h2 : (k.bytes ++ r).drop 32 = r := by
      rw [← k.len, List.drop_left]
    rw [dif_pos (by rw [h1]; exact k.len)]
    simp only [h2, Option.some.injEq, Prod.mk.injEq, and_true]
    exact Pubkey.ext' h1

/-- Strings whose lengths can be written. -/
def PairsFit (l : List (String × String)) : Prop :=
  ∀ p ∈ l, p.1.utf8ByteSize < 2 ^ 32 ∧ p.2.utf8ByteSize < 2 ^ 32

theorem readPairs_iff : ∀ {n : Nat} {b r : Bytes} {l : List (String × String)},
    readPairs n b = some (l, r) ↔ l.length = n ∧ PairsFit l ∧ b = l.flatMap borshPair ++ r
  | 0, b, r, l => by
    simp only [readPairs, Option.some.injEq, Prod.mk.injEq]
    constructor
    · rintro ⟨rfl, rfl⟩
      exact ⟨rfl, (by intro p hp; cases hp), rfl⟩
    · rintro ⟨h, _, rfl⟩
      obtain rfl := List.length_eq_zero_iff.1 h
      exact ⟨rfl, rfl⟩
  | n + 1, b, r, l => by
    simp only [readPairs, Option.bind_eq_bind, Option.bind_eq_some_iff, Prod.exists,
      Option.some.injEq, Prod.mk.injEq]
    constructor
    · rintro ⟨k, b1, h1, v, b2, h2, l', b3, h3, rfl, rfl⟩
      obtain ⟨f1, rfl⟩ := readStr_iff.1 h1
      obtain ⟨f2, rfl⟩ := readStr_iff.1 h2
      obtain ⟨rfl, f3, rfl⟩ := readPairs_iff.1 h3
      refine ⟨rfl, ?_, ?_⟩
      · intro p hp
        rcases List.mem_cons.1 hp with rfl | hp
        · exact ⟨f1, f2⟩
        · exact f3 p hp
      · simp only [List.flatMap_cons, borshPair, List.append_assoc]
    · rintro ⟨h, hf, rfl⟩
      cases l with
      | nil => cases h
      | cons p l =>
        obtain ⟨k, v⟩ := p
        have hkv := hf (k, v) (List.mem_cons_self ..)
        refine ⟨k, _, readStr_iff.2 ⟨hkv.1, ?_⟩, v, _, readStr_iff.2 ⟨hkv.2, rfl⟩, l, r,
          readPairs_iff.2 ⟨by simpa using h, fun p hp => hf p (List.mem_cons_of_mem _ hp), rfl⟩, rfl, rfl⟩
        simp only [List.flatMap_cons, borshPair, List.append_assoc]

/-- Metadata that can be written: an update authority other than the zero key, and lengths below
2^32. -/
structure TokenMetadata.Writable (md : TokenMetadata) : Prop where
  authority : md.updateAuthority ≠ some systemId
  name : md.name.utf8ByteSize < 2 ^ 32
  symbol : md.symbol.utf8ByteSize < 2 ^ 32
  uri : md.uri.utf8ByteSize < 2 ^ 32
  count : md.additional.length < 2 ^ 32
  pairs : PairsFit md.additional

theorem nonZeroKey_getD {k : Option Pubkey} (h : k ≠ some systemId) : nonZeroKey (k.getD systemId) = k := by
  unfold nonZeroKey
  cases k with
  | none => rfl
  | some k => rw [if_neg (by rintro rfl; exact h rfl)]; rfl

theorem nonZeroKey_bytes (k : Pubkey) : optKeyBytes (nonZeroKey k) = k.bytes := by
  unfold optKeyBytes nonZeroKey
  split
  · rename_i h; rw [h]; rfl
  · rfl

theorem nonZeroKey_ne (k : Pubkey) : nonZeroKey k ≠ some systemId := by
  unfold nonZeroKey
  split
  · simp
  · rename_i h; simpa using h

/-- What `unpack_from_slice` reads: exactly the bytes that start with the Borsh form. -/
theorem unborshMetadata?_iff {b : Bytes} {md : TokenMetadata} :
    unborshMetadata? b = some md ↔ md.Writable ∧ ∃ tail, b = md.borsh ++ tail := by
  unfold unborshMetadata?
  simp only [Option.bind_eq_bind, Option.bind_eq_some_iff, Prod.exists, Option.some.injEq]
  constructor
  · rintro ⟨ua, b1, h1, mint, b2, h2, name, b3, h3, symbol, b4, h4, uri, b5, h5, n, b6, h6, l, b7, h7, rfl⟩
    obtain rfl := takeKey_iff.1 h1
    obtain rfl := takeKey_iff.1 h2
    obtain ⟨f3, rfl⟩ := readStr_iff.1 h3
    obtain ⟨f4, rfl⟩ := readStr_iff.1 h4
    obtain ⟨f5, rfl⟩ := readStr_iff.1 h5
    obtain ⟨f6, rfl⟩ := readU32_iff.1 h6
    obtain ⟨rfl, f7, rfl⟩ := readPairs_iff.1 h7
    refine ⟨⟨nonZeroKey_ne ua, f3, f4, f5, f6, f7⟩, b7, ?_⟩
    simp only [TokenMetadata.borsh, nonZeroKey_bytes, List.append_assoc]
  · rintro ⟨⟨a1, a2, a3, a4, a5, a6⟩, tail, rfl⟩
    refine ⟨md.updateAuthority.getD systemId, _, takeKey_iff.2 ?_, md.mint, _, takeKey_iff.2 rfl,
      md.name, _, readStr_iff.2 ⟨a2, rfl⟩, md.symbol, _, readStr_iff.2 ⟨a3, rfl⟩, md.uri, _,
      readStr_iff.2 ⟨a4, rfl⟩, md.additional.length, _, readU32_iff.2 ⟨a5, rfl⟩, md.additional, tail,
      readPairs_iff.2 ⟨rfl, a6, rfl⟩, ?_⟩
    · simp only [TokenMetadata.borsh, optKeyBytes, List.append_assoc]
    · rw [nonZeroKey_getD a1]

theorem unborshMetadata?_borsh {md : TokenMetadata} (h : md.Writable) :
    unborshMetadata? md.borsh = some md :=
  unborshMetadata?_iff.2 ⟨h, [], by rw [List.append_nil]⟩

/-- The size used for rent is the length of the Borsh form. -/
theorem packedLen_eq (md : TokenMetadata) : md.borsh.length = md.packedLen := by
  have hp : ∀ l : List (String × String), (l.flatMap borshPair).length =
      (l.map fun p => 8 + p.1.utf8ByteSize + p.2.utf8ByteSize).sum := by
    intro l
    induction l with
    | nil => rfl
    | cons p l ih =>
      simp only [List.flatMap_cons, List.length_append, List.map_cons, List.sum_cons, ih, borshPair,
        borshStr, leBytes_length, utf8Bytes_length]
      omega
  simp only [TokenMetadata.borsh, TokenMetadata.packedLen, optKeyBytes, borshStr, List.length_append,
    hp, leBytes_length, utf8Bytes_length, Pubkey.len]
  omega

end TokenWrap
