import Mathlib.Data.Nat.Digits.Lemmas
import Verif.Token
/-!
# What `serde_json` prints and reads for the three Metaplex types that Token Wrap parses back

`program/src/metaplex.rs` stores `Vec<Creator>`, `Collection` and `Uses` as JSON strings (lines
50-53, 66-76) and parses them again (lines 130-147).  The processor model is generic in the printer
and parser (`Env.jsonCreators`, `Env.parseCreators`, ...).  Here is a concrete instance: the compact
text `serde_json::to_string` produces (fields in declaration order, keys as base-58 strings through
`DisplayFromStr`, enum variants as strings), and a parser for exactly that text.  `serde_json` itself
accepts more (white space, other field orders, unknown fields): this is a simplification, which only
matters for metadata written by somebody else's JSON printer.
-/

namespace TokenWrap.Serde

/-! ## Base 58 -/

/-- The Bitcoin alphabet used by `Pubkey`'s `Display`. -/
def alphabet : List Char := "123456789ABCDEFGHJKLMNPQRSTUVWXYZabcdefghijkmnopqrstuvwxyz".toList

/-- Character of a base-58 digit. -/
def char58 (d : Nat) : Char := alphabet.getD d '?'

/-- Base-58 digit of a character. -/
def digit58 (c : Char) : Option Nat := alphabet.idxOf? c

/-- Base 58 (the `bs58` crate, external): one `1` per leading zero byte, then the base-58 digits of the
rest read as a big-endian number. -/
def base58 (bs : Bytes) : List Char :=
  List.replicate (bs.takeWhile (· = 0)).length '1' ++
    ((Nat.digits 58 (Nat.ofDigits 256 (bs.reverse.map UInt8.toNat))).reverse.map char58)

/-- Decoding base 58. -/
def unbase58 (cs : List Char) : Option Bytes := do
  let ds ← cs.mapM digit58
  let z := (ds.takeWhile (· = 0)).length
  some (List.replicate z 0 ++
    ((Nat.digits 256 (Nat.ofDigits 58 ds.reverse)).reverse.map UInt8.ofNat))

/-- `Pubkey::to_string`. -/
def toBase58 (k : Pubkey) : List Char := base58 k.bytes

/-- `Pubkey::from_str`: decode, and insist on 32 bytes. -/
def ofBase58 (cs : List Char) : Option Pubkey := do
  let bs ← unbase58 cs
  if h : bs.length = 32 then some ⟨bs, h⟩ else none

/-! ## Decimal numbers -/

/-- Decimal text of a number. -/
def nat10 (n : Nat) : List Char :=
  if n = 0 then ['0'] else (Nat.digits 10 n).reverse.map fun d => Char.ofNat (48 + d)

/-- Read a number at the front of the input. -/
def readNat (cs : List Char) : Option (Nat × List Char) :=
  let ds := cs.takeWhile Char.isDigit
  if ds = [] then none
  else some (Nat.ofDigits 10 (ds.reverse.map fun c => c.toNat - 48), cs.dropWhile Char.isDigit)

/-! ## JSON pieces -/

/-- Strip a literal from the front of the input. -/
def lit (s : String) (cs : List Char) : Option (List Char) :=
  if s.toList <+: cs then some (cs.drop s.toList.length) else none

/-- A key at the front of the input, up to the closing quote. -/
def readKey (cs : List Char) : Option (Pubkey × List Char) := do
  let k ← ofBase58 (cs.takeWhile (· ≠ '"'))
  pure (k, cs.dropWhile (· ≠ '"'))

/-- A number below `bound`. -/
def readBounded (bound : Nat) (cs : List Char) : Option (Nat × List Char) := do
  let (n, rest) ← readNat cs
  if n < bound then some (n, rest) else none

/-- `true` or `false`. -/
def boolText (b : Bool) : String := if b then "true" else "false"

/-- Read a boolean. -/
def readBool (cs : List Char) : Option (Bool × List Char) :=
  match lit "true" cs with
  | some rest => some (true, rest)
  | none => (lit "false" cs).map fun rest => (false, rest)

/-! ## The three types -/

/-- `Creator` (mpl-token-metadata), as printed at /repo/program/src/metaplex.rs:50-53. -/
def creatorText (c : Creator) : List Char :=
  "{\"address\":\"".toList ++ toBase58 c.address ++ "\",\"verified\":".toList ++
    (boolText c.verified).toList ++ ",\"share\":".toList ++ nat10 c.share.toNat ++ "}".toList

/-- Parser for `creatorText`. -/
def readCreator (cs : List Char) : Option (Creator × List Char) := do
  let cs ← lit "{\"address\":\"" cs
  let (address, cs) ← readKey cs
  let cs ← lit "\",\"verified\":" cs
  let (verified, cs) ← readBool cs
  let cs ← lit ",\"share\":" cs
  let (share, cs) ← readBounded 256 cs
  let cs ← lit "}" cs
  pure (⟨address, verified, UInt8.ofNat share⟩, cs)

/-- The elements of a JSON array after the first. -/
def moreText : List Creator → List Char
  | [] => []
  | c :: cs => ',' :: (creatorText c ++ moreText cs)

/-- `serde_json::to_string(&Vec<Creator>)`. -/
def creatorsText : List Creator → List Char
  | [] => "[]".toList
  | c :: cs => '[' :: (creatorText c ++ (moreText cs ++ [']']))

/-- Read the elements after the first, up to the closing bracket, which must end the input. -/
def readMore : Nat → List Char → Option (List Creator)
  | _, [']'] => some []
  | 0, _ => none
  | fuel + 1, ',' :: cs => do
    let (c, rest) ← readCreator cs
    let more ← readMore fuel rest
    pure (c :: more)
  | _, _ => none

/-- Parser for `creatorsText`. -/
def readCreators (cs : List Char) : Option (List Creator) :=
  if cs = "[]".toList then some [] else
  match cs with
  | '[' :: rest => do
    let (c, rest') ← readCreator rest
    let more ← readMore rest'.length rest'
    pure (c :: more)
  | _ => none

/-- `serde_json::to_string(&Collection)`, /repo/program/src/metaplex.rs:66-70. -/
def collectionText (c : Collection) : List Char :=
  "{\"verified\":".toList ++ (boolText c.verified).toList ++ ",\"key\":\"".toList ++
    toBase58 c.key ++ "\"}".toList

/-- Parser for `collectionText`. -/
def readCollection (cs : List Char) : Option Collection := do
  let cs ← lit "{\"verified\":" cs
  let (verified, cs) ← readBool cs
  let cs ← lit ",\"key\":\"" cs
  let (key, cs) ← readKey cs
  if cs = "\"}".toList then some ⟨verified, key⟩ else none

/-- Variant names of `UseMethod`. -/
def methodText : UseMethod → String
  | .burn => "Burn" | .multiple => "Multiple" | .single => "Single"

/-- Read a variant name. -/
def readMethod (cs : List Char) : Option (UseMethod × List Char) :=
  match lit "Burn" cs with
  | some r => some (.burn, r)
  | none => match lit "Multiple" cs with
    | some r => some (.multiple, r)
    | none => (lit "Single" cs).map fun r => (.single, r)

/-- `serde_json::to_string(&Uses)`, /repo/program/src/metaplex.rs:72-76. -/
def usesText (u : Uses) : List Char :=
  "{\"use_method\":\"".toList ++ (methodText u.useMethod).toList ++ "\",\"remaining\":".toList ++
    nat10 u.remaining.toNat ++ ",\"total\":".toList ++ nat10 u.total.toNat ++ "}".toList

/-- Parser for `usesText`. -/
def readUses (cs : List Char) : Option Uses := do
  let cs ← lit "{\"use_method\":\"" cs
  let (m, cs) ← readMethod cs
  let cs ← lit "\",\"remaining\":" cs
  let (remaining, cs) ← readBounded (2 ^ 64) cs
  let cs ← lit ",\"total\":" cs
  let (total, cs) ← readBounded (2 ^ 64) cs
  if cs = "}".toList then some ⟨m, UInt64.ofNat remaining, UInt64.ofNat total⟩ else none

/-- An environment whose JSON is `serde_json`'s. -/
def serdeEnv (env : Env) : Env :=
  { env with
    jsonCreators := fun c => String.ofList (creatorsText c)
    parseCreators := fun s => readCreators s.toList
    jsonCollection := fun c => String.ofList (collectionText c)
    parseCollection := fun s => readCollection s.toList
    jsonUses := fun u => String.ofList (usesText u)
    parseUses := fun s => readUses s.toList }

/-! ## Reading back -/

@[simp] theorem lit_append (s : String) (rest : List Char) : lit s (s.toList ++ rest) = some rest := by
  simp [lit]

theorem alphabet_nodup : alphabet.Nodup := by decide
theorem alphabet_length : alphabet.length = 58 := by decide

theorem digit58_char58 {d : Nat} (h : d < 58) : digit58 (char58 d) = some d := by
  have : ∀ d : Fin 58, digit58 (char58 d) = some d.val := by decide
  exact this ⟨d, h⟩

theorem char58_ne_quote {d : Nat} (h : d < 58) : char58 d ≠ '"' := by
  have : ∀ d : Fin 58, char58 d ≠ '"' := by decide
  exact this ⟨d, h⟩

theorem mapM_digit58 : ∀ {ds : List Nat}, (∀ d ∈ ds, d < 58) →
    (ds.map char58).mapM digit58 = some ds
  | [], _ => rfl
  | d :: ds, h => by
    rw [List.map_cons, List.mapM_cons, digit58_char58 (h d (by simp)),
      mapM_digit58 (fun x hx => h x (by simp [hx]))]
    rfl

theorem split_zeros (bs : Bytes) : bs = List.replicate (bs.takeWhile (· = 0)).length 0 ++
    bs.dropWhile (· = 0) := by
  induction bs with
  | nil => rfl
  | cons b bs ih =>
    by_cases hb : b = 0
    · subst hb
      simp only [List.takeWhile_cons, decide_true, if_true, List.length_cons, List.replicate_succ,
        List.cons_append, List.dropWhile_cons]
      rw [← ih]
    · simp [hb]

theorem head_dropWhile (bs : Bytes) : ∀ h : bs.dropWhile (· = 0) ≠ [],
    (bs.dropWhile (· = 0)).head h ≠ 0 := by
  induction bs with
  | nil => intro h; exact absurd rfl h
  | cons b bs ih =>
    by_cases hb : b = 0
    · subst hb; simpa [List.dropWhile_cons] using ih
    · intro h; simp [hb]

theorem unbase58_base58 (bs : Bytes) : unbase58 (base58 bs) = some bs := by
  set z := (bs.takeWhile (· = 0)).length with hz
  set rest := bs.dropWhile (· = 0) with hrest
  have hsplit : bs = List.replicate z 0 ++ rest := split_zeros bs
  set n := Nat.ofDigits 256 (bs.reverse.map UInt8.toNat) with hn
  have hn' : n = Nat.ofDigits 256 (rest.reverse.map UInt8.toNat) := by
    rw [hn, hsplit, List.reverse_append, List.map_append, Nat.ofDigits_append]
    have : ∀ m, Nat.ofDigits 256 ((List.replicate m (0 : UInt8)).reverse.map UInt8.toNat) = 0 := by
      intro m
      rw [List.reverse_replicate, List.map_replicate]
      induction m with
      | zero => rfl
      | succ m ih => rw [List.replicate_succ, Nat.ofDigits_cons, ih]; rfl
    rw [this]; simp
  have hdig : Nat.digits 256 n = rest.reverse.map UInt8.toNat := by
    rw [hn']
    refine Nat.digits_ofDigits 256 (by decide) _ ?_ ?_
    · intro l hl
      obtain ⟨b, _, rfl⟩ := List.mem_map.1 hl
      exact b.toNat_lt
    · intro h
      have hne : rest ≠ [] := by
        intro h'; rw [h'] at h; exact h rfl
      have := head_dropWhile bs hne
      rw [List.getLast_map (by simpa using hne), List.getLast_reverse]
      intro h0
      exact this (UInt8.toNat_inj.1 (by simpa using h0))
  have hds : ∀ d ∈ (Nat.digits 58 n).reverse, d < 58 := by
    intro d hd
    exact Nat.digits_lt_base (by decide) (List.mem_reverse.1 hd)
  have hall : base58 bs = (List.replicate z 0 ++ (Nat.digits 58 n).reverse).map char58 := by
    unfold base58
    rw [List.map_append, List.map_replicate]
    rfl
  unfold unbase58
  rw [hall, mapM_digit58 (by
    intro d hd
    rcases List.mem_append.1 hd with h | h
    · rw [(List.mem_replicate.1 h).2]; decide
    · exact hds d h)]
  have hz' : ((List.replicate z 0 ++ (Nat.digits 58 n).reverse).takeWhile (· = 0)).length = z := by
    have h0 : ((Nat.digits 58 n).reverse).takeWhile (· = 0) = [] := by
      by_cases hn0 : n = 0
      · simp [hn0]
      · have hne : (Nat.digits 58 n) ≠ [] := Nat.digits_ne_nil_iff_ne_zero.2 hn0
        have hl := Nat.getLast_digit_ne_zero 58 hn0
        have hrne : (Nat.digits 58 n).reverse ≠ [] := by simpa using hne
        obtain ⟨x, xs, hx⟩ := List.exists_cons_of_ne_nil hrne
        have : x = (Nat.digits 58 n).getLast hne := by
          have := List.head_reverse hrne
          rw [← this]; simp [hx]
        rw [hx, List.takeWhile_cons]
        rw [← this] at hl
        simp [hl]
    rw [List.takeWhile_append]
    have hrep : (List.replicate z (0 : Nat)).takeWhile (· = 0) = List.replicate z 0 := by
      simp
    rw [hrep, h0]
    simp
  have hofd : Nat.ofDigits 58 (List.replicate z 0 ++ (Nat.digits 58 n).reverse).reverse = n := by
    rw [List.reverse_append, List.reverse_reverse, List.reverse_replicate, Nat.ofDigits_append,
      Nat.ofDigits_digits]
    have : ∀ m, Nat.ofDigits 58 (List.replicate m 0) = 0 := by
      intro m
      induction m with
      | zero => rfl
      | succ m ih => rw [List.replicate_succ, Nat.ofDigits_cons, ih]
    rw [this]; simp
  have hback : List.replicate z 0 ++
      ((Nat.digits 256 n).reverse.map UInt8.ofNat) = bs := by
    rw [hdig, List.map_reverse, List.map_map]
    conv_rhs => rw [hsplit]
    congr 1
    rw [← List.map_reverse, List.reverse_reverse]
    have : UInt8.ofNat ∘ UInt8.toNat = id := by funext x; simp
    rw [this, List.map_id]
  simp only [Option.bind_eq_bind, Option.bind_some, hz', hofd, hback]

theorem ofBase58_toBase58 (k : Pubkey) : ofBase58 (toBase58 k) = some k := by
  unfold ofBase58 toBase58
  rw [unbase58_base58]
  simp only [Option.bind_eq_bind, Option.bind_some]
  rw [dif_pos k.len]

theorem base58_alphabet (bs : Bytes) : ∀ c ∈ base58 bs, c ∈ alphabet := by
  intro c hc
  unfold base58 at hc
  rcases List.mem_append.1 hc with h | h
  · rw [(List.mem_replicate.1 h).2]; decide
  · obtain ⟨d, hd, rfl⟩ := List.mem_map.1 h
    have : ∀ d : Fin 58, char58 d ∈ alphabet := by decide
    exact this ⟨d, Nat.digits_lt_base (by decide) (List.mem_reverse.1 hd)⟩

theorem toBase58_noQuote (k : Pubkey) : ∀ c ∈ toBase58 k, c ≠ '"' := by
  intro c hc
  have := base58_alphabet k.bytes c hc
  rintro rfl
  revert this
  decide

theorem takeWhile_stop {p : Char → Bool} {a rest : List Char} {c : Char} (ha : ∀ x ∈ a, p x = true)
    (hc : p c = false) : (a ++ c :: rest).takeWhile p = a ∧
      (a ++ c :: rest).dropWhile p = c :: rest := by
  induction a with
  | nil => simp [hc]
  | cons x a ih =>
    have hx := ha x (by simp)
    obtain ⟨h1, h2⟩ := ih (fun y hy => ha y (by simp [hy]))
    exact ⟨by simp [hx, h1], by simp [hx, h2]⟩

theorem readKey_ok (k : Pubkey) (rest : List Char) :
    readKey (toBase58 k ++ '"' :: rest) = some (k, '"' :: rest) := by
  obtain ⟨h1, h2⟩ := takeWhile_stop (p := fun c => decide (c ≠ '"')) (a := toBase58 k)
    (rest := rest) (c := '"') (by intro x hx; simpa using toBase58_noQuote k x hx) (by simp)
  unfold readKey
  rw [h1, h2, ofBase58_toBase58]
  rfl

theorem digit_char {d : Nat} (h : d < 10) :
    (Char.ofNat (48 + d)).isDigit = true ∧ (Char.ofNat (48 + d)).toNat - 48 = d := by
  have : ∀ d : Fin 10, (Char.ofNat (48 + d)).isDigit = true ∧
      (Char.ofNat (48 + d)).toNat - 48 = d.val := by decide
  exact this ⟨d, h⟩

theorem readNat_ok (n : Nat) (c : Char) (hc : c.isDigit = false) (rest : List Char) :
    readNat (nat10 n ++ c :: rest) = some (n, c :: rest) := by
  have hdig : ∀ x ∈ nat10 n, x.isDigit = true := by
    intro x hx
    unfold nat10 at hx
    split at hx
    · simp at hx; subst hx; decide
    · obtain ⟨d, hd, rfl⟩ := List.mem_map.1 hx
      exact (digit_char (Nat.digits_lt_base (by decide) (List.mem_reverse.1 hd))).1
  obtain ⟨h1, h2⟩ := takeWhile_stop (p := Char.isDigit) (rest := rest) hdig hc
  unfold readNat
  simp only [h1, h2]
  have hne : nat10 n ≠ [] := by
    unfold nat10
    split
    · simp
    · rename_i h
      simpa using Nat.digits_ne_nil_iff_ne_zero.2 h
  rw [if_neg hne]
  congr 2
  unfold nat10
  split
  · rename_i h; subst h; decide
  · rw [← List.map_reverse, List.reverse_reverse, List.map_map]
    have : (Nat.digits 10 n).map ((fun c : Char => c.toNat - 48) ∘ fun d => Char.ofNat (48 + d)) =
        Nat.digits 10 n := by
      conv_rhs => rw [← List.map_id (Nat.digits 10 n)]
      apply List.map_congr_left
      intro d hd
      exact (digit_char (Nat.digits_lt_base (by decide) hd)).2
    rw [this, Nat.ofDigits_digits]

theorem readBounded_ok {n b : Nat} (h : n < b) (c : Char) (hc : c.isDigit = false)
    (rest : List Char) : readBounded b (nat10 n ++ c :: rest) = some (n, c :: rest) := by
  unfold readBounded
  rw [readNat_ok n c hc rest]
  simp [h]

theorem readBool_ok (b : Bool) (rest : List Char) :
    readBool ((boolText b).toList ++ rest) = some (b, rest) := by
  unfold readBool
  cases b with
  | true =>
    have : (boolText true).toList = "true".toList := rfl
    rw [this, lit_append]
  | false =>
    have h1 : lit "true" ((boolText false).toList ++ rest) = none := by
      have : (boolText false).toList = ['f', 'a', 'l', 's', 'e'] := by decide
      rw [this]
      have : "true".toList = ['t', 'r', 'u', 'e'] := by decide
      simp [lit, this]
    have h2 : lit "false" ((boolText false).toList ++ rest) = some rest := lit_append "false" rest
    rw [h1, h2]
    rfl

theorem readCreator_ok (c : Creator) (rest : List Char) :
    readCreator (creatorText c ++ rest) = some (c, rest) := by
  have q : "\",\"verified\":".toList = '"' :: ",\"verified\":".toList := by decide
  have b : "}".toList = ['}'] := by decide
  have e : creatorText c ++ rest = "{\"address\":\"".toList ++ (toBase58 c.address ++
      ('"' :: (",\"verified\":".toList ++ ((boolText c.verified).toList ++ (",\"share\":".toList ++
        (nat10 c.share.toNat ++ '}' :: rest)))))) := by
    unfold creatorText
    rw [q, b]
    simp only [List.append_assoc, List.cons_append, List.nil_append]
  unfold readCreator
  rw [e, lit_append]
  simp only [Option.bind_eq_bind, Option.bind_some, readKey_ok]
  rw [← List.cons_append, ← q, lit_append]
  simp only [Option.bind_some, readBool_ok, lit_append]
  rw [readBounded_ok c.share.toNat_lt '}' (by decide)]
  simp only [Option.bind_some]
  have : '}' :: rest = "}".toList ++ rest := by rw [b]; rfl
  rw [this, lit_append]
  simp

theorem creatorText_pos (c : Creator) : 0 < (creatorText c).length := by
  have : "{\"address\":\"".toList ≠ [] := by decide
  unfold creatorText
  simp only [List.length_append]
  have := List.length_pos_iff.2 this
  omega

theorem moreText_length (cs : List Creator) : cs.length ≤ (moreText cs).length := by
  induction cs with
  | nil => simp [moreText]
  | cons c cs ih =>
    simp only [moreText, List.length_cons, List.length_append]
    omega

theorem readMore_ok : ∀ (cs : List Creator) (fuel : Nat), cs.length ≤ fuel →
    readMore fuel (moreText cs ++ [']']) = some cs
  | [], fuel, _ => by cases fuel <;> rfl
  | c :: cs, 0, h => by simp at h
  | c :: cs, fuel + 1, h => by
    have e : moreText (c :: cs) ++ [']'] = ',' :: (creatorText c ++ (moreText cs ++ [']'])) := by
      simp [moreText]
    rw [e]
    unfold readMore
    simp only [readCreator_ok, Option.bind_eq_bind, Option.bind_some]
    rw [readMore_ok cs fuel (by simpa using h)]
    rfl

theorem readCreators_ok (cs : List Creator) : readCreators (creatorsText cs) = some cs := by
  cases cs with
  | nil => rfl
  | cons c cs =>
    have hne : creatorsText (c :: cs) ≠ "[]".toList := by
      have : "[]".toList = ['[', ']'] := by decide
      rw [this]
      have hp := creatorText_pos c
      intro h
      have := congrArg List.length h
      simp only [creatorsText, List.length_cons, List.length_append, List.length_nil] at this
      omega
    unfold readCreators
    rw [if_neg hne]
    unfold creatorsText
    simp only [readCreator_ok, Option.bind_eq_bind, Option.bind_some]
    rw [readMore_ok cs _ (by
      have := moreText_length cs
      simp only [List.length_append]
      omega)]
    rfl

theorem readCollection_ok (c : Collection) : readCollection (collectionText c) = some c := by
  have q : "\"}".toList = '"' :: ['}'] := by decide
  have e : collectionText c = "{\"verified\":".toList ++ ((boolText c.verified).toList ++
      (",\"key\":\"".toList ++ (toBase58 c.key ++ '"' :: ['}']))) := by
    unfold collectionText
    rw [q]
    simp only [List.append_assoc]
  unfold readCollection
  rw [e, lit_append]
  simp only [Option.bind_eq_bind, Option.bind_some, readBool_ok, lit_append, readKey_ok]
  rw [if_pos q.symm]

theorem readMethod_ok (m : UseMethod) (rest : List Char) :
    readMethod ((methodText m).toList ++ rest) = some (m, rest) := by
  have hb : "Burn".toList = ['B', 'u', 'r', 'n'] := by decide
  have hm : "Multiple".toList = 'M' :: ['u', 'l', 't', 'i', 'p', 'l', 'e'] := by decide
  have hs : "Single".toList = 'S' :: ['i', 'n', 'g', 'l', 'e'] := by decide
  unfold readMethod
  cases m with
  | burn =>
    have : (methodText .burn).toList = "Burn".toList := rfl
    rw [this, lit_append]
  | multiple =>
    have : (methodText .multiple).toList = "Multiple".toList := rfl
    rw [this, lit_append]
    have : lit "Burn" ("Multiple".toList ++ rest) = none := by simp [lit, hb, hm]
    rw [this]
  | single =>
    have : (methodText .single).toList = "Single".toList := rfl
    rw [this, lit_append]
    have h1 : lit "Burn" ("Single".toList ++ rest) = none := by simp [lit, hb, hs]
    have h2 : lit "Multiple" ("Single".toList ++ rest) = none := by simp [lit, hm, hs]
    rw [h1, h2]
    rfl

theorem readUses_ok (u : Uses) : readUses (usesText u) = some u := by
  have q : ",\"total\":".toList = ',' :: "\"total\":".toList := by decide
  have b : "}".toList = '}' :: [] := by decide
  have e : usesText u = "{\"use_method\":\"".toList ++ ((methodText u.useMethod).toList ++
      ("\",\"remaining\":".toList ++ (nat10 u.remaining.toNat ++ (',' :: ("\"total\":".toList ++
        (nat10 u.total.toNat ++ '}' :: [])))))) := by
    unfold usesText
    rw [q, b]
    simp only [List.append_assoc, List.cons_append]
  unfold readUses
  rw [e, lit_append]
  simp only [Option.bind_eq_bind, Option.bind_some, readMethod_ok, lit_append]
  rw [readBounded_ok u.remaining.toNat_lt ',' (by decide)]
  simp only [Option.bind_some]
  rw [← List.cons_append, ← q, lit_append]
  simp only [Option.bind_some]
  rw [readBounded_ok u.total.toNat_lt '}' (by decide)]
  simp only [Option.bind_some]
  rw [if_pos b.symm]
  simp

/-! ## The well-known addresses

The byte constants of the model are the addresses their base-58 names say
(/repo/program/src/lib.rs:19, and the ids of the external programs). -/

example : String.ofList (toBase58 crateId) = "TwRapQCDhWkZRrDaHfZGuHxkZ91gHDRkyuzNqeU5MgR" := by
  decide +kernel
example : String.ofList (toBase58 splTokenId) = "TokenkegQfeZyiNwAJbNbGKPFXCWuBvf9Ss623VQ5DA" := by
  decide +kernel
example : String.ofList (toBase58 token2022Id) = "TokenzQdBNbLqP5VEhdkAS6EPFLC1PHnBqCXEpPxuEb" := by
  decide +kernel
example : String.ofList (toBase58 ataProgramId) =
    "ATokenGPvbdGVxr1b2hvZbsiqW5xWH25efTNsLJA8knL" := by decide +kernel
example : String.ofList (toBase58 metaplexId) = "metaqbxxUerdq28cj1RbAWkYQm3ybzjb6a8bt518x1s" := by
  decide +kernel
example : String.ofList (toBase58 systemId) = "11111111111111111111111111111111" := by
  decide +kernel
example : String.ofList (toBase58 incineratorId) =
    "1nc1nerator11111111111111111111111111111111" := by decide +kernel
example : nativeMints.map (fun k => String.ofList (toBase58 k)) =
    ["So11111111111111111111111111111111111111112",
     "9pan9bMn5HatX4EJdBwg9VgCa7Uz5HL8N1m5D3NdXejP"] := by decide +kernel

/-- A creator as `serde_json` prints it. -/
example : String.ofList (creatorsText [⟨token2022Id, false, 100⟩]) =
    "[{\"address\":\"TokenzQdBNbLqP5VEhdkAS6EPFLC1PHnBqCXEpPxuEb\",\"verified\":false,\"share\":100}]" := by
  decide +kernel

end TokenWrap.Serde
