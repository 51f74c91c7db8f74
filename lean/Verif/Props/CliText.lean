import Verif.CliText
/-!
# C100: what the CLI prints can be read back

In the display formats every value of the result stands on a line of its own after its label; in the JSON
formats the result can be read back from the object; `quiet` prints nothing.
-/

namespace TokenWrap
namespace CliText

/-! ## Reading text (specification) -/

/-- The lines of a text. -/
def lines : Text → List Text
  | [] => [[]]
  | c :: cs =>
    if c = '\n' then [] :: lines cs
    else match lines cs with
      | [] => [[c]]
      | l :: ls => (c :: l) :: ls

/-- What follows a prefix. -/
def after (p t : Text) : Option Text := if p.isPrefixOf t then some (t.drop p.length) else none

/-- The value printed under a label: the rest of the first line that starts with the label and a
space. -/
def field (name : String) (t : Text) : Option Text :=
  (lines t).findSome? (after (name.toList ++ [' ']))

/-- The lines after "Signers:", without their indentation. -/
def signers (t : Text) : List Text :=
  (((lines t).dropWhile (· ≠ "Signers:".toList)).drop 1).filterMap (after [' ', ' '])

/-! ## Lines -/

theorem lines_ne (t : Text) : lines t ≠ [] := by
  cases t with
  | nil => simp [lines]
  | cons c cs =>
    simp only [lines]
    split
    · simp
    · split <;> simp

theorem lines_append {l r : Text} (h : '\n' ∉ l) : lines (l ++ '\n' :: r) = l :: lines r := by
  induction l with
  | nil => simp [lines]
  | cons c l ih =>
    rw [List.mem_cons, not_or] at h
    rw [List.cons_append, lines, if_neg (fun e => h.1 e.symm), ih h.2]

/-- Labels: no newline and no colon but the last character, which is one; no leading space. -/
def label (s : String) : Bool :=
  s.toList.getLast? = some ':' && s.toList.dropLast.all (fun c => c ≠ ':' && c ≠ '\n') &&
    s.toList.head? ≠ some ' '

theorem label_split {s : String} (h : label s = true) :
    ∃ w, s.toList = w ++ [':'] ∧ (∀ c ∈ w, c ≠ ':') ∧ '\n' ∉ s.toList ∧ s.toList.head? ≠ some ' ' := by
  unfold label at h
  simp only [Bool.and_eq_true, decide_eq_true_eq, List.all_eq_true] at h
  obtain ⟨⟨h1, h2⟩, h3⟩ := h
  obtain ⟨w, hw⟩ : ∃ w, s.toList = w ++ [':'] := by
    have hne : s.toList ≠ [] := by intro e; rw [e] at h1; cases h1
    refine ⟨s.toList.dropLast, ?_⟩
    have := List.dropLast_append_getLast hne
    rw [List.getLast?_eq_some_getLast hne] at h1
    rw [Option.some.inj h1] at this
    exact this.symm
  refine ⟨w, hw, ?_, ?_, h3⟩
  · intro c hc
    rw [hw, List.dropLast_concat] at h2
    exact (h2 c hc).1
  · intro hn
    rw [hw] at hn h2
    rw [List.dropLast_concat] at h2
    rcases List.mem_append.1 hn with hn | hn
    · exact (h2 _ hn).2 rfl
    · simp at hn

theorem takeWhile_colon {w r : Text} (h : ∀ c ∈ w, c ≠ ':') :
    (w ++ ':' :: r).takeWhile (· ≠ ':') = w := by
  induction w with
  | nil => simp
  | cons c w ih =>
    rw [List.cons_append, List.takeWhile_cons_of_pos (by simpa using h c (List.mem_cons_self ..)),
      ih fun x hx => h x (List.mem_cons_of_mem _ hx)]

theorem after_some {p t v : Text} : after p t = some v ↔ t = p ++ v := by
  unfold after
  constructor
  · intro h
    split at h
    · rename_i hp
      obtain ⟨r, rfl⟩ := List.isPrefixOf_iff_prefix.1 hp
      cases h
      rw [List.drop_left]
    · cases h
  · rintro rfl
    rw [if_pos (List.isPrefixOf_iff_prefix.2 (List.prefix_append ..)), List.drop_left]

theorem after_none {p t : Text} (h : ∀ v, t ≠ p ++ v) : after p t = none := by
  cases ha : after p t with
  | none => rfl
  | some v => exact absurd (after_some.1 ha) (h v)

theorem after_row {a b : String} {v : Text} (ha : label a = true) (hb : label b = true) :
    after (a.toList ++ [' ']) (b.toList ++ ' ' :: v) = if b = a then some v else none := by
  split
  · rename_i h
    subst h
    exact after_some.2 (by simp)
  · rename_i h
    refine after_none fun r e => h ?_
    obtain ⟨wa, ea, ca, _⟩ := label_split ha
    obtain ⟨wb, eb, cb, _⟩ := label_split hb
    have h1 : (b.toList ++ ' ' :: v).takeWhile (· ≠ ':') = wb := by
      rw [eb, List.append_assoc]; exact takeWhile_colon cb
    have h2 : (a.toList ++ [' '] ++ r).takeWhile (· ≠ ':') = wa := by
      rw [ea, List.append_assoc, List.append_assoc]; exact takeWhile_colon ca
    rw [e, h2] at h1
    apply String.toList_injective
    rw [ea, eb, h1]

/-! ## Rows -/

/-- Rows with proper labels, whose values fit on a line. -/
def GoodRows (l : List (String × Text)) : Prop := ∀ r ∈ l, label r.1 = true ∧ '\n' ∉ r.2

theorem lines_row {r : String × Text} {t : Text} (h1 : label r.1 = true) (h2 : '\n' ∉ r.2) :
    lines (row r ++ t) = (r.1.toList ++ ' ' :: r.2) :: lines t := by
  obtain ⟨_, _, _, h3, _⟩ := label_split h1
  rw [show row r ++ t = (r.1.toList ++ ' ' :: r.2) ++ '\n' :: t by simp [row]]
  refine lines_append ?_
  rw [List.mem_append, List.mem_cons, not_or, not_or]
  exact ⟨h3, by decide, h2⟩

theorem lines_rows {l : List (String × Text)} {t : Text} (h : GoodRows l) :
    lines (l.flatMap row ++ t) = (l.map fun r => r.1.toList ++ ' ' :: r.2) ++ lines t := by
  induction l with
  | nil => rfl
  | cons r l ih =>
    obtain ⟨h1, h2⟩ := h r (List.mem_cons_self ..)
    rw [List.flatMap_cons, List.append_assoc, lines_row h1 h2, ih fun x hx => h x (List.mem_cons_of_mem _ hx)]
    rfl

theorem field_rows {name : String} {l : List (String × Text)} {t : Text} (hn : label name = true)
    (h : GoodRows l) :
    field name (l.flatMap row ++ t) = (l.findSome? fun r => if r.1 = name then some r.2 else none).or
      (field name t) := by
  unfold field
  rw [lines_rows h]
  induction l with
  | nil => rfl
  | cons r l ih =>
    obtain ⟨h1, h2⟩ := h r (List.mem_cons_self ..)
    rw [List.map_cons, List.cons_append, List.findSome?_cons, List.findSome?_cons, after_row hn h1]
    by_cases e : r.1 = name
    · simp only [if_pos e]; rfl
    · simp only [if_neg e]
      exact ih fun x hx => h x (List.mem_cons_of_mem _ hx)

theorem base58_noNewline (b : Bytes) : '\n' ∉ Serde.base58 b := by
  intro h
  have := Serde.base58_alphabet b _ h
  revert this
  decide

theorem base58_noSpace (b : Bytes) : ' ' ∉ Serde.base58 b := by
  intro h
  have := Serde.base58_alphabet b _ h
  revert this
  decide

theorem nat10_noNewline (n : Nat) : '\n' ∉ Serde.nat10 n := by
  intro hx
  unfold Serde.nat10 at hx
  split at hx
  · revert hx; decide
  · obtain ⟨d, hd, e⟩ := List.mem_map.1 hx
    have := (Serde.digit_char (Nat.digits_lt_base (by decide) (List.mem_reverse.1 hd))).1
    rw [e] at this
    revert this
    decide

theorem optRow_good {name : String} {v : Option Text} (hn : label name = true)
    (hv : ∀ t, v = some t → '\n' ∉ t) : GoodRows (optRow name v) := by
  intro r hr
  cases v with
  | none => cases hr
  | some t =>
    simp only [optRow, Option.map_some, Option.toList_some, List.mem_singleton] at hr
    subst hr
    exact ⟨hn, hv t rfl⟩

theorem optKey_noNewline {o : Option Pubkey} : ∀ t, o.map keyText = some t → '\n' ∉ t := by
  intro t h
  cases o with
  | none => cases h
  | some k => cases h; exact base58_noNewline _

theorem optSig_noNewline {o : Option Signature} : ∀ t, o.map Signature.text = some t → '\n' ∉ t := by
  intro t h
  cases o with
  | none => cases h
  | some k => cases h; exact base58_noNewline _

theorem GoodRows.append {a b : List (String × Text)} (ha : GoodRows a) (hb : GoodRows b) :
    GoodRows (a ++ b) := by
  intro r hr
  rcases List.mem_append.1 hr with h | h
  · exact ha r h
  · exact hb r h

theorem GoodRows.nil : GoodRows [] := by intro r hr; cases hr

theorem GoodRows.cons {n : String} {t : Text} {l : List (String × Text)} (h1 : label n = true)
    (h2 : '\n' ∉ t) (h : GoodRows l) : GoodRows ((n, t) :: l) := by
  intro r hr
  rcases List.mem_cons.1 hr with rfl | hr
  · exact ⟨h1, h2⟩
  · exact h r hr

theorem rows_good (o : CliOutput) : GoodRows (rows o) := by
  have k : ∀ k : Pubkey, '\n' ∉ keyText k := fun k => base58_noNewline _
  cases o <;> simp only [rows] <;>
    repeat' first
      | exact optRow_good (by decide) optKey_noNewline
      | exact optRow_good (by decide) optSig_noNewline
      | exact GoodRows.nil
      | exact k _
      | exact nat10_noNewline _
      | refine GoodRows.append ?_ ?_
      | refine GoodRows.cons (by decide) ?_ ?_

/-- Lines of the signature list. -/
theorem lines_signers (l : List Signature) :
    lines (signersText l) = "Signers:".toList :: ((l.map fun s => ' ' :: ' ' :: s.text) ++ [[]]) := by
  unfold signersText
  rw [lines_append (by decide)]
  congr 1
  induction l with
  | nil => rfl
  | cons s l ih =>
    show lines ((' ' :: ' ' :: (s.text ++ ['\n'])) ++ l.flatMap fun s => ' ' :: ' ' :: (s.text ++ ['\n'])) =
      (' ' :: ' ' :: s.text) :: ((l.map fun s => ' ' :: ' ' :: s.text) ++ [[]])
    rw [← ih, show (' ' :: ' ' :: (s.text ++ ['\n'])) ++ (l.flatMap fun s => ' ' :: ' ' :: (s.text ++ ['\n'])) =
      (' ' :: ' ' :: s.text) ++ '\n' :: (l.flatMap fun s => ' ' :: ' ' :: (s.text ++ ['\n'])) by simp]
    refine lines_append ?_
    rw [List.mem_cons, List.mem_cons, not_or, not_or]
    exact ⟨by decide, by decide, base58_noNewline _⟩

theorem field_signers {name : String} (hn : label name = true) (l : List Signature) :
    field name (signersText l) = none := by
  obtain ⟨w, e, c, _, hh⟩ := label_split hn
  unfold field
  rw [lines_signers, List.findSome?_eq_none_iff]
  intro t ht
  refine after_none fun v ev => ?_
  rcases List.mem_cons.1 ht with rfl | ht
  · have : ' ' ∈ "Signers:".toList := by rw [ev]; simp
    revert this
    decide
  · rcases List.mem_append.1 ht with ht | ht
    · obtain ⟨s, _, rfl⟩ := List.mem_map.1 ht
      cases hs : name.toList with
      | nil => rw [hs] at e; cases w <;> cases e
      | cons x xs =>
        rw [hs, List.cons_append, List.cons_append] at ev
        have hx := (List.cons.inj ev).1
        rw [hs, ← hx] at hh
        exact hh rfl
    · rw [List.mem_singleton.1 ht] at ev
      have := congrArg List.length ev
      simp at this

theorem indented (l : List Signature) :
    (l.map fun s => ' ' :: ' ' :: s.text).filterMap (after [' ', ' ']) = l.map Signature.text := by
  induction l with
  | nil => rfl
  | cons s l ih =>
    have e : after [' ', ' '] (' ' :: ' ' :: s.text) = some s.text := after_some.2 rfl
    rw [List.map_cons, List.filterMap_cons_some e, List.map_cons, ih]

theorem signers_rows {l : List (String × Text)} {sigs : List Signature} (h : GoodRows l) :
    signers (l.flatMap row ++ signersText sigs) = sigs.map Signature.text := by
  unfold signers
  rw [lines_rows h, lines_signers]
  have hd : ∀ l : List (String × Text),
      ((l.map fun r => r.1.toList ++ ' ' :: r.2) ++
        "Signers:".toList :: ((sigs.map fun s => ' ' :: ' ' :: s.text) ++ [[]])).dropWhile
          (· ≠ "Signers:".toList) =
        "Signers:".toList :: ((sigs.map fun s => ' ' :: ' ' :: s.text) ++ [[]]) := by
    intro l
    induction l with
    | nil => exact List.dropWhile_cons_of_neg (by decide)
    | cons r l ih =>
      rw [List.map_cons, List.cons_append, List.dropWhile_cons_of_pos, ih]
      refine decide_eq_true ?_
      intro e
      have : ' ' ∈ "Signers:".toList := by rw [← e]; simp
      revert this
      decide
  rw [hd, List.drop_one, List.tail_cons, List.filterMap_append]
  rw [indented]
  simp [after]

/-! ## The display formats -/

/-- A text shows a result: under each label stands the value; signatures follow after "Signers:" unless the
transaction was only signed; optional values are shown exactly if present. -/
def Shows (t : Text) : CliOutput → Prop
  | .wrap o =>
    field "Unwrapped mint address:" t = some (keyText o.unwrappedMint) ∧
    field "Wrapped mint address:" t = some (keyText o.wrappedMint) ∧
    field "Unwrapped token account:" t = some (keyText o.unwrappedTokenAccount) ∧
    field "Recipient wrapped token account:" t = some (keyText o.recipient) ∧
    field "Escrow account:" t = some (keyText o.escrow) ∧
    field "Amount:" t = some (Serde.nat10 o.amount.toNat) ∧
    (o.signOnly = none → signers t = o.signatures.map Signature.text)
  | .unwrap o =>
    field "Unwrapped token program:" t = some (keyText o.unwrappedTokenProgram) ∧
    field "Unwrapped mint address:" t = some (keyText o.unwrappedMint) ∧
    field "Wrapped mint address:" t = some (keyText o.wrappedMint) ∧
    field "Wrapped token account:" t = some (keyText o.wrappedTokenAccount) ∧
    field "Escrow account:" t = some (keyText o.escrow) ∧
    field "Recipient unwrapped token account:" t = some (keyText o.recipient) ∧
    field "Amount unwrapped:" t = some (Serde.nat10 o.amount.toNat) ∧
    (o.signOnly = none → signers t = o.signatures.map Signature.text)
  | .findPdas o =>
    field "Wrapped mint address:" t = some (keyText o.wrappedMint) ∧
    field "Wrapped mint authority:" t = some (keyText o.authority) ∧
    field "Wrapped backpointer address:" t = some (keyText o.backpointer) ∧
    field "Unwrapped escrow address:" t = some (keyText o.escrow)
  | .createMint o =>
    field "Unwrapped mint address:" t = some (keyText o.unwrappedMint) ∧
    field "Wrapped mint address:" t = some (keyText o.wrappedMint) ∧
    field "Wrapped backpointer address:" t = some (keyText o.backpointer) ∧
    field "Funded wrapped mint lamports:" t = some (Serde.nat10 o.fundedMint) ∧
    field "Funded backpointer lamports:" t = some (Serde.nat10 o.fundedBackpointer) ∧
    field "Signature:" t = o.signature.map Signature.text
  | .createEscrow o =>
    field "Escrow Account Address:" t = some (keyText o.escrow) ∧
    field "Escrow Account Owner (wrapped mint authority):" t = some (keyText o.owner) ∧
    field "Unwrapped Token Program ID:" t = some (keyText o.unwrappedTokenProgram) ∧
    field "Signature:" t = o.signature.map Signature.text
  | .closeEscrow o =>
    field "Unwrapped mint:" t = some (keyText o.unwrappedMint) ∧
    field "Escrow account:" t = some (keyText o.escrow) ∧
    signers t = o.signatures.map Signature.text
  | .syncSpl o =>
    field "Unwrapped mint:" t = some (keyText o.unwrappedMint) ∧
    field "Wrapped mint:" t = some (keyText o.wrappedMint) ∧
    field "Wrapped mint authority:" t = some (keyText o.authority) ∧
    field "Metaplex metadata account:" t = some (keyText o.metaplexMetadata) ∧
    field "Source metadata:" t = o.source.map keyText ∧
    field "Owner program:" t = o.program.map keyText ∧
    field "Signature:" t = o.signature.map Signature.text
  | .sync22 o =>
    field "Unwrapped mint:" t = some (keyText o.unwrappedMint) ∧
    field "Wrapped mint:" t = some (keyText o.wrappedMint) ∧
    field "Wrapped mint authority:" t = some (keyText o.authority) ∧
    field "Source metadata:" t = o.source.map keyText ∧
    field "Metadata program id:" t = o.program.map keyText ∧
    signers t = o.signatures.map Signature.text

theorem field_display {name : String} (hn : label name = true) (so : SignOnlyData → Text) (o : CliOutput) :
    field name (display so o) = ((rows o).findSome? fun r => if r.1 = name then some r.2 else none).or
      (field name (tail so o)) :=
  field_rows hn (rows_good o)

theorem field_nil {name : String} (hn : label name = true) : field name [] = none := by
  obtain ⟨w, e, _⟩ := label_split hn
  unfold field
  have : after (name.toList ++ [' ']) [] = none := after_none fun v ev => by
    have := congrArg List.length ev
    simp at this
  simp [lines, this]

theorem find_optRow (name : String) (v : Option Text) (n : String) :
    (optRow n v).findSome? (fun r => if r.1 = name then some r.2 else none) = if n = name then v else none := by
  cases v with
  | none => simp [optRow]
  | some t => simp [optRow]

/-- **C100** (text) In the display formats the printed text shows the result. -/
theorem display_shows (so : SignOnlyData → Text) (o : CliOutput) : Shows (display so o) o := by
  cases o with
  | wrap o =>
    refine ⟨?_, ?_, ?_, ?_, ?_, ?_, ?_⟩
    all_goals first
      | (rw [field_display (by decide)]; simp [rows])
      | skip
    intro h
    rw [display, tail, h]
    exact signers_rows (rows_good _)
  | unwrap o =>
    refine ⟨?_, ?_, ?_, ?_, ?_, ?_, ?_, ?_⟩
    all_goals first
      | (rw [field_display (by decide)]; simp [rows])
      | skip
    intro h
    rw [display, tail, h]
    exact signers_rows (rows_good _)
  | findPdas o =>
    refine ⟨?_, ?_, ?_, ?_⟩
    all_goals rw [field_display (by decide)]; simp [rows]
  | createMint o =>
    refine ⟨?_, ?_, ?_, ?_, ?_, ?_⟩
    all_goals rw [field_display (by decide)]; simp [rows, tail, field_nil, find_optRow, label]
  | createEscrow o =>
    refine ⟨?_, ?_, ?_, ?_⟩
    all_goals rw [field_display (by decide)]; simp [rows, tail, field_nil, find_optRow, label]
  | closeEscrow o =>
    refine ⟨?_, ?_, signers_rows (rows_good _)⟩
    all_goals rw [field_display (by decide)]; simp [rows]
  | syncSpl o =>
    refine ⟨?_, ?_, ?_, ?_, ?_, ?_, ?_⟩
    all_goals rw [field_display (by decide)]; simp [rows, tail, field_nil, find_optRow, label]
  | sync22 o =>
    refine ⟨?_, ?_, ?_, ?_, ?_, signers_rows (rows_good _)⟩
    all_goals
      rw [field_display (by decide), tail, field_signers (by decide)]
      simp [rows, find_optRow]

/-- Results of the same command, none of them of a transaction that was only signed. -/
def SameCommand : CliOutput → CliOutput → Prop
  | .wrap a, .wrap b => a.signOnly = none ∧ b.signOnly = none
  | .unwrap a, .unwrap b => a.signOnly = none ∧ b.signOnly = none
  | .findPdas _, .findPdas _ => True
  | .createMint _, .createMint _ => True
  | .createEscrow _, .createEscrow _ => True
  | .closeEscrow _, .closeEscrow _ => True
  | .syncSpl _, .syncSpl _ => True
  | .sync22 _, .sync22 _ => True
  | _, _ => False

theorem keyText_inj {a b : Pubkey} (h : keyText a = keyText b) : a = b := by
  have := Serde.ofBase58_toBase58 a
  rw [show Serde.toBase58 a = Serde.toBase58 b from h, Serde.ofBase58_toBase58] at this
  exact (Option.some.inj this).symm

theorem sigText_inj {a b : Signature} (h : a.text = b.text) : a = b := by
  have := Serde.unbase58_base58 a.bytes
  rw [show Serde.base58 a.bytes = Serde.base58 b.bytes from h, Serde.unbase58_base58] at this
  exact Signature.ext' (Option.some.inj this).symm

theorem nat10_inj {a b : Nat} (h : Serde.nat10 a = Serde.nat10 b) : a = b := by
  have := Serde.readNat_ok a '.' (by decide) []
  rw [h, Serde.readNat_ok b '.' (by decide) []] at this
  exact ((Prod.mk.inj (Option.some.inj this)).1).symm

theorem sigTexts_inj : ∀ {a b : List Signature}, a.map Signature.text = b.map Signature.text → a = b
  | [], [], _ => rfl
  | [], _ :: _, h => by cases h
  | _ :: _, [], h => by cases h
  | x :: a, y :: b, h => by
    rw [List.map_cons, List.map_cons] at h
    rw [sigText_inj (List.cons.inj h).1, sigTexts_inj (List.cons.inj h).2]

theorem optMap_inj {α : Type} {f : α → Text} (hf : ∀ {a b}, f a = f b → a = b) :
    ∀ {a b : Option α}, a.map f = b.map f → a = b
  | none, none, _ => rfl
  | none, some _, h => by cases h
  | some _, none, h => by cases h
  | some a, some b, h => by rw [hf (Option.some.inj h)]

theorem some_key {a b : Pubkey} {x : Option Text} (h1 : x = some (keyText a)) (h2 : x = some (keyText b)) :
    a = b := keyText_inj (Option.some.inj (h1.symm.trans h2))

theorem some_nat {a b : Nat} {x : Option Text} (h1 : x = some (Serde.nat10 a))
    (h2 : x = some (Serde.nat10 b)) : a = b := nat10_inj (Option.some.inj (h1.symm.trans h2))

theorem some_u64 {a b : UInt64} {x : Option Text} (h1 : x = some (Serde.nat10 a.toNat))
    (h2 : x = some (Serde.nat10 b.toNat)) : a = b := UInt64.toNat_inj.1 (some_nat h1 h2)

theorem opt_key {a b : Option Pubkey} {x : Option Text} (h1 : x = a.map keyText) (h2 : x = b.map keyText) :
    a = b := optMap_inj keyText_inj (h1.symm.trans h2)

theorem opt_sig {a b : Option Signature} {x : Option Text} (h1 : x = a.map Signature.text)
    (h2 : x = b.map Signature.text) : a = b := optMap_inj sigText_inj (h1.symm.trans h2)

/-- **C100** (text) Different results of a command print differently: a text shows at most one. -/
theorem shows_unique {t : Text} {o o' : CliOutput} (hs : SameCommand o o') (h : Shows t o)
    (h' : Shows t o') : o = o' := by
  cases o with
  | wrap a =>
    cases o' with
    | wrap b =>
      obtain ⟨h1, h2, h3, h4, h5, h6, h7⟩ := h
      obtain ⟨g1, g2, g3, g4, g5, g6, g7⟩ := h'
      cases a; cases b
      obtain ⟨rfl, rfl⟩ := hs
      obtain rfl := some_key h1 g1
      obtain rfl := some_key h2 g2
      obtain rfl := some_key h3 g3
      obtain rfl := some_key h4 g4
      obtain rfl := some_key h5 g5
      obtain rfl := some_u64 h6 g6
      obtain rfl := sigTexts_inj ((h7 rfl).symm.trans (g7 rfl))
      rfl
    | _ => exact hs.elim
  | unwrap a =>
    cases o' with
    | unwrap b =>
      obtain ⟨h0, h1, h2, h3, h4, h5, h6, h7⟩ := h
      obtain ⟨g0, g1, g2, g3, g4, g5, g6, g7⟩ := h'
      cases a; cases b
      obtain ⟨rfl, rfl⟩ := hs
      obtain rfl := some_key h0 g0
      obtain rfl := some_key h1 g1
      obtain rfl := some_key h2 g2
      obtain rfl := some_key h3 g3
      obtain rfl := some_key h4 g4
      obtain rfl := some_key h5 g5
      obtain rfl := some_u64 h6 g6
      obtain rfl := sigTexts_inj ((h7 rfl).symm.trans (g7 rfl))
      rfl
    | _ => exact hs.elim
  | findPdas a =>
    cases o' with
    | findPdas b =>
      obtain ⟨h1, h2, h3, h4⟩ := h
      obtain ⟨g1, g2, g3, g4⟩ := h'
      cases a; cases b
      obtain rfl := some_key h1 g1
      obtain rfl := some_key h2 g2
      obtain rfl := some_key h3 g3
      obtain rfl := some_key h4 g4
      rfl
    | _ => exact hs.elim
  | createMint a =>
    cases o' with
    | createMint b =>
      obtain ⟨h1, h2, h3, h4, h5, h6⟩ := h
      obtain ⟨g1, g2, g3, g4, g5, g6⟩ := h'
      cases a; cases b
      obtain rfl := some_key h1 g1
      obtain rfl := some_key h2 g2
      obtain rfl := some_key h3 g3
      obtain rfl := some_nat h4 g4
      obtain rfl := some_nat h5 g5
      obtain rfl := opt_sig h6 g6
      rfl
    | _ => exact hs.elim
  | createEscrow a =>
    cases o' with
    | createEscrow b =>
      obtain ⟨h1, h2, h3, h4⟩ := h
      obtain ⟨g1, g2, g3, g4⟩ := h'
      cases a; cases b
      obtain rfl := some_key h1 g1
      obtain rfl := some_key h2 g2
      obtain rfl := some_key h3 g3
      obtain rfl := opt_sig h4 g4
      rfl
    | _ => exact hs.elim
  | closeEscrow a =>
    cases o' with
    | closeEscrow b =>
      obtain ⟨h1, h2, h3⟩ := h
      obtain ⟨g1, g2, g3⟩ := h'
      cases a; cases b
      obtain rfl := some_key h1 g1
      obtain rfl := some_key h2 g2
      obtain rfl := sigTexts_inj (h3.symm.trans g3)
      rfl
    | _ => exact hs.elim
  | syncSpl a =>
    cases o' with
    | syncSpl b =>
      obtain ⟨h1, h2, h3, h4, h5, h6, h7⟩ := h
      obtain ⟨g1, g2, g3, g4, g5, g6, g7⟩ := h'
      cases a; cases b
      obtain rfl := some_key h1 g1
      obtain rfl := some_key h2 g2
      obtain rfl := some_key h3 g3
      obtain rfl := some_key h4 g4
      obtain rfl := opt_key h5 g5
      obtain rfl := opt_key h6 g6
      obtain rfl := opt_sig h7 g7
      rfl
    | _ => exact hs.elim
  | sync22 a =>
    cases o' with
    | sync22 b =>
      obtain ⟨h1, h2, h3, h4, h5, h6⟩ := h
      obtain ⟨g1, g2, g3, g4, g5, g6⟩ := h'
      cases a; cases b
      obtain rfl := some_key h1 g1
      obtain rfl := some_key h2 g2
      obtain rfl := some_key h3 g3
      obtain rfl := opt_key h4 g4
      obtain rfl := opt_key h5 g5
      obtain rfl := sigTexts_inj (h6.symm.trans g6)
      rfl
    | _ => exact hs.elim

/-! ## The JSON formats (specification of the reader) -/

namespace Json

/-- A member of an object. -/
def get (k : String) : Json → Option Json
  | .obj l => l.lookup k
  | _ => none

/-- An address. -/
def key? : Json → Option Pubkey
  | .str t => Serde.ofBase58 t
  | _ => none

/-- A number. -/
def nat? : Json → Option Nat
  | .num n => some n
  | _ => none

/-- A 64-bit number. -/
def u64? : Json → Option UInt64
  | .num n => if n < 2 ^ 64 then some (UInt64.ofNat n) else none
  | _ => none

/-- An address or null. -/
def optKey? : Json → Option (Option Pubkey)
  | .null => some none
  | .str t => (Serde.ofBase58 t).map some
  | _ => none

/-- A signature in base58, or null. -/
def optSig? : Json → Option (Option Signature)
  | .null => some none
  | .str t => (Signature.parse t).map some
  | _ => none

/-- A byte. -/
def byte? : Json → Option UInt8
  | .num n => if n < 256 then some (UInt8.ofNat n) else none
  | _ => none

/-- A signature as an array of 64 bytes. -/
def sig? : Json → Option Signature
  | .arr l => do
    let bs ← l.mapM byte?
    if h : bs.length = 64 then some ⟨bs, h⟩ else none
  | _ => none

/-- A list of signatures. -/
def sigs? : Json → Option (List Signature)
  | .arr l => l.mapM sig?
  | _ => none

/-- Sign-only data or null. -/
def optSignOnly? (r : Json → Option SignOnlyData) : Json → Option (Option SignOnlyData)
  | .null => some none
  | j => (r j).map some

/-- Reading the result of wrap. -/
def wrap? (r : Json → Option SignOnlyData) (j : Json) : Option WrapOutput := do
  let u ← (j.get "unwrappedMintAddress").bind key?
  let w ← (j.get "wrappedMintAddress").bind key?
  let src ← (j.get "unwrappedTokenAccount").bind key?
  let dst ← (j.get "recipientTokenAccount").bind key?
  let e ← (j.get "escrowAccount").bind key?
  let n ← (j.get "amount").bind u64?
  let s ← (j.get "signatures").bind sigs?
  let d ← (j.get "signOnlyData").bind (optSignOnly? r)
  pure ⟨u, w, src, dst, e, n, s, d⟩

/-- Reading the result of unwrap. -/
def unwrap? (r : Json → Option SignOnlyData) (j : Json) : Option UnwrapOutput := do
  let p ← (j.get "unwrappedTokenProgram").bind key?
  let u ← (j.get "unwrappedMintAddress").bind key?
  let w ← (j.get "wrappedMintAddress").bind key?
  let e ← (j.get "escrowAccount").bind key?
  let src ← (j.get "wrappedTokenAccount").bind key?
  let dst ← (j.get "recipientTokenAccount").bind key?
  let n ← (j.get "amount").bind u64?
  let s ← (j.get "signatures").bind sigs?
  let d ← (j.get "signOnlyData").bind (optSignOnly? r)
  pure ⟨p, u, w, e, src, dst, n, s, d⟩

/-- Reading the result of find-pdas. -/
def findPdas? (j : Json) : Option PdasOutput := do
  let w ← (j.get "wrappedMintAddress").bind key?
  let a ← (j.get "wrappedMintAuthority").bind key?
  let b ← (j.get "wrappedBackpointerAddress").bind key?
  let e ← (j.get "unwrappedEscrow").bind key?
  pure ⟨w, a, b, e⟩

/-- Reading the result of create-mint. -/
def createMint? (j : Json) : Option CreateMintOutput := do
  let u ← (j.get "unwrappedMintAddress").bind key?
  let w ← (j.get "wrappedMintAddress").bind key?
  let b ← (j.get "wrappedBackpointerAddress").bind key?
  let x ← (j.get "fundedWrappedMintLamports").bind nat?
  let y ← (j.get "fundedBackpointerLamports").bind nat?
  let s ← (j.get "signature").bind optSig?
  pure ⟨u, w, b, x, y, s⟩

/-- Reading the result of create-escrow-account. -/
def createEscrow? (j : Json) : Option CreateEscrowOutput := do
  let e ← (j.get "escrowAccountAddress").bind key?
  let o ← (j.get "escrowAccountOwner").bind key?
  let p ← (j.get "unwrappedTokenProgramId").bind key?
  let s ← (j.get "signature").bind optSig?
  pure ⟨e, o, p, s⟩

/-- Reading the result of close-stuck-escrow. -/
def closeEscrow? (j : Json) : Option CloseEscrowOutput := do
  let u ← (j.get "unwrappedMint").bind key?
  let e ← (j.get "escrowAccount").bind key?
  let s ← (j.get "signatures").bind sigs?
  pure ⟨u, e, s⟩

/-- Reading the result of sync-metadata-to-spl-token. -/
def syncSpl? (j : Json) : Option SyncSplOutput := do
  let u ← (j.get "unwrappedMint").bind key?
  let w ← (j.get "wrappedMint").bind key?
  let a ← (j.get "wrappedMintAuthority").bind key?
  let m ← (j.get "metaplexMetadata").bind key?
  let x ← (j.get "sourceMetadata").bind optKey?
  let p ← (j.get "ownerProgram").bind optKey?
  let s ← (j.get "signature").bind optSig?
  pure ⟨u, w, a, m, x, p, s⟩

/-- Reading the result of sync-metadata-to-token2022. -/
def sync22? (j : Json) : Option Sync22Output := do
  let u ← (j.get "unwrappedMint").bind key?
  let w ← (j.get "wrappedMint").bind key?
  let a ← (j.get "wrappedMintAuthority").bind key?
  let x ← (j.get "sourceMetadata").bind optKey?
  let p ← (j.get "metadataProgramId").bind optKey?
  let s ← (j.get "signatures").bind sigs?
  pure ⟨u, w, a, x, p, s⟩

end Json

/-! ## Reading back -/

theorem key?_keyJson (k : Pubkey) : (keyJson k).key? = some k := Serde.ofBase58_toBase58 k

theorem parse_text (s : Signature) : Signature.parse s.text = some s := by
  unfold Signature.parse Signature.text
  rw [Serde.unbase58_base58]
  simp [s.len]

theorem optKey?_optStr (o : Option Pubkey) : (optStr (o.map keyText)).optKey? = some o := by
  cases o with
  | none => rfl
  | some k => simp [optStr, Json.optKey?, keyText, Serde.ofBase58_toBase58]

theorem optSig?_optStr (o : Option Signature) : (optStr (o.map Signature.text)).optSig? = some o := by
  cases o with
  | none => rfl
  | some k => simp [optStr, Json.optSig?, parse_text]

theorem u64?_num (n : UInt64) : (Json.num n.toNat).u64? = some n := by
  simp only [Json.u64?]
  rw [if_pos n.toNat_lt, UInt64.ofNat_toNat]

theorem mapM_map {α β γ : Type} {f : α → β} {g : β → Option γ} {h : α → γ} :
    ∀ {l : List α}, (∀ a ∈ l, g (f a) = some (h a)) → (l.map f).mapM g = some (l.map h)
  | [], _ => rfl
  | a :: l, hh => by
    rw [List.map_cons, List.mapM_cons, hh a (List.mem_cons_self ..),
      mapM_map fun x hx => hh x (List.mem_cons_of_mem _ hx)]
    rfl

theorem sig?_sigJson (s : Signature) : (sigJson s).sig? = some s := by
  unfold sigJson Json.sig?
  have : (s.bytes.map fun b => Json.num b.toNat).mapM Json.byte? = some s.bytes := by
    rw [mapM_map (h := id)]
    · simp
    · intro b _
      simp only [Json.byte?, id]
      rw [if_pos b.toNat_lt, UInt8.ofNat_toNat]
  simp only [this, Option.bind_eq_bind, Option.bind_some]
  rw [dif_pos s.len]

theorem sigs?_sigsJson (l : List Signature) : (sigsJson l).sigs? = some l := by
  unfold sigsJson Json.sigs?
  dsimp only
  rw [mapM_map (h := id)]
  · simp
  · intro s _; exact sig?_sigJson s

theorem optSignOnly?_json {f : SignOnlyData → Json} {r : Json → Option SignOnlyData}
    (hr : ∀ d, r (f d) = some d) (hn : ∀ d, f d ≠ .null) (o : Option SignOnlyData) :
    (signOnlyJson f o).optSignOnly? r = some o := by
  cases o with
  | none => rfl
  | some d =>
    have h : ∀ j : Json, j ≠ .null → j.optSignOnly? r = (r j).map some := by
      intro j hj
      cases j <;> first | rfl | exact absurd rfl hj
    show (f d).optSignOnly? r = _
    rw [h _ (hn d), hr d]
    rfl

/-- **C100** (JSON) In the JSON formats the result can be read back from the printed object, by the names
above.  `f` and `r` write and read `CliSignOnlyData` (external). -/
theorem json_reads_back {f : SignOnlyData → Json} {r : Json → Option SignOnlyData}
    (hr : ∀ d, r (f d) = some d) (hn : ∀ d, f d ≠ .null) :
    (∀ o, (json f (.wrap o)).wrap? r = some o) ∧
    (∀ o, (json f (.unwrap o)).unwrap? r = some o) ∧
    (∀ o, (json f (.findPdas o)).findPdas? = some o) ∧
    (∀ o, (json f (.createMint o)).createMint? = some o) ∧
    (∀ o, (json f (.createEscrow o)).createEscrow? = some o) ∧
    (∀ o, (json f (.closeEscrow o)).closeEscrow? = some o) ∧
    (∀ o, (json f (.syncSpl o)).syncSpl? = some o) ∧
    (∀ o, (json f (.sync22 o)).sync22? = some o) := by
  have e1 : camel "unwrapped_mint_address" = "unwrappedMintAddress" := by decide +kernel
  have e2 : camel "wrapped_mint_address" = "wrappedMintAddress" := by decide +kernel
  have e3 : camel "unwrapped_token_account" = "unwrappedTokenAccount" := by decide +kernel
  have e4 : camel "recipient_token_account" = "recipientTokenAccount" := by decide +kernel
  have e5 : camel "escrow_account" = "escrowAccount" := by decide +kernel
  have e6 : camel "amount" = "amount" := by decide +kernel
  have e7 : camel "signatures" = "signatures" := by decide +kernel
  have e8 : camel "sign_only_data" = "signOnlyData" := by decide +kernel
  have e9 : camel "unwrapped_token_program" = "unwrappedTokenProgram" := by decide +kernel
  have e10 : camel "wrapped_token_account" = "wrappedTokenAccount" := by decide +kernel
  have e11 : camel "wrapped_mint_authority" = "wrappedMintAuthority" := by decide +kernel
  have e12 : camel "wrapped_backpointer_address" = "wrappedBackpointerAddress" := by decide +kernel
  have e13 : camel "unwrapped_escrow" = "unwrappedEscrow" := by decide +kernel
  have e14 : camel "funded_wrapped_mint_lamports" = "fundedWrappedMintLamports" := by decide +kernel
  have e15 : camel "funded_backpointer_lamports" = "fundedBackpointerLamports" := by decide +kernel
  have e16 : camel "signature" = "signature" := by decide +kernel
  have e17 : camel "escrow_account_address" = "escrowAccountAddress" := by decide +kernel
  have e18 : camel "escrow_account_owner" = "escrowAccountOwner" := by decide +kernel
  have e19 : camel "unwrapped_token_program_id" = "unwrappedTokenProgramId" := by decide +kernel
  have e20 : camel "unwrapped_mint" = "unwrappedMint" := by decide +kernel
  have e21 : camel "wrapped_mint" = "wrappedMint" := by decide +kernel
  have e22 : camel "metaplex_metadata" = "metaplexMetadata" := by decide +kernel
  have e23 : camel "source_metadata" = "sourceMetadata" := by decide +kernel
  have e24 : camel "owner_program" = "ownerProgram" := by decide +kernel
  have e25 : camel "metadata_program_id" = "metadataProgramId" := by decide +kernel
  have so := optSignOnly?_json hr hn
  refine ⟨?_, ?_, ?_, ?_, ?_, ?_, ?_, ?_⟩ <;> intro o
  · simp [Json.wrap?, json, fields, Json.get, e1, e2, e3, e4, e5, e6, e7, e8, List.lookup, key?_keyJson,
      u64?_num, sigs?_sigsJson, so]
  · simp [Json.unwrap?, json, fields, Json.get, e1, e2, e4, e5, e6, e7, e8, e9, e10, List.lookup, key?_keyJson,
      u64?_num, sigs?_sigsJson, so]
  · simp [Json.findPdas?, json, fields, Json.get, e2, e11, e12, e13, List.lookup, key?_keyJson]
  · simp [Json.createMint?, json, fields, Json.get, e1, e2, e12, e14, e15, e16, List.lookup, key?_keyJson,
      Json.nat?, optSig?_optStr]
  · simp [Json.createEscrow?, json, fields, Json.get, e16, e17, e18, e19, List.lookup, key?_keyJson,
      optSig?_optStr]
  · simp [Json.closeEscrow?, json, fields, Json.get, e5, e7, e20, List.lookup, key?_keyJson, sigs?_sigsJson]
  · simp [Json.syncSpl?, json, fields, Json.get, e11, e16, e20, e21, e22, e23, e24, List.lookup, key?_keyJson,
      optKey?_optStr, optSig?_optStr]
  · simp [Json.sync22?, json, fields, Json.get, e7, e11, e20, e21, e23, e25, List.lookup, key?_keyJson,
      optKey?_optStr, sigs?_sigsJson]

/-- An object from which the result of a command can be read back. -/
def ReadsBack (r : Json → Option SignOnlyData) (j : Json) : CliOutput → Prop
  | .wrap o => j.wrap? r = some o
  | .unwrap o => j.unwrap? r = some o
  | .findPdas o => j.findPdas? = some o
  | .createMint o => j.createMint? = some o
  | .createEscrow o => j.createEscrow? = some o
  | .closeEscrow o => j.closeEscrow? = some o
  | .syncSpl o => j.syncSpl? = some o
  | .sync22 o => j.sync22? = some o

/-- **C100** What a command prints for its result: with `display` and `verbose` a text that shows it, with
`json` and `json-compact` an object from which it can be read back, with `quiet` nothing. -/
theorem printed_result {so : SignOnlyData → Text} {f : SignOnlyData → Json} {r : Json → Option SignOnlyData}
    (hr : ∀ d, r (f d) = some d) (hn : ∀ d, f d ≠ .null) (fmt : OutputFormat) (o : CliOutput) :
    ((fmt = .display ∨ fmt = .verbose) → ∃ t, formatOutput so f fmt o = .text t ∧ Shows t o) ∧
    ((fmt = .json ∨ fmt = .jsonCompact) → ∃ j, formatOutput so f fmt o = .json j ∧ ReadsBack r j o) ∧
    (fmt = .quiet → formatOutput so f fmt o = .text []) := by
  have hj : ReadsBack r (json f o) o := by
    obtain ⟨h1, h2, h3, h4, h5, h6, h7, h8⟩ := json_reads_back hr hn
    cases o with
    | wrap o => exact h1 o
    | unwrap o => exact h2 o
    | findPdas o => exact h3 o
    | createMint o => exact h4 o
    | createEscrow o => exact h5 o
    | closeEscrow o => exact h6 o
    | syncSpl o => exact h7 o
    | sync22 o => exact h8 o
  refine ⟨?_, ?_, ?_⟩
  · rintro (rfl | rfl) <;> exact ⟨_, rfl, display_shows so o⟩
  · rintro (rfl | rfl) <;> exact ⟨_, rfl, hj⟩
  · rintro rfl; rfl

/-- **C100** The words of `--output`, and no others, select the formats; without them `--verbose` selects
the verbose display. -/
theorem output_words (s : String) (fmt : OutputFormat) :
    parseOutputFormat s = some fmt ↔ (s, fmt) ∈ [("display", .display), ("json", .json),
      ("json-compact", .jsonCompact), ("quiet", .quiet), ("verbose", .verbose)] := by
  unfold parseOutputFormat
  constructor
  · intro h
    repeat' split at h
    all_goals first
      | (cases h; rename_i e; subst e; simp)
      | cases h
  · intro h
    simp only [List.mem_cons, Prod.mk.injEq, List.not_mem_nil, or_false] at h
    rcases h with ⟨rfl, rfl⟩ | ⟨rfl, rfl⟩ | ⟨rfl, rfl⟩ | ⟨rfl, rfl⟩ | ⟨rfl, rfl⟩ <;> decide +kernel

/-! ## Examples -/

namespace Ex

/-- A key. -/
def key (n : UInt8) : Pubkey := ⟨List.replicate 32 n, List.length_replicate⟩

/-- The result of a wrap of 500 tokens. -/
def out : WrapOutput :=
  { unwrappedMint := key 1
    wrappedMint := key 2
    unwrappedTokenAccount := key 3
    recipient := key 4
    escrow := key 5
    amount := 500
    signatures := [⟨List.replicate 64 7, List.length_replicate⟩]
    signOnly := none }

/-- Writing sign-only data, for the example only. -/
def soText : SignOnlyData → Text := fun _ => "?".toList

example : field "Amount:" (display soText (.wrap out)) = some "500".toList := by decide +kernel
example : field "Escrow account:" (display soText (.wrap out)) = some (keyText (key 5)) := by decide +kernel
example : (signers (display soText (.wrap out))).length = 1 := by decide +kernel
example : Shows (display soText (.wrap out)) (.wrap out) := display_shows soText (.wrap out)
/-- The signature of a wrap is printed in JSON as 64 numbers, that of create-mint as base58 text. -/
example : ∃ l, ((json (fun _ => .num 0) (.wrap out)).get "signatures") = some (.arr [.arr l]) ∧
    l.length = 64 := ⟨(List.replicate 64 7 : Bytes).map fun b => .num b.toNat, rfl, by decide⟩
/-- The hypotheses of `json_reads_back` and `printed_result` can be met. -/
example : ∃ (f : SignOnlyData → Json) (r : Json → Option SignOnlyData), (∀ d, r (f d) = some d) ∧
    ∀ d, f d ≠ .null := by
  let enc : List (List Char) → Json := fun l => .arr (l.map .str)
  let dec1 : Json → Option (List Char) := fun | .str t => some t | _ => none
  let dec : Json → Option (List (List Char)) := fun | .arr l => l.mapM dec1 | _ => none
  have h : ∀ l, dec (enc l) = some l := by
    intro l
    show (l.map Json.str).mapM dec1 = some l
    rw [mapM_map (f := Json.str) (g := dec1) (h := id) (fun a _ => rfl)]
    simp
  refine ⟨fun d => .arr [.arr (d.message.map fun b => .num b.toNat), enc d.signers, enc d.absent, enc d.badSig],
    fun | .arr [.arr m, a, b, c] => do
          let m ← m.mapM Json.byte?
          let a ← dec a
          let b ← dec b
          let c ← dec c
          pure ⟨m, a, b, c⟩
        | _ => none, ?_, ?_⟩
  · intro d
    have hm : (d.message.map fun b => Json.num b.toNat).mapM Json.byte? = some d.message := by
      rw [mapM_map (h := id)]
      · simp
      · intro b _
        simp only [Json.byte?, id]
        rw [if_pos b.toNat_lt, UInt8.ofNat_toNat]
    simp only [hm, h]
    rfl
  · intro d hd; cases hd

end Ex

end CliText
end TokenWrap
