import Verif.CliArgs
import Verif.Props.CliMain
/-!
# C103: the words of the command line
-/

namespace TokenWrap
namespace CliArgs

open CliText CliMain

/-! ## Amounts -/

/-- Spec: `cs` is the number `n` in decimal notation: digits, at least one, with an optional `+` in front. -/
def Decimal (cs : List Char) (n : Nat) : Prop :=
  ∃ ds : List Char, (cs = ds ∨ cs = '+' :: ds) ∧ ds ≠ [] ∧ (∀ c ∈ ds, c.isDigit = true) ∧
    n = Nat.ofDigits 10 (ds.reverse.map fun c => c.toNat - 48)

/-- The value of digits pushed one after the other. -/
def pushed (acc : Nat) (ds : List Char) : Nat := ds.foldl (fun a c => a * 10 + (c.toNat - 48)) acc

theorem pushed_ge (ds : List Char) : ∀ acc, acc ≤ pushed acc ds := by
  induction ds with
  | nil => intro acc; exact Nat.le_refl _
  | cons c ds ih =>
    intro acc
    have := ih (acc * 10 + (c.toNat - 48))
    show acc ≤ pushed (acc * 10 + (c.toNat - 48)) ds
    omega

theorem fold_push (ds : List Char) : ∀ acc n, acc < 2 ^ 64 →
    (ds.foldlM pushDigit acc = some n ↔
      (∀ c ∈ ds, c.isDigit = true) ∧ pushed acc ds < 2 ^ 64 ∧ n = pushed acc ds) := by
  induction ds with
  | nil =>
    intro acc n h
    simp only [List.foldlM_nil, pushed, List.foldl_nil]
    constructor
    · intro e; cases e; exact ⟨by simp, h, rfl⟩
    · rintro ⟨_, _, rfl⟩; rfl
  | cons c ds ih =>
    intro acc n h
    rw [List.foldlM_cons]
    have hp : pushed acc (c :: ds) = pushed (acc * 10 + (c.toNat - 48)) ds := rfl
    rw [hp]
    by_cases hc : c.isDigit = true
    · by_cases hr : acc * 10 + (c.toNat - 48) < 2 ^ 64
      · have : pushDigit acc c = some (acc * 10 + (c.toNat - 48)) := by
          unfold pushDigit
          rw [if_pos hc]
          exact if_pos hr
        rw [this]
        refine (ih _ n hr).trans ?_
        simp only [List.forall_mem_cons, hc, true_and]
      · have : pushDigit acc c = none := by
          unfold pushDigit
          rw [if_pos hc]
          exact if_neg hr
        rw [this]
        constructor
        · intro e; cases e
        · rintro ⟨_, h2, _⟩
          have := pushed_ge ds (acc * 10 + (c.toNat - 48))
          omega
    · have : pushDigit acc c = none := by
        unfold pushDigit
        rw [if_neg hc]
      rw [this]
      constructor
      · intro e; cases e
      · rintro ⟨h1, _⟩; exact absurd (h1 c (List.mem_cons_self ..)) hc

theorem pushed_eq (ds : List Char) : ∀ acc,
    pushed acc ds = acc * 10 ^ ds.length + Nat.ofDigits 10 (ds.reverse.map fun c => c.toNat - 48) := by
  induction ds with
  | nil => intro acc; simp [pushed]
  | cons c ds ih =>
    intro acc
    show pushed (acc * 10 + (c.toNat - 48)) ds = _
    rw [ih, List.reverse_cons, List.map_append, Nat.ofDigits_append]
    simp only [List.length_map, List.length_reverse, List.length_cons, List.map_cons, List.map_nil,
      Nat.ofDigits_singleton, pow_succ]
    ring

theorem digits_value {ds : List Char} {n : UInt64} :
    (ds.foldlM pushDigit 0).map UInt64.ofNat = some n ↔
      (∀ c ∈ ds, c.isDigit = true) ∧
        n.toNat = Nat.ofDigits 10 (ds.reverse.map fun c => c.toNat - 48) := by
  have hv : pushed 0 ds = Nat.ofDigits 10 (ds.reverse.map fun c => c.toNat - 48) := by
    rw [pushed_eq]; simp
  constructor
  · intro h
    obtain ⟨x, hx, rfl⟩ := Option.map_eq_some_iff.1 h
    obtain ⟨h1, h2, rfl⟩ := (fold_push ds 0 x (by decide)).1 hx
    refine ⟨h1, ?_⟩
    rw [← hv, UInt64.toNat_ofNat']
    exact Nat.mod_eq_of_lt h2
  · rintro ⟨h1, h2⟩
    rw [(fold_push ds 0 n.toNat (by decide)).2 ⟨h1, ?_, ?_⟩]
    · simp
    · rw [hv, ← h2]; exact n.toNat_lt
    · rw [hv, h2]

theorem not_plus {ds : List Char} (h : ∀ c ∈ ds, c.isDigit = true) (r : List Char) : ds ≠ '+' :: r := by
  rintro rfl
  have := h '+' (List.mem_cons_self ..)
  exact absurd this (by decide)

/-- **C103** A word is an amount exactly if it is the decimal notation of a number below 2⁶⁴, and then it is that
number: nothing is cut off, rounded or wrapped around. -/
theorem amount_word {cs : List Char} {n : UInt64} : parseU64 cs = some n ↔ Decimal cs n.toNat := by
  unfold parseU64
  split
  · constructor
    · intro h; cases h
    · rintro ⟨ds, h | h, hne, _⟩
      · exact absurd h.symm hne
      · cases h
  · constructor
    · intro h; cases h
    · rintro ⟨ds, h | h, hne, hd, _⟩
      · exact absurd h.symm (not_plus hd [])
      · cases h; exact absurd rfl hne
  · rename_i ds hx
    rw [digits_value]
    constructor
    · rintro ⟨h1, h2⟩
      exact ⟨ds, .inr rfl, fun e => hx (by rw [e]), h1, h2⟩
    · rintro ⟨ds', h | h, hne, hd, hv⟩
      · exact absurd h.symm (not_plus hd ds)
      · cases h; exact ⟨hd, hv⟩
  · rename_i hx hy hz
    rw [digits_value]
    constructor
    · rintro ⟨h1, h2⟩
      exact ⟨cs, .inl rfl, fun e => hx e, h1, h2⟩
    · rintro ⟨ds', h | h, hne, hd, hv⟩
      · subst h; exact ⟨hd, hv⟩
      · exact absurd h (hz ds')

theorem Decimal.unique {cs : List Char} {m n : Nat} (hm : Decimal cs m) (hn : Decimal cs n) : m = n := by
  obtain ⟨ds, h, _, hd, rfl⟩ := hm
  obtain ⟨ds', h', _, hd', rfl⟩ := hn
  have : ds = ds' := by
    rcases h with h | h <;> rcases h' with h' | h'
    · exact h.symm.trans h'
    · exact absurd (h.symm.trans h') (not_plus hd ds')
    · exact absurd (h'.symm.trans h) (not_plus hd' ds)
    · exact (List.cons.inj (h.symm.trans h')).2
  rw [this]

/-- **C103** A number that does not fit into 64 bits is refused. -/
theorem amount_too_big {cs : List Char} {n : Nat} (h : Decimal cs n) (hb : 2 ^ 64 ≤ n) : parseU64 cs = none := by
  cases hp : parseU64 cs with
  | none => rfl
  | some m =>
    have := (amount_word.1 hp).unique h
    have := m.toNat_lt
    omega

/-- **C103** The decimal text of an amount, as the CLI prints it, is read as that amount. -/
theorem amount_text (n : UInt64) : parseU64 (Serde.nat10 n.toNat) = some n := by
  rw [amount_word]
  refine ⟨Serde.nat10 n.toNat, .inl rfl, ?_, ?_, ?_⟩
  · unfold Serde.nat10
    split
    · simp
    · rename_i h
      intro e
      have := congrArg List.length e
      simp at this
      exact h (Nat.digits_eq_nil_iff_eq_zero.1 this)
  · intro c hc
    unfold Serde.nat10 at hc
    split at hc
    · rw [List.mem_singleton.1 hc]; decide
    · obtain ⟨d, hd, rfl⟩ := List.mem_map.1 hc
      have := Nat.digits_lt_base (by decide) (List.mem_reverse.1 hd)
      interval_cases d <;> decide
  · unfold Serde.nat10
    split
    · rename_i h; rw [h]; rfl
    · rw [← List.map_reverse, List.reverse_reverse, List.map_map]
      conv_lhs => rw [← Nat.ofDigits_digits 10 n.toNat]
      congr 1
      symm
      refine (List.map_congr_left ?_).trans (List.map_id _)
      intro d hd
      have := Nat.digits_lt_base (by decide) hd
      interval_cases d <;> rfl

/-! ## Addresses -/

/-- Spec: the word `s` names `k`: it is the address of `k`, or it is no address and names a key file (prompt,
hardware wallet) with that public key. -/
def Names (sh : Shell) (s : String) (k : Pubkey) : Prop :=
  Serde.ofBase58 s.toList = some k ∨ (Serde.ofBase58 s.toList = none ∧ sh.address s = some k)

section
variable {sh : Shell} {s : String} {k : Pubkey}

theorem parsePubkey_ok : parsePubkey sh s = .ok k ↔ Names sh s k := by
  unfold parsePubkey Names
  cases h : Serde.ofBase58 s.toList with
  | none => simp [okOr_ok_iff]
  | some k' => simp

/-- **C103** The printed form of an address names that address, whatever files there are. -/
theorem address_word (h : s.toList = Serde.toBase58 k) : ∀ k', Names sh s k' ↔ k' = k := by
  intro k'
  unfold Names
  rw [h, Serde.ofBase58_toBase58]
  simp [eq_comm]

theorem parseTokenProgram_ok : parseTokenProgram sh s = .ok k ↔
    Names sh s k ∧ (k = splTokenId ∨ k = token2022Id) := by
  simp only [parseTokenProgram, bind_ok_iff, require_ok_iff, pure_ok_iff, exists_const, parsePubkey_ok,
    parsedTokenProgram, Bool.or_eq_true, decide_eq_true_eq]
  constructor
  · rintro ⟨k', h1, h2, rfl⟩; exact ⟨h1, h2⟩
  · rintro ⟨h1, h2⟩; exact ⟨k, h1, h2, rfl⟩

theorem parseOpt_ok {α : Type} {parse : String → Except MainErr α} {o : Option String} {r : Option α} :
    parseOpt parse o = .ok r ↔ (o = none ∧ r = none) ∨ ∃ s a, o = some s ∧ parse s = .ok a ∧ r = some a := by
  cases o with
  | none => simp [parseOpt, eq_comm]
  | some s =>
    simp only [parseOpt, bind_ok_iff, pure_ok_iff]
    constructor
    · rintro ⟨a, h, rfl⟩; exact .inr ⟨s, a, rfl, h, rfl⟩
    · rintro (⟨h, _⟩ | ⟨s', a, h, h1, rfl⟩)
      · cases h
      · cases h; exact ⟨a, h1, rfl⟩

theorem parseOpt_some {α : Type} {parse : String → Except MainErr α} {o : Option String} {r : Option α}
    (h : parseOpt parse o = .ok r) {s : String} (hs : o = some s) : ∃ a, parse s = .ok a ∧ r = some a := by
  rcases parseOpt_ok.1 h with ⟨e, _⟩ | ⟨s', a, e, h1, h2⟩
  · rw [hs] at e; cases e
  · rw [hs] at e; cases e; exact ⟨a, h1, h2⟩

theorem parseOpt_isSome {α : Type} {parse : String → Except MainErr α} {o : Option String} {r : Option α}
    (h : parseOpt parse o = .ok r) : r.isSome = o.isSome := by
  rcases parseOpt_ok.1 h with ⟨rfl, rfl⟩ | ⟨s', a, rfl, h1, rfl⟩ <;> rfl

end

/-! ## Whole command lines -/

section
variable {so : SignOnlyData → Text} {sj : SignOnlyData → Json} {sh : Shell} {f : Flags} {words : Words}
  {Lq Ls : String → Ledger}

theorem run_error {e : MainErr} (h : command sh f words = .error e) :
    run so sj sh f words Lq Ls = ⟨[], .error e, Ls⟩ := by
  unfold run; rw [h]

theorem run_ok {f' : Flags} {cmd : Command} (h : command sh f words = .ok (f', cmd)) :
    run so sj sh f words Lq Ls = CliMain.main so sj sh.toMachine f' cmd Lq Ls := by
  unfold run; rw [h]

theorem command_ok {f' : Flags} {cmd : Command} (h : command sh f words = .ok (f', cmd)) :
    ∃ url cmd0, parseOpt (parseUrl sh) f.url = .ok url ∧ f' = { f with url := url } ∧
      words.parse sh = .ok cmd0 ∧ words.load sh cmd0 = .ok cmd := by
  simp only [command, bind_ok_iff, pure_ok_iff, Prod.mk.injEq] at h
  obtain ⟨url, h1, cmd0, h2, _, _, cmd', h3, rfl, rfl⟩ := h
  exact ⟨url, cmd0, h1, rfl, h2, h3⟩

/-- Does the user ask for signatures only? -/
def Words.onlySigns : Words → Bool
  | .wrap w => w.signOnly
  | .unwrap w => w.signOnly
  | _ => false

theorem load_onlySigns {cmd0 cmd : Command} (h1 : words.parse sh = .ok cmd0) (h2 : words.load sh cmd0 = .ok cmd) :
    cmd.onlySigns = words.onlySigns := by
  cases words with
  | wrap w =>
    simp only [Words.parse, bind_ok_iff, pure_ok_iff] at h1
    obtain ⟨c, h1, rfl⟩ := h1
    simp only [Words.load, bind_ok_iff, pure_ok_iff] at h2
    obtain ⟨_, _, _, _, rfl⟩ := h2
    simp only [WrapWords.parse, bind_ok_iff, pure_ok_iff] at h1
    obtain ⟨_, _, _, _, _, _, _, _, _, _, _, _, _, _, _, _, _, _, rfl⟩ := h1
    rfl
  | unwrap w =>
    simp only [Words.parse, bind_ok_iff, pure_ok_iff] at h1
    obtain ⟨c, h1, rfl⟩ := h1
    simp only [Words.load, bind_ok_iff, pure_ok_iff] at h2
    obtain ⟨_, _, _, _, rfl⟩ := h2
    simp only [UnwrapWords.parse, bind_ok_iff, pure_ok_iff] at h1
    obtain ⟨_, _, _, _, _, _, _, _, _, _, _, _, _, _, _, _, _, _, rfl⟩ := h1
    rfl
  | createMint | findPdas | createEscrow | closeEscrow | syncSpl | sync22 =>
    simp only [Words.parse, bind_ok_iff, pure_ok_iff] at h1
    simp only [Words.load, pure_ok_iff] at h2
    subst h2
    first
    | (obtain ⟨_, _, _, _, rfl⟩ := h1; rfl)
    | (obtain ⟨_, _, _, _, _, _, rfl⟩ := h1; rfl)
    | (obtain ⟨_, _, _, _, _, _, _, _, rfl⟩ := h1; rfl)

/-- **C103** With `--dry-run` or `--sign-only`, and whenever the run ends with an error (a word that is not
understood, a file that is missing, a refused transaction), every chain is left as it was. -/
theorem words_no_effect (h : f.dryRun = true ∨ words.onlySigns = true ∨
      ∃ e, (run so sj sh f words Lq Ls).result = .error e) :
    (run so sj sh f words Lq Ls).ledgers = Ls := by
  cases hc : command sh f words with
  | error e => rw [run_error hc]
  | ok p =>
    obtain ⟨f', cmd⟩ := p
    rw [run_ok hc] at h ⊢
    obtain ⟨url, cmd0, _, rfl, h1, h2⟩ := command_ok hc
    apply main_no_effect
    rcases h with h | h | h
    · exact .inl h
    · exact .inr (.inl (by rw [load_onlySigns h1 h2]; exact h))
    · exact .inr (.inr h)

theorem usage_of_parse {e : MainErr} (h : words.parse sh = .error e) :
    ∃ e, run so sj sh f words Lq Ls = ⟨[], .error e, Ls⟩ := by
  cases hc : command sh f words with
  | error e => exact ⟨e, run_error hc⟩
  | ok p =>
    obtain ⟨url, cmd0, _, _, h1, _⟩ := command_ok (f' := p.1) (cmd := p.2) hc
    rw [h] at h1
    cases h1

theorem not_ok {α : Type} {x : Except MainErr α} (h : ∀ a, x ≠ .ok a) : ∃ e, x = .error e := by
  cases x with
  | error e => exact ⟨e, rfl⟩
  | ok a => exact absurd rfl (h a)

/-- **C103** Members of a multisig or signatures on the command line without `--blockhash` are refused before
anything is printed or sent. -/
theorem words_need_blockhash
    (h : (∃ w, words = .wrap w ∧ w.blockhash = none ∧ (w.multisig ≠ [] ∨ w.presigners ≠ [])) ∨
      ∃ w, words = .unwrap w ∧ w.blockhash = none ∧ (w.multisig ≠ [] ∨ w.presigners ≠ [])) :
    ∃ e, run so sj sh f words Lq Ls = ⟨[], .error e, Ls⟩ := by
  suffices ∃ e, words.parse sh = .error e by
    obtain ⟨e, he⟩ := this
    exact usage_of_parse he
  apply not_ok
  rcases h with ⟨w, rfl, hb, hm⟩ | ⟨w, rfl, hb, hm⟩ <;> intro c hc
  · simp only [Words.parse, WrapWords.parse, bind_ok_iff, pure_ok_iff, require_ok_iff] at hc
    obtain ⟨_, ⟨_, _, _, _, _, _, _, _, _, _, _, _, _, _, _, _, _, h, _⟩, _⟩ := hc
    rw [hb] at h
    rcases hm with hm | hm <;> simp [hm] at h
  · simp only [Words.parse, UnwrapWords.parse, bind_ok_iff, pure_ok_iff, require_ok_iff] at hc
    obtain ⟨_, ⟨_, _, _, _, _, _, _, _, _, _, _, _, _, _, _, _, _, h, _⟩, _⟩ := hc
    rw [hb] at h
    rcases hm with hm | hm <;> simp [hm] at h

/-- Spec: the word given for the token program of the wrapped mint. -/
def Words.program : Words → Option String
  | .createMint _ p _ => some p
  | .wrap w => some w.wrappedTokenProgram
  | .findPdas _ p => some p
  | .unwrap w => w.wrappedTokenProgram
  | .createEscrow _ p _ => some p
  | .closeEscrow _ _ p => some p
  | .syncSpl .. => none
  | .sync22 .. => none

/-- Spec: the word given for the amount. -/
def Words.amount : Words → Option String
  | .wrap w => some w.amount
  | .unwrap w => some w.amount
  | _ => none

/-- **C103** A word for the token program that names neither of the two programs, and a word for the amount that
is not the decimal notation of a number below 2⁶⁴, are refused before anything is printed or sent. -/
theorem bad_words_refused {s : String}
    (h : (words.program = some s ∧ ∀ k, Names sh s k → k ≠ splTokenId ∧ k ≠ token2022Id) ∨
      (words.amount = some s ∧ ∀ n, Decimal s.toList n → 2 ^ 64 ≤ n)) :
    ∃ e, run so sj sh f words Lq Ls = ⟨[], .error e, Ls⟩ := by
  suffices ∃ e, words.parse sh = .error e by
    obtain ⟨e, he⟩ := this
    exact usage_of_parse he
  apply not_ok
  intro c hc
  rcases h with ⟨hp, hbad⟩ | ⟨ha, hbad⟩
  · have key : ∀ k, parseTokenProgram sh s ≠ .ok k := by
      intro k hk
      obtain ⟨h1, h2⟩ := parseTokenProgram_ok.1 hk
      obtain ⟨h3, h4⟩ := hbad k h1
      rcases h2 with h2 | h2
      · exact h3 h2
      · exact h4 h2
    cases words with
    | wrap w =>
      cases hp
      simp only [Words.parse, WrapWords.parse, bind_ok_iff, pure_ok_iff] at hc
      obtain ⟨_, ⟨_, _, k, h, _⟩, _⟩ := hc
      exact key k h
    | unwrap w =>
      simp only [Words.program] at hp
      simp only [Words.parse, UnwrapWords.parse, bind_ok_iff, pure_ok_iff] at hc
      obtain ⟨_, ⟨_, _, _, _, _, _, _, _, o, h, _⟩, _⟩ := hc
      obtain ⟨k, h, _⟩ := parseOpt_some h hp
      exact key k h
    | syncSpl => cases hp
    | sync22 => cases hp
    | createMint | findPdas | createEscrow =>
      cases hp
      simp only [Words.parse, bind_ok_iff, pure_ok_iff] at hc
      obtain ⟨_, _, k, h, _⟩ := hc
      exact key k h
    | closeEscrow =>
      cases hp
      simp only [Words.parse, bind_ok_iff, pure_ok_iff] at hc
      obtain ⟨_, _, _, _, k, h, _⟩ := hc
      exact key k h
  · have key : ∀ n, okOr (parseU64 s.toList) MainErr.usage ≠ .ok n := by
      intro n hn
      have := hbad _ (amount_word.1 (okOr_ok_iff.1 hn))
      have := n.toNat_lt
      omega
    cases words with
    | wrap w =>
      cases ha
      simp only [Words.parse, WrapWords.parse, bind_ok_iff, pure_ok_iff] at hc
      obtain ⟨_, ⟨_, _, _, _, n, h, _⟩, _⟩ := hc
      exact key n h
    | unwrap w =>
      cases ha
      simp only [Words.parse, UnwrapWords.parse, bind_ok_iff, pure_ok_iff] at hc
      obtain ⟨_, ⟨_, _, _, _, n, h, _⟩, _⟩ := hc
      exact key n h
    | _ => cases ha

theorem main_result_ok {m : Machine} {f : Flags} {cmd : Command} {out : Printed}
    (h : (CliMain.main so sj m f cmd Lq Ls).result = .ok out) :
    ∃ url cfg res, configure m f = .ok (url, cfg) ∧
      (cmd.run (m.node url) cfg (Lq url) (Ls url)).result = .ok res ∧
      out = formatOutput so sj cfg.format res ∧
      ∀ u, (CliMain.main so sj m f cmd Lq Ls).ledgers u =
        if u = url then (cmd.run (m.node url) cfg (Lq url) (Ls url)).ledger else Ls u := by
  cases hc : configure m f with
  | error e => rw [main_error hc] at h; cases h
  | ok p =>
    obtain ⟨url, cfg⟩ := p
    rw [main_ok hc] at h ⊢
    dsimp only at h
    cases hres : (cmd.run (m.node url) cfg (Lq url) (Ls url)).result with
    | error e => rw [hres] at h; cases h
    | ok res =>
      rw [hres] at h
      cases h
      exact ⟨url, cfg, res, rfl, hres, rfl, fun u => rfl⟩

/-- **C103** `wrap ACCOUNT PROGRAM AMOUNT …` that was sent and ended well: on one chain the account that was named
lost exactly the amount that was written, and the escrow of the mint for the program that was named, the supply
of its wrapped mint and the recipient gained it less the transfer fee; the other chains are untouched. -/
theorem wrap_words_run {w : WrapWords} {out : Printed}
    (h : (run so sj sh f (.wrap w) Lq Ls).result = .ok out) (hd : f.dryRun = false) (hs : w.signOnly = false) :
    ∃ url src wprog u uprog W E rcp n, Names sh w.unwrappedTokenAccount src ∧
      Names sh w.wrappedTokenProgram wprog ∧ (wprog = splTokenId ∨ wprog = token2022Id) ∧
      Decimal w.amount.toList n ∧
      (∀ s, w.unwrappedMint = some s → Names sh s u) ∧ (∀ s, w.recipient = some s → Names sh s rcp) ∧
      (∀ s, w.unwrappedTokenProgram = some s → Names sh s uprog) ∧
      (∀ x, f.url = some x → url = ofMoniker x) ∧
      (w.unwrappedMint = none → ∃ t, (Lq url src).data = .token t ∧ t.mint = u) ∧
      (w.unwrappedTokenProgram = none → (Lq url src).owner = uprog) ∧
      wrappedMintAddress (sh.node url).env.cr u wprog = some W ∧
      escrowAddress (sh.node url).env.cr u uprog wprog = some E ∧
      (∀ x, x ≠ url → (run so sj sh f (.wrap w) Lq Ls).ledgers x = Ls x) ∧
      (src ≠ E → ∃ m fee, (Ls url u).data = .mint m ∧ IsMintFee m (sh.node url).env.epoch n fee ∧ fee ≤ n ∧
        balanceOf ((run so sj sh f (.wrap w) Lq Ls).ledgers url) src + n = balanceOf (Ls url) src ∧
        balanceOf ((run so sj sh f (.wrap w) Lq Ls).ledgers url) E = balanceOf (Ls url) E + (n - fee) ∧
        balanceOf ((run so sj sh f (.wrap w) Lq Ls).ledgers url) rcp = balanceOf (Ls url) rcp + (n - fee) ∧
        supplyOf ((run so sj sh f (.wrap w) Lq Ls).ledgers url) W = supplyOf (Ls url) W + (n - fee)) := by
  cases hc : command sh f (.wrap w) with
  | error e => rw [run_error hc] at h; cases h
  | ok p =>
    obtain ⟨f', cmd⟩ := p
    rw [run_ok hc] at h ⊢
    obtain ⟨url?, cmd0, hu, rfl, h1, h2⟩ := command_ok hc
    simp only [Words.parse, bind_ok_iff, pure_ok_iff] at h1
    obtain ⟨c, h1, rfl⟩ := h1
    simp only [Words.load, bind_ok_iff, pure_ok_iff] at h2
    obtain ⟨auth, ha, ms, hms, rfl⟩ := h2
    simp only [WrapWords.parse, bind_ok_iff, pure_ok_iff] at h1
    obtain ⟨src, p1, wprog, p2, n, p3, mint, p4, r, p5, up, p6, bh, p7, pre, p8, _, p9, rfl⟩ := h1
    obtain ⟨url, cfg, res, hcfg, hres, rfl, hled⟩ := main_result_ok h
    obtain ⟨_, st, _, _, _, hurl, _, hdry⟩ := configure_ok hcfg
    obtain ⟨o, uprog, A, _, hr, e1, e2, _, _, hb⟩ := cli_wrap_run hres (by rw [hdry]; exact hd) hs
    obtain ⟨g1, g2⟩ := parseTokenProgram_ok.1 p2
    have el := hled url
    rw [if_pos rfl] at el
    refine ⟨url, src, wprog, o.unwrappedMint, uprog, o.wrappedMint, o.escrow, o.recipient, n.toNat,
      parsePubkey_ok.1 p1, g1, g2, amount_word.1 (okOr_ok_iff.1 p3), ?_, ?_, ?_, ?_, ?_, ?_, hr.wrappedMint,
      hr.escrow, ?_, ?_⟩
    · intro s hs
      obtain ⟨k, hk, rfl⟩ := parseOpt_some p4 hs
      rcases hr.mint with h | ⟨h, _⟩
      · cases h; exact parsePubkey_ok.1 hk
      · cases h
    · intro s hs
      obtain ⟨k, hk, rfl⟩ := parseOpt_some p5 hs
      rcases hr.recipient with h | ⟨h, _⟩
      · cases h; exact parsePubkey_ok.1 hk
      · cases h
    · intro s hs
      obtain ⟨k, hk, rfl⟩ := parseOpt_some p6 hs
      rcases hr.prog with h | ⟨h, _⟩
      · cases h; exact (parseTokenProgram_ok.1 hk).1
      · cases h
    · intro x hx
      obtain ⟨a, ha, rfl⟩ := parseOpt_some hu hx
      simp only [parseUrl, bind_ok_iff, pure_ok_iff] at ha
      obtain ⟨_, _, rfl⟩ := ha
      exact hurl
    · intro hn
      rw [hn] at p4
      cases p4
      rcases hr.mint with h | ⟨_, h⟩
      · cases h
      · exact h
    · intro hn
      rw [hn] at p6
      cases p6
      rcases hr.prog with h | ⟨_, h⟩
      · cases h
      · exact h
    · intro x hx
      rw [hled x, if_neg hx]
    · intro hne
      rw [el]
      rw [e1, e2] at hb
      exact hb hne

/-- **C103** `unwrap ACCOUNT RECIPIENT AMOUNT …` that was sent and ended well: on one chain the account that was
named, the supply of its wrapped mint and the escrow lost exactly the amount that was written, and the recipient
that was named gained it less the transfer fee. -/
theorem unwrap_words_run {w : UnwrapWords} {out : Printed}
    (h : (run so sj sh f (.unwrap w) Lq Ls).result = .ok out) (hd : f.dryRun = false) (hs : w.signOnly = false) :
    ∃ url acct wprog u uprog W E rcp n, Names sh w.wrappedTokenAccount acct ∧ Names sh w.recipient rcp ∧
      Decimal w.amount.toList n ∧
      (∀ s, w.wrappedTokenProgram = some s → Names sh s wprog) ∧ (Lq url acct).owner = wprog ∧
      (∀ s, w.unwrappedMint = some s → Names sh s u) ∧ (∃ t, (Lq url rcp).data = .token t ∧ t.mint = u) ∧
      (∀ s, w.unwrappedTokenProgram = some s → Names sh s uprog) ∧ (Lq url u).owner = uprog ∧
      (∀ x, f.url = some x → url = ofMoniker x) ∧
      wrappedMintAddress (sh.node url).env.cr u wprog = some W ∧
      escrowAddress (sh.node url).env.cr u uprog wprog = some E ∧
      (∀ x, x ≠ url → (run so sj sh f (.unwrap w) Lq Ls).ledgers x = Ls x) ∧
      (W ≠ u → E ≠ rcp →
        ∃ m fee, (Ls url u).data = .mint m ∧ IsMintFee m (sh.node url).env.epoch n fee ∧ fee ≤ n ∧
        balanceOf ((run so sj sh f (.unwrap w) Lq Ls).ledgers url) acct + n = balanceOf (Ls url) acct ∧
        supplyOf ((run so sj sh f (.unwrap w) Lq Ls).ledgers url) W + n = supplyOf (Ls url) W ∧
        balanceOf ((run so sj sh f (.unwrap w) Lq Ls).ledgers url) E + n = balanceOf (Ls url) E ∧
        balanceOf ((run so sj sh f (.unwrap w) Lq Ls).ledgers url) rcp = balanceOf (Ls url) rcp + (n - fee)) := by
  cases hc : command sh f (.unwrap w) with
  | error e => rw [run_error hc] at h; cases h
  | ok p =>
    obtain ⟨f', cmd⟩ := p
    rw [run_ok hc] at h ⊢
    obtain ⟨url?, cmd0, hu, rfl, h1, h2⟩ := command_ok hc
    simp only [Words.parse, bind_ok_iff, pure_ok_iff] at h1
    obtain ⟨c, h1, rfl⟩ := h1
    simp only [Words.load, bind_ok_iff, pure_ok_iff] at h2
    obtain ⟨auth, ha, ms, hms, rfl⟩ := h2
    simp only [UnwrapWords.parse, bind_ok_iff, pure_ok_iff] at h1
    obtain ⟨acct, p1, rcp, p2, n, p3, mint, p4, wp, p5, up, p6, bh, p7, pre, p8, _, p9, rfl⟩ := h1
    obtain ⟨url, cfg, res, hcfg, hres, rfl, hled⟩ := main_result_ok h
    obtain ⟨_, st, _, _, _, hurl, _, hdry⟩ := configure_ok hcfg
    obtain ⟨o, wprog, A, _, hr, e1, e2, e3, _, _, hb⟩ := cli_unwrap_run hres (by rw [hdry]; exact hd) hs
    have el := hled url
    rw [if_pos rfl] at el
    obtain ⟨⟨q1, q2⟩, ⟨q3, q4⟩, ⟨q5, q6⟩, q7, q8, q9⟩ := hr
    refine ⟨url, acct, wprog, o.unwrappedMint, o.unwrappedTokenProgram, o.wrappedMint, o.escrow, rcp, n.toNat,
      parsePubkey_ok.1 p1, parsePubkey_ok.1 p2, amount_word.1 (okOr_ok_iff.1 p3), ?_, q1, ?_, q3, ?_, q5, ?_,
      q7, q9, ?_, ?_⟩
    · intro s hs
      obtain ⟨k, hk, rfl⟩ := parseOpt_some p5 hs
      have : k = wprog := by
        rcases q2 with h | h
        · cases h
        · exact Option.some.inj h
      rw [← this]
      exact (parseTokenProgram_ok.1 hk).1
    · intro s hs
      obtain ⟨k, hk, rfl⟩ := parseOpt_some p4 hs
      have : k = o.unwrappedMint := by
        rcases q4 with h | h
        · cases h
        · exact Option.some.inj h
      rw [← this]
      exact parsePubkey_ok.1 hk
    · intro s hs
      obtain ⟨k, hk, rfl⟩ := parseOpt_some p6 hs
      have : k = o.unwrappedTokenProgram := by
        rcases q6 with h | h
        · cases h
        · exact Option.some.inj h
      rw [← this]
      exact (parseTokenProgram_ok.1 hk).1
    · intro x hx
      obtain ⟨a, ha, rfl⟩ := parseOpt_some hu hx
      simp only [parseUrl, bind_ok_iff, pure_ok_iff] at ha
      obtain ⟨_, _, rfl⟩ := ha
      exact hurl
    · intro x hx
      rw [hled x, if_neg hx]
    · intro h1 h2
      rw [el]
      rw [e1, e2, e3] at hb
      exact hb h1 h2

/-! ## What the words of every command stand for -/

/-- Spec: an optional word and what it stands for. -/
def Maybe {α : Type} (R : String → α → Prop) (o : Option String) (r : Option α) : Prop :=
  (o = none ∧ r = none) ∨ ∃ s a, o = some s ∧ R s a ∧ r = some a

/-- Spec: the word names one of the two token programs. -/
def NamesProgram (sh : Shell) (s : String) (k : Pubkey) : Prop :=
  Names sh s k ∧ (k = splTokenId ∨ k = token2022Id)

/-- Spec: `PUBKEY=SIGNATURE`. -/
def IsSigner (s : String) (e : Pubkey × Signature) : Prop := parsePresigner s.toList = some e

/-- Spec: the words of a command stand for these arguments. -/
inductive Denotes (sh : Shell) : Words → Command → Prop
  | createMint {u p : String} {i : Bool} {u' p' : Pubkey} (hu : Names sh u u') (hp : NamesProgram sh p p') :
    Denotes sh (.createMint u p i) (.createMint u' p' i)
  | findPdas {u p : String} {u' p' : Pubkey} (hu : Names sh u u') (hp : NamesProgram sh p p') :
    Denotes sh (.findPdas u p) (.findPdas u' p')
  | createEscrow {u p : String} {i : Bool} {u' p' : Pubkey} (hu : Names sh u u') (hp : NamesProgram sh p p') :
    Denotes sh (.createEscrow u p i) (.createEscrow u' p' i)
  | closeEscrow {u d p : String} {u' d' p' : Pubkey} (hu : Names sh u u') (hd : Names sh d d')
      (hp : NamesProgram sh p p') :
    Denotes sh (.closeEscrow u d p) (.closeEscrow u' d' p')
  | syncSpl {u : String} {src p : Option String} {u' : Pubkey} {src' p' : Option Pubkey} (hu : Names sh u u')
      (hs : Maybe (Names sh) src src') (hp : Maybe (Names sh) p p') :
    Denotes sh (.syncSpl u src p) (.syncSpl u' src' p')
  | sync22 {u : String} {src p : Option String} {u' : Pubkey} {src' p' : Option Pubkey} (hu : Names sh u u')
      (hs : Maybe (Names sh) src src') (hp : Maybe (Names sh) p p') (hr : p ≠ none → src ≠ none) :
    Denotes sh (.sync22 u src p) (.sync22 u' src' p')
  | wrap {w : WrapWords} {c : WrapCmd}
      (acct : Names sh w.unwrappedTokenAccount c.unwrappedTokenAccount)
      (prog : NamesProgram sh w.wrappedTokenProgram c.wrappedTokenProgram)
      (amount : Decimal w.amount.toList c.amount.toNat)
      (authority : Maybe (fun s a => sh.signer s true = some a) w.transferAuthority c.transferAuthority)
      (mint : Maybe (Names sh) w.unwrappedMint c.unwrappedMint)
      (recipient : Maybe (Names sh) w.recipient c.recipient)
      (uprog : Maybe (NamesProgram sh) w.unwrappedTokenProgram c.unwrappedTokenProgram)
      (members : List.Forall₂ (fun s a => sh.signer s true = some a) w.multisig c.multisig)
      (hash : Maybe (fun s a => Serde.ofBase58 s.toList = some a) w.blockhash c.blockhash)
      (signers : List.Forall₂ IsSigner w.presigners c.presigners)
      (only : c.signOnly = w.signOnly)
      (need : w.multisig ≠ [] ∨ w.presigners ≠ [] → w.blockhash ≠ none) :
    Denotes sh (.wrap w) (.wrap c)
  | unwrap {w : UnwrapWords} {c : UnwrapCmd}
      (acct : Names sh w.wrappedTokenAccount c.wrappedTokenAccount)
      (recipient : Names sh w.recipient c.recipient)
      (amount : Decimal w.amount.toList c.amount.toNat)
      (authority : Maybe (fun s a => sh.signer s true = some a) w.transferAuthority c.transferAuthority)
      (mint : Maybe (Names sh) w.unwrappedMint c.unwrappedMint)
      (prog : Maybe (NamesProgram sh) w.wrappedTokenProgram c.wrappedTokenProgram)
      (uprog : Maybe (NamesProgram sh) w.unwrappedTokenProgram c.unwrappedTokenProgram)
      (members : List.Forall₂ (fun s a => sh.signer s true = some a) w.multisig c.multisig)
      (hash : Maybe (fun s a => Serde.ofBase58 s.toList = some a) w.blockhash c.blockhash)
      (signers : List.Forall₂ IsSigner w.presigners c.presigners)
      (only : c.signOnly = w.signOnly)
      (need : w.multisig ≠ [] ∨ w.presigners ≠ [] → w.blockhash ≠ none) :
    Denotes sh (.unwrap w) (.unwrap c)

theorem maybe_iff {α : Type} {parse : String → Except MainErr α} {R : String → α → Prop}
    (h : ∀ s a, parse s = .ok a ↔ R s a) {o : Option String} {r : Option α} :
    parseOpt parse o = .ok r ↔ Maybe R o r := by
  rw [parseOpt_ok]
  unfold Maybe
  simp only [h]

theorem mapM_iff {α : Type} {parse : String → Except MainErr α} {R : String → α → Prop}
    (h : ∀ s a, parse s = .ok a ↔ R s a) : ∀ {l : List String} {r : List α},
    l.mapM parse = .ok r ↔ List.Forall₂ R l r
  | [], r => by
    rw [List.mapM_nil, pure_ok_iff, List.forall₂_nil_left_iff, eq_comm]
  | s :: l, r => by
    rw [List.mapM_cons]
    simp only [bind_ok_iff, pure_ok_iff]
    constructor
    · rintro ⟨a, h1, r', h2, rfl⟩
      exact .cons ((h s a).1 h1) ((mapM_iff h).1 h2)
    · intro hf
      cases hf with
      | cons h1 h2 => exact ⟨_, (h s _).2 h1, _, (mapM_iff h).2 h2, rfl⟩

theorem program_iff (s : String) (k : Pubkey) : parseTokenProgram sh s = .ok k ↔ NamesProgram sh s k :=
  parseTokenProgram_ok

theorem loadSigner_iff (s : String) (a : Signer) : loadSigner sh s = .ok a ↔ sh.signer s true = some a :=
  okOr_ok_iff

theorem hash_iff (s : String) (k : Pubkey) : parseHash s = .ok k ↔ Serde.ofBase58 s.toList = some k :=
  okOr_ok_iff

theorem need_iff {b : Option String} {m p : List String} :
    (b.isSome || (m.isEmpty && p.isEmpty)) = true ↔ (m ≠ [] ∨ p ≠ [] → b ≠ none) := by
  cases b <;> cases m <;> cases p <;> simp

/-- The parser and the loader of signers do what the specification says. -/
theorem parse_load_iff {cmd : Command} :
    (∃ cmd0, words.parse sh = .ok cmd0 ∧ words.load sh cmd0 = .ok cmd) ↔ Denotes sh words cmd := by
  have pk : ∀ s k, parsePubkey sh s = .ok k ↔ Names sh s k := fun s k => parsePubkey_ok
  cases words with
  | createMint u p i =>
    simp only [Words.parse, Words.load, bind_ok_iff, pure_ok_iff, pk, program_iff]
    constructor
    · rintro ⟨_, ⟨u', h1, p', h2, rfl⟩, rfl⟩; exact .createMint h1 h2
    · rintro (_ | _); rename_i h1 h2; exact ⟨_, ⟨_, h1, _, h2, rfl⟩, rfl⟩
  | findPdas u p =>
    simp only [Words.parse, Words.load, bind_ok_iff, pure_ok_iff, pk, program_iff]
    constructor
    · rintro ⟨_, ⟨u', h1, p', h2, rfl⟩, rfl⟩; exact .findPdas h1 h2
    · rintro (_ | _); rename_i h1 h2; exact ⟨_, ⟨_, h1, _, h2, rfl⟩, rfl⟩
  | createEscrow u p i =>
    simp only [Words.parse, Words.load, bind_ok_iff, pure_ok_iff, pk, program_iff]
    constructor
    · rintro ⟨_, ⟨u', h1, p', h2, rfl⟩, rfl⟩; exact .createEscrow h1 h2
    · rintro (_ | _); rename_i h1 h2; exact ⟨_, ⟨_, h1, _, h2, rfl⟩, rfl⟩
  | closeEscrow u d p =>
    simp only [Words.parse, Words.load, bind_ok_iff, pure_ok_iff, pk, program_iff]
    constructor
    · rintro ⟨_, ⟨u', h1, d', h2, p', h3, rfl⟩, rfl⟩; exact .closeEscrow h1 h2 h3
    · rintro (_ | _); rename_i h1 h2 h3; exact ⟨_, ⟨_, h1, _, h2, _, h3, rfl⟩, rfl⟩
  | syncSpl u s p =>
    simp only [Words.parse, Words.load, bind_ok_iff, pure_ok_iff, pk, maybe_iff pk]
    constructor
    · rintro ⟨_, ⟨u', h1, d', h2, p', h3, rfl⟩, rfl⟩; exact .syncSpl h1 h2 h3
    · rintro (_ | _); rename_i h1 h2 h3; exact ⟨_, ⟨_, h1, _, h2, _, h3, rfl⟩, rfl⟩
  | sync22 u s p =>
    simp only [Words.parse, Words.load, bind_ok_iff, pure_ok_iff, pk, maybe_iff pk, require_ok_iff,
      exists_const]
    have e : (p.isNone || s.isSome) = true ↔ (p ≠ none → s ≠ none) := by cases p <;> cases s <;> simp
    rw [e]
    constructor
    · rintro ⟨_, ⟨u', h1, d', h2, p', h3, h4, rfl⟩, rfl⟩; exact .sync22 h1 h2 h3 h4
    · rintro (_ | _); rename_i h1 h2 h3 h4; exact ⟨_, ⟨_, h1, _, h2, _, h3, h4, rfl⟩, rfl⟩
  | wrap w =>
    simp only [Words.parse, WrapWords.parse, bind_ok_iff, pure_ok_iff, pk, program_iff, maybe_iff pk,
      maybe_iff (program_iff (sh := sh)), maybe_iff hash_iff, require_ok_iff, exists_const, need_iff, okOr_ok_iff,
      amount_word, parsePresigners,
      mapM_iff (R := IsSigner) (parse := fun s => okOr (parsePresigner s.toList) MainErr.usage)
        (fun s e => okOr_ok_iff)]
    constructor
    · rintro ⟨_, ⟨_, ⟨a, h1, b, h2, c, h3, d, h4, e, h5, g, h6, i, h7, j, h8, h9, rfl⟩, rfl⟩, hl⟩
      simp only [Words.load, bind_ok_iff, pure_ok_iff, maybe_iff (loadSigner_iff (sh := sh)),
        mapM_iff (loadSigner_iff (sh := sh))] at hl
      obtain ⟨x, hx, y, hy, rfl⟩ := hl
      exact .wrap h1 h2 h3 hx h4 h5 h6 hy h7 h8 rfl h9
    · rintro (_ | _)
      rename_i c h1 h2 h3 hx h4 h5 h6 hy h7 h8 ho h9
      refine ⟨.wrap { c with transferAuthority := none, multisig := [] },
        ⟨_, ⟨_, h1, _, h2, _, h3, _, h4, _, h5, _, h6, _, h7, _, h8, h9, rfl⟩, ?_⟩, ?_⟩
      · rw [← ho]
      · simp only [Words.load, bind_ok_iff, pure_ok_iff, maybe_iff (loadSigner_iff (sh := sh)),
          mapM_iff (loadSigner_iff (sh := sh))]
        exact ⟨_, hx, _, hy, rfl⟩
  | unwrap w =>
    simp only [Words.parse, UnwrapWords.parse, bind_ok_iff, pure_ok_iff, pk, maybe_iff pk,
      maybe_iff (program_iff (sh := sh)), maybe_iff hash_iff, require_ok_iff, exists_const, need_iff, okOr_ok_iff,
      amount_word, parsePresigners,
      mapM_iff (R := IsSigner) (parse := fun s => okOr (parsePresigner s.toList) MainErr.usage)
        (fun s e => okOr_ok_iff)]
    constructor
    · rintro ⟨_, ⟨_, ⟨a, h1, b, h2, c, h3, d, h4, e, h5, g, h6, i, h7, j, h8, h9, rfl⟩, rfl⟩, hl⟩
      simp only [Words.load, bind_ok_iff, pure_ok_iff, maybe_iff (loadSigner_iff (sh := sh)),
        mapM_iff (loadSigner_iff (sh := sh))] at hl
      obtain ⟨x, hx, y, hy, rfl⟩ := hl
      exact .unwrap h1 h2 h3 hx h4 h5 h6 hy h7 h8 rfl h9
    · rintro (_ | _)
      rename_i c h1 h2 h3 hx h4 h5 h6 hy h7 h8 ho h9
      refine ⟨.unwrap { c with transferAuthority := none, multisig := [] },
        ⟨_, ⟨_, h1, _, h2, _, h3, _, h4, _, h5, _, h6, _, h7, _, h8, h9, rfl⟩, ?_⟩, ?_⟩
      · rw [← ho]
      · simp only [Words.load, bind_ok_iff, pure_ok_iff, maybe_iff (loadSigner_iff (sh := sh)),
          mapM_iff (loadSigner_iff (sh := sh))]
        exact ⟨_, hx, _, hy, rfl⟩

/-- Spec: the public clusters, by their short and long names. -/
def clusters : List (List String × String) :=
  [(["m", "mainnet-beta"], "https://api.mainnet-beta.solana.com"),
   (["t", "testnet"], "https://api.testnet.solana.com"),
   (["d", "devnet"], "https://api.devnet.solana.com"),
   (["l", "localhost"], "http://localhost:8899")]

/-- **C103** The name of a cluster stands for the URL of that cluster; any other text for itself. -/
theorem moniker_word (x : String) :
    (∀ c ∈ clusters, x ∈ c.1 → ofMoniker x = c.2) ∧ ((∀ c ∈ clusters, x ∉ c.1) → ofMoniker x = x) := by
  constructor
  · intro c hc hx
    simp only [clusters, List.mem_cons, List.not_mem_nil, or_false] at hc
    rcases hc with rfl | rfl | rfl | rfl <;>
      (simp only [List.mem_cons, List.not_mem_nil, or_false] at hx
       rcases hx with rfl | rfl <;> decide)
  · intro h
    simp only [clusters, List.mem_cons, List.not_mem_nil, or_false, forall_eq_or_imp, forall_eq] at h
    obtain ⟨h1, h2, h3, h4⟩ := h
    unfold ofMoniker
    rw [if_neg h1, if_neg h2, if_neg h3, if_neg h4]

example : ofMoniker "testnet" = "https://api.testnet.solana.com" :=
  (moniker_word "testnet").1 (["t", "testnet"], "https://api.testnet.solana.com") (by decide) (by decide)
example : ofMoniker "https://rpc.example.org" = "https://rpc.example.org" :=
  (moniker_word _).2 (by decide)

/-- **C103** A run whose words stand for a command is a run of that command, on the chain behind the URL that was
written (a moniker stands for its URL); a run whose words stand for none changes and prints nothing. -/
theorem run_of_words (hurl : ∀ x, f.url = some x → sh.urlOk (ofMoniker x) = true) :
    (∀ cmd, Denotes sh words cmd →
      run so sj sh f words Lq Ls =
        CliMain.main so sj sh.toMachine { f with url := f.url.map ofMoniker } cmd Lq Ls) ∧
    ((∀ cmd, ¬ Denotes sh words cmd) → ∃ e, run so sj sh f words Lq Ls = ⟨[], .error e, Ls⟩) := by
  have hu : parseOpt (parseUrl sh) f.url = .ok (f.url.map ofMoniker) := by
    cases hf : f.url with
    | none => rfl
    | some x => simp [parseOpt, parseUrl, require, hurl x hf]
  constructor
  · intro cmd hd
    obtain ⟨cmd0, h1, h2⟩ := parse_load_iff.2 hd
    cases hc : configure sh.toMachine { f with url := f.url.map ofMoniker } with
    | error e =>
      rw [main_error hc]
      apply run_error
      unfold command
      rw [hu, ok_bind, h1, ok_bind]
      dsimp only
      rw [hc]
      rfl
    | ok p =>
      apply run_ok
      unfold command
      rw [hu, ok_bind, h1, ok_bind]
      dsimp only
      rw [hc, ok_bind, h2, ok_bind]
      rfl
  · intro hn
    cases hc : command sh f words with
    | error e => exact ⟨e, run_error hc⟩
    | ok p =>
      obtain ⟨_, cmd0, _, _, h1, h2⟩ := command_ok (f' := p.1) (cmd := p.2) hc
      exact absurd (parse_load_iff.1 ⟨cmd0, h1, h2⟩) (hn _)

/-! ## Every command can be written -/

/-- The address of `k` as a word. -/
def keyWord (k : Pubkey) : String := String.ofList (Serde.toBase58 k)

/-- Spec: a command that can be written without key files: the programs are token programs, the signers other
than the fee payer are absent, `--blockhash` is there where it is needed. -/
def Writable : Command → Prop
  | .createMint _ p _ => p = splTokenId ∨ p = token2022Id
  | .findPdas _ p => p = splTokenId ∨ p = token2022Id
  | .createEscrow _ p _ => p = splTokenId ∨ p = token2022Id
  | .closeEscrow _ _ p => p = splTokenId ∨ p = token2022Id
  | .syncSpl .. => True
  | .sync22 _ s p => p ≠ none → s ≠ none
  | .wrap c => (c.wrappedTokenProgram = splTokenId ∨ c.wrappedTokenProgram = token2022Id) ∧
    (∀ p, c.unwrappedTokenProgram = some p → p = splTokenId ∨ p = token2022Id) ∧
    (∀ a, c.transferAuthority = some a → ∃ k, a = .absent k) ∧ (∀ a ∈ c.multisig, ∃ k, a = .absent k) ∧
    (c.multisig ≠ [] ∨ c.presigners ≠ [] → c.blockhash ≠ none)
  | .unwrap c => (∀ p, c.wrappedTokenProgram = some p → p = splTokenId ∨ p = token2022Id) ∧
    (∀ p, c.unwrappedTokenProgram = some p → p = splTokenId ∨ p = token2022Id) ∧
    (∀ a, c.transferAuthority = some a → ∃ k, a = .absent k) ∧ (∀ a ∈ c.multisig, ∃ k, a = .absent k) ∧
    (c.multisig ≠ [] ∨ c.presigners ≠ [] → c.blockhash ≠ none)

/-- A word for an absent signer (nothing sensible for another). -/
def signerWord : Signer → String
  | .absent k => keyWord k
  | _ => ""

/-- The words of a command. -/
def write : Command → Words
  | .createMint u p i => .createMint (keyWord u) (keyWord p) i
  | .findPdas u p => .findPdas (keyWord u) (keyWord p)
  | .createEscrow u p i => .createEscrow (keyWord u) (keyWord p) i
  | .closeEscrow u d p => .closeEscrow (keyWord u) (keyWord d) (keyWord p)
  | .syncSpl u s p => .syncSpl (keyWord u) (s.map keyWord) (p.map keyWord)
  | .sync22 u s p => .sync22 (keyWord u) (s.map keyWord) (p.map keyWord)
  | .wrap c => .wrap
    { unwrappedTokenAccount := keyWord c.unwrappedTokenAccount
      wrappedTokenProgram := keyWord c.wrappedTokenProgram
      amount := String.ofList (Serde.nat10 c.amount.toNat)
      transferAuthority := c.transferAuthority.map signerWord
      unwrappedMint := c.unwrappedMint.map keyWord
      recipient := c.recipient.map keyWord
      unwrappedTokenProgram := c.unwrappedTokenProgram.map keyWord
      multisig := c.multisig.map signerWord
      blockhash := c.blockhash.map keyWord
      presigners := c.presigners.map fun e => String.ofList (signerLine e.1 e.2)
      signOnly := c.signOnly }
  | .unwrap c => .unwrap
    { wrappedTokenAccount := keyWord c.wrappedTokenAccount
      recipient := keyWord c.recipient
      amount := String.ofList (Serde.nat10 c.amount.toNat)
      transferAuthority := c.transferAuthority.map signerWord
      unwrappedMint := c.unwrappedMint.map keyWord
      wrappedTokenProgram := c.wrappedTokenProgram.map keyWord
      unwrappedTokenProgram := c.unwrappedTokenProgram.map keyWord
      multisig := c.multisig.map signerWord
      blockhash := c.blockhash.map keyWord
      presigners := c.presigners.map fun e => String.ofList (signerLine e.1 e.2)
      signOnly := c.signOnly }

theorem keyWord_ofBase58 (k : Pubkey) : Serde.ofBase58 (keyWord k).toList = some k := by
  unfold keyWord
  rw [String.toList_ofList, Serde.ofBase58_toBase58]

theorem names_keyWord (k : Pubkey) : Names sh (keyWord k) k := .inl (keyWord_ofBase58 k)

theorem maybe_map {α : Type} {R : String → α → Prop} {g : α → String} {o : Option α}
    (h : ∀ a, o = some a → R (g a) a) : Maybe R (o.map g) o := by
  cases o with
  | none => exact .inl ⟨rfl, rfl⟩
  | some a => exact .inr ⟨g a, a, rfl, h a rfl, rfl⟩

theorem forall₂_map {α : Type} {R : String → α → Prop} {g : α → String} : ∀ {l : List α},
    (∀ a ∈ l, R (g a) a) → List.Forall₂ R (l.map g) l
  | [], _ => .nil
  | a :: _, h => .cons (h a (List.mem_cons_self ..)) (forall₂_map fun b hb => h b (List.mem_cons_of_mem _ hb))

theorem signerWord_loads {a : Signer} (h : ∃ k, a = .absent k) : sh.signer (signerWord a) true = some a := by
  obtain ⟨k, rfl⟩ := h
  exact sh.absentKey _ _ (keyWord_ofBase58 k)

theorem isSigner_line (e : Pubkey × Signature) : IsSigner (String.ofList (signerLine e.1 e.2)) e := by
  unfold IsSigner
  rw [String.toList_ofList, signer_line_round_trip]

/-- **C103** Every command that needs no key file but the fee payer's has words that stand for it on every
machine, whatever files there are: addresses and amounts as the CLI prints them, and the lines of
`--sign-only` runs. -/
theorem command_has_words {cmd : Command} (h : Writable cmd) : Denotes sh (write cmd) cmd := by
  cases cmd with
  | createMint u p i => exact .createMint (names_keyWord u) ⟨names_keyWord p, h⟩
  | findPdas u p => exact .findPdas (names_keyWord u) ⟨names_keyWord p, h⟩
  | createEscrow u p i => exact .createEscrow (names_keyWord u) ⟨names_keyWord p, h⟩
  | closeEscrow u d p => exact .closeEscrow (names_keyWord u) (names_keyWord d) ⟨names_keyWord p, h⟩
  | syncSpl u s p =>
    exact .syncSpl (names_keyWord u) (maybe_map fun a _ => names_keyWord a) (maybe_map fun a _ => names_keyWord a)
  | sync22 u s p =>
    refine .sync22 (names_keyWord u) (maybe_map fun a _ => names_keyWord a)
      (maybe_map fun a _ => names_keyWord a) ?_
    intro hp hs
    refine h (fun e => hp (by rw [e]; rfl)) ?_
    cases s with
    | none => rfl
    | some _ => cases hs
  | wrap c =>
    obtain ⟨h1, h2, h3, h4, h5⟩ := h
    refine .wrap (names_keyWord _) ⟨names_keyWord _, h1⟩ ?_ (maybe_map fun a ha => signerWord_loads (h3 a ha))
      (maybe_map fun a _ => names_keyWord a) (maybe_map fun a _ => names_keyWord a)
      (maybe_map fun a ha => ⟨names_keyWord a, h2 a ha⟩) (forall₂_map fun a ha => signerWord_loads (h4 a ha))
      (maybe_map fun a _ => keyWord_ofBase58 a) (forall₂_map fun a _ => isSigner_line a) rfl ?_
    · dsimp only
      rw [String.toList_ofList]
      exact amount_word.1 (amount_text c.amount)
    · dsimp only
      intro hm hb
      refine h5 (hm.imp (fun x e => x (by rw [e]; rfl)) (fun x e => x (by rw [e]; rfl))) ?_
      cases hx : c.blockhash with
      | none => rfl
      | some _ => rw [hx] at hb; cases hb
  | unwrap c =>
    obtain ⟨h1, h2, h3, h4, h5⟩ := h
    refine .unwrap (names_keyWord _) (names_keyWord _) ?_ (maybe_map fun a ha => signerWord_loads (h3 a ha))
      (maybe_map fun a _ => names_keyWord a) (maybe_map fun a ha => ⟨names_keyWord a, h1 a ha⟩)
      (maybe_map fun a ha => ⟨names_keyWord a, h2 a ha⟩) (forall₂_map fun a ha => signerWord_loads (h4 a ha))
      (maybe_map fun a _ => keyWord_ofBase58 a) (forall₂_map fun a _ => isSigner_line a) rfl ?_
    · dsimp only
      rw [String.toList_ofList]
      exact amount_word.1 (amount_text c.amount)
    · dsimp only
      intro hm hb
      refine h5 (hm.imp (fun x e => x (by rw [e]; rfl)) (fun x e => x (by rw [e]; rfl))) ?_
      cases hx : c.blockhash with
      | none => rfl
      | some _ => rw [hx] at hb; cases hb

/-! ## A transfer authority who is not here -/

theorem run_denoted {cmd : Command} (h : Denotes sh words cmd) :
    run so sj sh f words Lq Ls = CliMain.main so sj sh.toMachine { f with url := f.url.map ofMoniker } cmd Lq Ls ∨
    ∃ e, run so sj sh f words Lq Ls = ⟨[], .error e, Ls⟩ := by
  by_cases hurl : ∀ x, f.url = some x → sh.urlOk (ofMoniker x) = true
  · exact .inl ((run_of_words hurl).1 cmd h)
  · right
    cases hc : command sh f words with
    | error e => exact ⟨e, run_error hc⟩
    | ok p =>
      obtain ⟨url, _, hu, _⟩ := command_ok (f' := p.1) (cmd := p.2) hc
      refine absurd ?_ hurl
      intro x hx
      obtain ⟨a, ha, _⟩ := parseOpt_some hu hx
      simp only [parseUrl, bind_ok_iff, require_ok_iff] at ha
      exact ha.choose_spec.1

/-- Spec: the words say that the transfer authority is `k`, a single key given by its address, and hand in no
signature of `k`. -/
def AbsentAuthority (k : Pubkey) (auth : Option String) (members presigners : List String) : Prop :=
  (∃ s, auth = some s ∧ Serde.ofBase58 s.toList = some k) ∧ members = [] ∧
    ∀ p ∈ presigners, ∀ e, IsSigner p e → e.1 ≠ k

theorem absent_parts {k : Pubkey} {auth : Option String} {members presigners : List String}
    (h : AbsentAuthority k auth members presigners) {a : Option Signer} {ms : List Signer}
    {pre : List (Pubkey × Signature)}
    (ha : Maybe (fun s a => sh.signer s true = some a) auth a)
    (hm : List.Forall₂ (fun s a => sh.signer s true = some a) members ms)
    (hp : List.Forall₂ IsSigner presigners pre) :
    a = some (.absent k) ∧ ms = [] ∧ ∀ e ∈ pre, e.1 ≠ k := by
  obtain ⟨⟨s, rfl, hs⟩, rfl, h3⟩ := h
  refine ⟨?_, ?_, ?_⟩
  · rcases ha with ⟨e, _⟩ | ⟨s', x, e, hx, rfl⟩
    · cases e
    · cases e
      rw [sh.absentKey s k hs] at hx
      exact hx.symm
  · cases hm; rfl
  · clear ha hm
    induction hp with
    | nil => intro e he; cases he
    | cons h1 _ ih =>
      intro e he
      rcases List.mem_cons.1 he with rfl | he
      · exact h3 _ (List.mem_cons_self ..) _ h1
      · exact ih (fun p hp => h3 p (List.mem_cons_of_mem _ hp)) e he

/-- **C103** `--transfer-authority PUBKEY` of somebody who is neither here (not the fee payer) nor has handed in a
signature with `--signer`: no wrap and no unwrap changes any chain. -/
theorem absent_authority_no_effect {k : Pubkey}
    (h : (∃ w, words = .wrap w ∧ AbsentAuthority k w.transferAuthority w.multisig w.presigners) ∨
      ∃ w, words = .unwrap w ∧ AbsentAuthority k w.transferAuthority w.multisig w.presigners)
    (hp : ∀ url cfg, configure sh.toMachine { f with url := f.url.map ofMoniker } = .ok (url, cfg) →
      cfg.payer.key (sh.node url).wire ≠ k) :
    (run so sj sh f words Lq Ls).ledgers = Ls := by
  by_cases hd : ∃ cmd, Denotes sh words cmd
  · obtain ⟨cmd, hd⟩ := hd
    rcases run_denoted (so := so) (sj := sj) (f := f) (Lq := Lq) (Ls := Ls) hd with e | ⟨e, he⟩
    · by_cases hx : f.dryRun = true ∨ words.onlySigns = true
      · exact words_no_effect (hx.imp id .inl)
      · simp only [not_or, Bool.not_eq_true] at hx
        rw [e]
        cases hc : configure sh.toMachine { f with url := f.url.map ofMoniker } with
        | error e => rw [main_error hc]
        | ok p =>
          obtain ⟨url, cfg⟩ := p
          rw [main_ok hc]
          obtain ⟨_, _, _, _, _, _, _, hdry⟩ := configure_ok hc
          have hpk := hp url cfg hc
          have hr : (cmd.run (sh.node url) cfg (Lq url) (Ls url)).ledger = Ls url := by
            have own : ∀ s ∈ ownSigners (sh.node url).wire cfg.payer (.absent k) [],
                s.key (sh.node url).wire = k → s = .absent k := by
              intro s hs hk
              simp only [ownSigners, List.append_nil, List.mem_append, List.mem_singleton] at hs
              rcases hs with rfl | hs
              · exact absurd hk hpk
              · split at hs
                · exact List.mem_singleton.1 hs
                · cases hs
            rcases h with ⟨w, rfl, ha⟩ | ⟨w, rfl, ha⟩
            · cases hd with
              | wrap _ _ _ g1 _ _ _ g2 _ g3 g4 _ =>
                rename_i c _ _ _ _ _ _ _ _
                obtain ⟨q1, q2, q3⟩ := absent_parts ha g1 g2 g3
                obtain ⟨e, he⟩ := cli_wrap_missing_signature (c := sh.node url) (cfg := cfg) (Lq := Lq url)
                  (Ls := Ls url) (cmd := c) (k := k) (by rw [hdry]; exact hx.1) (by rw [g4]; exact hx.2)
                  (by rw [q1, q2]; exact .inr (.inl ⟨rfl, rfl⟩)) ⟨by rw [q1, q2]; exact own, q3⟩
                rw [he]
            · cases hd with
              | unwrap _ _ _ g1 _ _ _ g2 _ g3 g4 _ =>
                rename_i c _ _ _ _ _ _ _ _
                obtain ⟨q1, q2, q3⟩ := absent_parts ha g1 g2 g3
                obtain ⟨e, he⟩ := cli_unwrap_missing_signature (c := sh.node url) (cfg := cfg) (Lq := Lq url)
                  (Ls := Ls url) (cmd := c) (k := k) (by rw [hdry]; exact hx.1) (by rw [g4]; exact hx.2)
                  (by rw [q1, q2]; exact .inr (.inl ⟨rfl, rfl⟩)) ⟨by rw [q1, q2]; exact own, q3⟩
                rw [he]
          funext u
          dsimp only
          split
          · rename_i e; subst e; exact hr
          · rfl
    · rw [he]
  · cases hc : command sh f words with
    | error e => rw [run_error hc]
    | ok p =>
      obtain ⟨_, cmd0, _, _, h1, h2⟩ := command_ok (f' := p.1) (cmd := p.2) hc
      exact absurd ⟨_, parse_load_iff.1 ⟨cmd0, h1, h2⟩⟩ hd

end

/-! ## Examples -/

namespace Ex

open TokenWrap.Example TokenWrap.Example.CliRunEx

/-- A shell with key files for the user, the accounts and the program. -/
def shell : Shell where
  load file := if file = "config.yml" then some ⟨"localhost", "id.json"⟩ else none
  defaultFile := some "config.yml"
  defaults := ⟨"mainnet", "id.json"⟩
  signer s absentOk := if s = "id.json" then some (.keypair [4])
    else if absentOk then (Serde.ofBase58 s.toList).map .absent else none
  present s k h := by
    split at h
    · cases h
    · simp at h
  leave s x h := by
    split at h
    · rename_i e; rw [if_pos e]; exact h
    · simp at h
  node _ := cl
  address s := if s = "source.json" then some TokenWrap.Example.src else if s = "recipient.json" then some rcp
    else if s = "program.json" then some splTokenId else none
  urlOk s := s ≠ ""
  absentKey s k h := by
    have : s ≠ "id.json" := by
      rintro rfl
      have : Serde.ofBase58 "id.json".toList = none := by decide +kernel
      rw [this] at h
      cases h
    rw [if_neg this, if_pos rfl, h]
    rfl

/-- `wrap source.json program.json AMOUNT --recipient-token-account recipient.json`. -/
def wrapWords (amount : String) : WrapWords :=
  { unwrappedTokenAccount := "source.json", wrappedTokenProgram := "program.json", amount := amount
    recipient := some "recipient.json" }

/-- The same chain behind every URL. -/
def chains : String → Ledger := fun _ => TokenWrap.Example.L0

def go (f : Flags) (w : Words) : MainOutcome := run (fun _ => []) (fun _ => .arr []) shell f w chains chains

/-- The wrap happens on the chain of the configuration file. -/
example : balanceOf ((go {} (.wrap (wrapWords "1000"))).ledgers "localhost") TokenWrap.Example.src = 4000 := by
  decide +kernel

/-- `-u d` is the development network. -/
example : balanceOf ((go { url := some "d" } (.wrap (wrapWords "+1000"))).ledgers "https://api.devnet.solana.com")
      TokenWrap.Example.src = 4000 ∧
    balanceOf ((go { url := some "d" } (.wrap (wrapWords "+1000"))).ledgers "localhost")
      TokenWrap.Example.src = 5000 := by decide +kernel

/-- It ends well, so that `wrap_words_run` applies. -/
example : ∃ out, (go {} (.wrap (wrapWords "1000"))).result = .ok out := by
  generalize h : (go {} (.wrap (wrapWords "1000"))).result = r
  cases r with
  | ok out => exact ⟨out, rfl⟩
  | error e =>
    have : CliMain.Ex.succeeded (go {} (.wrap (wrapWords "1000"))) = true := by decide +kernel
    simp only [CliMain.Ex.succeeded, h] at this
    cases this

/-- Amounts. -/
example : parseU64 "18446744073709551615".toList = some 18446744073709551615 ∧
    parseU64 "18446744073709551616".toList = none ∧ parseU64 "007".toList = some 7 ∧ parseU64 "".toList = none ∧
    parseU64 "+".toList = none ∧ parseU64 "-1".toList = none ∧ parseU64 "1.5".toList = none ∧
    parseU64 "1_000".toList = none := by decide +kernel

/-- One token unit more than fits into 64 bits is not a wrap of nothing. -/
example : ∃ e, go {} (.wrap (wrapWords "18446744073709551617")) = ⟨[], .error e, chains⟩ := by
  apply bad_words_refused (s := "18446744073709551617")
  refine .inr ⟨rfl, fun n hn => ?_⟩
  by_contra hlt
  have : parseU64 "18446744073709551617".toList = some (UInt64.ofNat n) := by
    rw [amount_word, UInt64.toNat_ofNat', Nat.mod_eq_of_lt (by omega)]
    exact hn
  rw [show parseU64 "18446744073709551617".toList = none by decide +kernel] at this
  cases this

/-- The mint of the tokens is not a token program. -/
example : ∃ e, go {} (.createMint "source.json" "recipient.json" false) = ⟨[], .error e, chains⟩ := by
  apply bad_words_refused (s := "recipient.json")
  refine .inl ⟨rfl, fun k hk => ?_⟩
  rcases hk with h | ⟨_, h⟩
  · rw [show Serde.ofBase58 "recipient.json".toList = none by decide +kernel] at h
    cases h
  · have : k = rcp := by
      have e : shell.address "recipient.json" = some rcp := by decide +kernel
      rw [e] at h
      exact (Option.some.inj h).symm
    subst this
    decide +kernel

/-- A member of a multisig without a blockhash. -/
example : ∃ e, go {} (.wrap { wrapWords "1" with multisig := ["id.json"] }) = ⟨[], .error e, chains⟩ :=
  words_need_blockhash (.inl ⟨_, rfl, rfl, .inl (by simp)⟩)

/-- A written command runs as that command. -/
example : run (fun _ => []) (fun _ => .arr []) shell {} (write (.wrap wrapCmd)) chains chains =
    CliMain.main (fun _ => []) (fun _ => .arr []) shell.toMachine {} (.wrap wrapCmd) chains chains :=
  (run_of_words (by intro x hx; cases hx)).1 _ (command_has_words
    ⟨.inl rfl, (by intro p hp; cases hp), (by intro a ha; cases ha), (by intro a ha; cases ha),
      (by rintro (h | h) <;> exact absurd rfl h)⟩)

/-- Nobody's tokens move by naming them as the authority. -/
example : (go {} (.wrap { wrapWords "1000" with transferAuthority := some (keyWord (.lit 9)) })).ledgers = chains := by
  apply absent_authority_no_effect (k := .lit 9)
  · exact .inl ⟨_, rfl, ⟨_, rfl, keyWord_ofBase58 _⟩, rfl, by intro p hp; cases hp⟩
  · intro url cfg h
    have e : configure shell.toMachine {} = .ok ("localhost", { payer := .keypair [4] }) := by rfl
    have h' : configure shell.toMachine {} = .ok (url, cfg) := h
    rw [e] at h'
    cases h'
    decide +kernel

end Ex

end CliArgs
end TokenWrap
