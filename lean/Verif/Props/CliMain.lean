import Verif.CliMain
import Verif.Props.CliRunExample
import Verif.Props.CliText
/-!
# C102: from the flags of the CLI to what it prints
-/

namespace TokenWrap
namespace CliMain

open CliText

variable {so : SignOnlyData → Text} {sj : SignOnlyData → Json} {m : Machine} {f : Flags} {cmd : Command}
  {Lq Ls : String → Ledger}

theorem configure_ok {url : String} {cfg : CliConfig} (h : configure m f = .ok (url, cfg)) :
    ∃ fmt s, parseFormat f = .ok fmt ∧ settings m f = .ok s ∧ feePayer m f s = .ok cfg.payer ∧
      url = f.url.getD s.url ∧ cfg.format = outputFormat fmt f.verbose ∧ cfg.dryRun = f.dryRun := by
  simp only [configure, bind_ok_iff, pure_ok_iff, Prod.mk.injEq] at h
  obtain ⟨fmt, h1, s, h2, payer, h3, rfl, rfl⟩ := h
  exact ⟨fmt, s, h1, h2, h3, rfl, rfl, rfl⟩

theorem main_error {e : MainErr} (h : configure m f = .error e) :
    main so sj m f cmd Lq Ls = ⟨[], .error e, Ls⟩ := by
  unfold main; rw [h]

theorem main_ok {url : String} {cfg : CliConfig} (h : configure m f = .ok (url, cfg)) :
    main so sj m f cmd Lq Ls =
      ⟨(cmd.run (m.node url) cfg (Lq url) (Ls url)).printed,
       match (cmd.run (m.node url) cfg (Lq url) (Ls url)).result with
        | .ok out => .ok (formatOutput so sj cfg.format out)
        | .error e => .error (.command e),
       fun u => if u = url then (cmd.run (m.node url) cfg (Lq url) (Ls url)).ledger else Ls u⟩ := by
  unfold main; rw [h]; rfl

/-! ## What can change, and when -/

/-- **C102** A run touches at most one chain: the one behind `--url`, or else behind the URL of the
configuration file that is in force. -/
theorem main_one_chain {u : String} (h : (main so sj m f cmd Lq Ls).ledgers u ≠ Ls u) :
    (∀ x, f.url = some x → u = x) ∧
    (f.url = none → ∃ s, settings m f = .ok s ∧ u = s.url) := by
  cases hc : configure m f with
  | error e => rw [main_error hc] at h; exact absurd rfl h
  | ok p =>
    obtain ⟨url, cfg⟩ := p
    rw [main_ok hc] at h
    obtain ⟨fmt, s, _, hs, _, hu, _, _⟩ := configure_ok hc
    have hu' : u = url := by
      by_cases e : u = url
      · exact e
      · exact absurd (if_neg e) h
    refine ⟨fun x hx => ?_, fun hn => ⟨s, hs, ?_⟩⟩
    · rw [hu', hu, hx]; rfl
    · rw [hu', hu, hn]; rfl

/-- **C102** With `--dry-run`, with a command that only signs, and whenever the run ends with an error,
every chain is left as it was. -/
theorem main_no_effect (h : f.dryRun = true ∨ cmd.onlySigns = true ∨
      ∃ e, (main so sj m f cmd Lq Ls).result = .error e) :
    (main so sj m f cmd Lq Ls).ledgers = Ls := by
  cases hc : configure m f with
  | error e => rw [main_error hc]
  | ok p =>
    obtain ⟨url, cfg⟩ := p
    rw [main_ok hc] at h ⊢
    obtain ⟨fmt, s, _, _, _, _, _, hd⟩ := configure_ok hc
    have hr : (cmd.run (m.node url) cfg (Lq url) (Ls url)).ledger = Ls url := by
      apply cli_run_no_effect
      rcases h with h | h | ⟨e, h⟩
      · exact .inl (by rw [hd, h])
      · exact .inr (.inl h)
      · right; right
        dsimp only at h
        split at h
        · cases h
        · rename_i e' he; exact ⟨e', he⟩
    funext u
    dsimp only
    split
    · rename_i e; subst e; exact hr
    · rfl

/-! ## Where the configuration comes from -/

/-- **C102** A configuration file named with `--config` that cannot be loaded ends the run before anything
is printed or sent, whatever else is on the command line. -/
theorem named_config_must_load {file : String} (hf : f.config = some file) (hl : m.load file = none) :
    ∃ e, main so sj m f cmd Lq Ls = ⟨[], .error e, Ls⟩ := by
  cases hc : configure m f with
  | error e => exact ⟨e, main_error hc⟩
  | ok p =>
    obtain ⟨fmt, s, _, hs, _⟩ := configure_ok (url := p.1) (cfg := p.2) hc
    simp only [settings, hf, hl, okOr] at hs
    cases hs

/-- **C102** The default configuration file is optional: if it cannot be loaded the run is the same as on a
machine that has none. -/
theorem default_config_optional {file : String} (hf : f.config = none) (hd : m.defaultFile = some file)
    (hl : m.load file = none) :
    main so sj m f cmd Lq Ls = main so sj { m with defaultFile := none } f cmd Lq Ls := by
  have : configure m f = configure { m with defaultFile := none } f := by
    unfold configure settings feePayer
    simp only [hf, hd, hl, Option.getD_none]
  unfold main
  rw [this]

/-- **C102** With `--url` and `--fee-payer` on the command line, no configuration file matters (unless one is
named and missing): the run is the same whatever the files say. -/
theorem flags_override_files {u p : String} (hu : f.url = some u) (hp : f.feePayer = some p)
    (hc : f.config = none) (load : String → Option Settings) (file : Option String) (d : Settings) :
    main so sj m f cmd Lq Ls =
      main so sj { m with load := load, defaultFile := file, defaults := d } f cmd Lq Ls := by
  have h1 : ∀ m : Machine, ∃ s, settings m f = .ok s := by
    intro m
    unfold settings
    rw [hc]
    dsimp only
    cases m.defaultFile with
    | none => exact ⟨_, rfl⟩
    | some x => exact ⟨_, rfl⟩
  have : configure m f = configure { m with load := load, defaultFile := file, defaults := d } f := by
    obtain ⟨s, e⟩ := h1 m
    obtain ⟨s', e'⟩ := h1 { m with load := load, defaultFile := file, defaults := d }
    unfold configure
    rw [e, e']
    unfold feePayer
    simp only [hp, hu, Option.getD_some, ok_bind]
  unfold main
  rw [this]

/-- **C102** Without `--fee-payer` the fee payer is the key pair of the configuration; it is never a key
whose owner is absent. -/
theorem default_payer_is_here {url : String} {cfg : CliConfig} (h : configure m f = .ok (url, cfg))
    (hp : f.feePayer = none) : ∃ s, settings m f = .ok s ∧ m.signer s.keypairPath false = some cfg.payer ∧
      ∀ k, cfg.payer ≠ .absent k := by
  obtain ⟨fmt, s, _, hs, hf, _⟩ := configure_ok h
  simp only [feePayer, hp, okOr_ok_iff] at hf
  exact ⟨s, hs, hf, fun k hk => m.present s.keypairPath k (by rw [hf, hk])⟩

/-! ## A fee payer who is not here -/

theorem slot_absent {w : Wire} {b : Bytes} {signers : List Signer} {k : Pubkey}
    (h : ∀ s ∈ signers, s.key w = k → s = .absent k) : slotOf w b signers k = .zero := by
  unfold slotOf
  split
  · rename_i s hs
    have hk : s.key w = k := by simpa using List.find?_some hs
    rw [h s (List.mem_reverse.1 (List.mem_of_find?_eq_some hs)) hk]
    rfl
  · rfl

/-- Spec: nobody hands in a signature of `k` on the command line. -/
def NoOtherSignature (w : Wire) (k : Pubkey) : Command → Prop
  | .wrap cmd => (∀ s ∈ cmd.multisig, s.key w ≠ k) ∧ ∀ e ∈ cmd.presigners, e.1 ≠ k
  | .unwrap cmd => (∀ s ∈ cmd.multisig, s.key w ≠ k) ∧ ∀ e ∈ cmd.presigners, e.1 ≠ k
  | _ => True

theorem signers_absent {w : Wire} {k : Pubkey} {t : Option Signer} {ms : List Signer}
    {pre : List (Pubkey × Signature)} (h1 : ∀ s ∈ ms, s.key w ≠ k) (h2 : ∀ e ∈ pre, e.1 ≠ k) :
    ∀ s ∈ ownSigners w (.absent k) (t.getD (.absent k)) ms ++ presigned pre, s.key w = k → s = .absent k := by
  intro s hs hk
  simp only [ownSigners, presigned, List.mem_append, List.mem_singleton, List.mem_map] at hs
  rcases hs with ((hs | hs) | hs) | ⟨e, he, rfl⟩
  · exact hs
  · split at hs
    · rename_i hc
      rw [List.mem_singleton] at hs
      subst hs
      exact absurd hk.symm hc.1
    · cases hs
  · exact absurd hk (h1 s hs)
  · exact absurd hk (h2 e he)

theorem absent_prepared {c : Cluster} {cfg : CliConfig} {k : Pubkey} {cmd : Command} {p : Prepared} {L : Ledger}
    (ha : cfg.payer = .absent k) (hn : NoOtherSignature c.wire k cmd) (h : cmd.prepare c cfg L = .ok p)
    {tx : SentTx} (ht : p.tx = some tx) :
    k ∈ requiredSigners tx.message.payer tx.message.instructions ∧ ∀ g, (k, g) ∈ tx.signatures → g = .zero := by
  have key : ∀ {msg : Message} {bh : Pubkey} {signers : List Signer} {t : SentTx},
      signTx c.wire msg bh signers = .ok t → some t = some tx → Signer.absent k ∈ signers →
      (∀ s ∈ signers, s.key c.wire = k → s = .absent k) →
      k ∈ requiredSigners tx.message.payer tx.message.instructions ∧ ∀ g, (k, g) ∈ tx.signatures → g = .zero := by
    intro msg bh signers t hs he hm hk
    cases he
    obtain ⟨h1, _, rfl⟩ := signTx_ok.1 hs
    refine ⟨h1 _ hm, ?_⟩
    intro g hg
    simp only [List.mem_map, Prod.mk.injEq] at hg
    obtain ⟨k', _, rfl, rfl⟩ := hg
    exact slot_absent hk
  have one : ∀ s ∈ [cfg.payer], s.key c.wire = k → s = .absent k := by
    intro s hs _
    rw [List.mem_singleton.1 hs, ha]
  have mem : Signer.absent k ∈ [cfg.payer] := by rw [ha]; exact List.mem_singleton.2 rfl
  cases cmd with
  | wrap cmd =>
    obtain ⟨_, a, t, _, hs, rfl⟩ := WrapCmd.prepare_ok.1 h
    rw [ha] at hs
    exact key hs ht (by simp [ownSigners]) (signers_absent hn.1 hn.2)
  | unwrap cmd =>
    obtain ⟨_, a, t, _, hs, rfl⟩ := UnwrapCmd.prepare_ok.1 h
    rw [ha] at hs
    exact key hs ht (by simp [ownSigners]) (signers_absent hn.1 hn.2)
  | createMint u wprog i =>
    simp only [Command.prepare, prepareCreateMint, bind_ok_iff, pure_ok_iff] at h
    obtain ⟨_, _, _, _, _, _, _, _, _, _, t, hs, rfl⟩ := h
    exact key (signTxFully_ok.1 hs).1 ht mem one
  | findPdas u wprog =>
    simp only [Command.prepare, bind_ok_iff, pure_ok_iff] at h
    obtain ⟨_, _, _, _, rfl⟩ := h
    cases ht
  | createEscrow u wprog i =>
    simp only [Command.prepare, prepareCreateEscrow, bind_ok_iff] at h
    obtain ⟨_, _, t, _, _, _, _, _, _, _, _, _, h⟩ := h
    cases t with
    | none => cases h; cases ht
    | some t =>
      simp only [bind_ok_iff, pure_ok_iff] at h
      obtain ⟨t', hs, rfl⟩ := h
      exact key (signTxFully_ok.1 hs).1 ht mem one
  | closeEscrow u d wprog =>
    simp only [Command.prepare, prepareCloseEscrow, bind_ok_iff, pure_ok_iff] at h
    obtain ⟨_, _, _, _, _, _, _, _, t, hs, rfl⟩ := h
    exact key (signTxFully_ok.1 hs).1 ht mem one
  | syncSpl u s p =>
    simp only [Command.prepare, prepareSyncSpl, bind_ok_iff, pure_ok_iff] at h
    obtain ⟨_, _, _, _, _, _, _, _, t, hs, rfl⟩ := h
    exact key hs ht mem one
  | sync22 u s p =>
    simp only [Command.prepare, prepareSync22, bind_ok_iff, pure_ok_iff] at h
    obtain ⟨_, _, _, _, _, _, _, _, t, hs, rfl⟩ := h
    exact key hs ht mem one

/-- **C102** `--fee-payer PUBKEY` of somebody who is not here: unless their signature is handed in, no run
changes any chain. -/
theorem absent_payer_no_effect {source : String} {k : Pubkey} (hp : f.feePayer = some source)
    (hk : m.signer source true = some (.absent k)) (hn : ∀ url, NoOtherSignature (m.node url).wire k cmd) :
    (main so sj m f cmd Lq Ls).ledgers = Ls := by
  cases hc : configure m f with
  | error e => rw [main_error hc]
  | ok p =>
    obtain ⟨url, cfg⟩ := p
    rw [main_ok hc]
    obtain ⟨fmt, s, _, _, hf, _⟩ := configure_ok hc
    simp only [feePayer, hp, okOr_ok_iff, hk, Option.some.injEq] at hf
    have hr : (cmd.run (m.node url) cfg (Lq url) (Ls url)).ledger = Ls url := by
      by_contra hne
      obtain ⟨p, tx, out, h1, h2, _, _, h3, _⟩ := cli_run_executed hne
      obtain ⟨hq, hz⟩ := absent_prepared hf.symm (hn url) h1 h2
      obtain ⟨g, hg, hv⟩ := h3 k hq
      rw [hz g hg, (m.node url).wire.empty] at hv
      cases hv
    funext u
    dsimp only
    split
    · rename_i e; subst e; exact hr
    · rfl

/-! ## What is printed -/

/-- **C102** A run that ends well prints the result of its command, readable in the format asked for: a text
that shows it by default and with `--verbose` or `--output display|verbose`, an object from which it can be read
back with `--output json|json-compact`, nothing with `--output quiet`. -/
theorem main_prints {r : Json → Option SignOnlyData} (hr : ∀ d, r (sj d) = some d) (hn : ∀ d, sj d ≠ .null)
    {out : Printed} (h : (main so sj m f cmd Lq Ls).result = .ok out) :
    ∃ url cfg res, configure m f = .ok (url, cfg) ∧
      (cmd.run (m.node url) cfg (Lq url) (Ls url)).result = .ok res ∧
      (f.output = none ∨ f.output = some "display" ∨ f.output = some "verbose" →
        ∃ t, out = .text t ∧ Shows t res) ∧
      (f.output = some "json" ∨ f.output = some "json-compact" → ∃ j, out = .json j ∧ ReadsBack r j res) ∧
      (f.output = some "quiet" → out = .text []) := by
  cases hc : configure m f with
  | error e => rw [main_error hc] at h; cases h
  | ok p =>
    obtain ⟨url, cfg⟩ := p
    rw [main_ok hc] at h
    obtain ⟨fmt, s, hf, _, _, _, hfmt, _⟩ := configure_ok hc
    dsimp only at h
    cases hres : (cmd.run (m.node url) cfg (Lq url) (Ls url)).result with
    | error e => rw [hres] at h; cases h
    | ok res =>
      rw [hres] at h
      cases h
      obtain ⟨p1, p2, p3⟩ := printed_result (so := so) hr hn cfg.format res
      refine ⟨url, cfg, res, rfl, hres, ?_, ?_, ?_⟩
      · rintro (e | e | e)
        · rw [parseFormat, e] at hf
          cases hf
          apply p1
          rw [hfmt]
          cases f.verbose
          · exact .inl rfl
          · exact .inr rfl
        · rw [parseFormat, e] at hf
          dsimp only at hf
          split at hf
          · cases hf
          · cases hf; exact p1 (.inl hfmt)
        · rw [parseFormat, e] at hf
          dsimp only at hf
          split at hf
          · cases hf
          · cases hf; exact p1 (.inr hfmt)
      · rintro (e | e)
        · rw [parseFormat, e] at hf
          dsimp only at hf
          split at hf
          · cases hf
          · cases hf; exact p2 (.inl hfmt)
        · rw [parseFormat, e] at hf
          dsimp only at hf
          split at hf
          · cases hf
          · cases hf; exact p2 (.inr hfmt)
      · intro e
        rw [parseFormat, e] at hf
        dsimp only at hf
        split at hf
        · cases hf
        · cases hf; exact p3 hfmt

/-- **C102** `--output` with another word, or together with `--verbose`, is refused before anything happens. -/
theorem bad_output_refused {w : String} (hw : f.output = some w)
    (h : f.verbose = true ∨ w ∉ ["display", "json", "json-compact", "quiet", "verbose"]) :
    main so sj m f cmd Lq Ls = ⟨[], .error .usage, Ls⟩ := by
  apply main_error
  have : parseFormat f = .error .usage := by
    unfold parseFormat
    rw [hw]
    dsimp only
    rcases h with h | h
    · rw [if_pos h]
    · split
      · rfl
      · have hp : parseOutputFormat w = none := by
          cases hx : parseOutputFormat w with
          | none => rfl
          | some fmt =>
            have := (output_words w fmt).1 hx
            simp only [List.mem_cons, Prod.mk.injEq, List.not_mem_nil, or_false] at this
            exact absurd (by rcases this with ⟨e, _⟩ | ⟨e, _⟩ | ⟨e, _⟩ | ⟨e, _⟩ | ⟨e, _⟩ <;> simp [e]) h
        rw [hp]
  unfold configure
  rw [this]
  rfl

/-! ## Example: a machine with a configuration file and two nodes -/

namespace Ex

open TokenWrap.Example TokenWrap.Example.CliRunEx

/-- `id.json` is the user's key file, `bob` the public key of somebody else. -/
def machine : Machine where
  load file := if file = "config.yml" then some ⟨"localhost", "id.json"⟩ else none
  defaultFile := some "config.yml"
  defaults := ⟨"mainnet", "id.json"⟩
  signer s absentOk := if s = "id.json" then some (.keypair [4])
    else if s = "bob" && absentOk then some (.absent (.lit 9)) else none
  present s k h := by
    split at h
    · cases h
    · simp at h
  leave s x h := by
    split at h
    · rename_i e; rw [if_pos e]; exact h
    · simp at h
  node _ := cl

/-- The same chain behind every URL. -/
def chains : String → Ledger := fun _ => TokenWrap.Example.L0

/-- Print the data of `--sign-only` as nothing. -/
def noText : SignOnlyData → Text := fun _ => []

def run (f : Flags) : MainOutcome := main noText (fun _ => .arr []) machine f (.wrap wrapCmd) chains chains

/-- The wrap happens on the chain of the configuration file only. -/
example : balanceOf ((run {}).ledgers "localhost") src = 4000 ∧
    balanceOf ((run {}).ledgers "mainnet") src = 5000 := by decide +kernel

/-- `--url` wins. -/
example : balanceOf ((run { url := some "mainnet" }).ledgers "localhost") src = 5000 ∧
    balanceOf ((run { url := some "mainnet" }).ledgers "mainnet") src = 4000 := by decide +kernel

/-- A named file that is missing. -/
example : ∃ e, run { config := some "other.yml" } = ⟨[], .error e, chains⟩ :=
  named_config_must_load rfl (by decide)

/-- The default file missing. -/
example : balanceOf ((main noText (fun _ => .arr []) { machine with load := fun _ => none } {} (.wrap wrapCmd)
    chains chains).ledgers "mainnet") src = 4000 := by decide +kernel

/-- Bob is not here. -/
example : (run { feePayer := some "bob" }).ledgers = chains :=
  absent_payer_no_effect (source := "bob") (k := .lit 9) rfl (by decide +kernel)
    (fun _ => ⟨(by intro s hs; cases hs), (by intro s hs; cases hs)⟩)

/-- The result of a run is printed. -/
def succeeded (o : MainOutcome) : Bool := match o.result with | .ok _ => true | .error _ => false

example : succeeded (run {}) = true ∧ succeeded (run { output := some "json" }) = true ∧
    succeeded (run { output := some "json", verbose := true }) = false := by decide +kernel

example : run { output := some "xml" } = ⟨[], .error .usage, chains⟩ := bad_output_refused rfl (.inr (by decide))

end Ex

end CliMain
end TokenWrap
