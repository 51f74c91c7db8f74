import Verif.Props.CliRun
/-!
# Collecting signatures with `--sign-only` and handing them in with `--signer` (C81)
-/

namespace TokenWrap

open TokenWrapInstruction

/-! ## The text of a signature -/

theorem Signature.parse_text (s : Signature) : Signature.parse s.text = some s := by
  unfold Signature.parse Signature.text
  rw [Serde.unbase58_base58]
  simp only [Option.bind_eq_bind, Option.bind_some]
  rw [dif_pos s.len]

/-- **C81** A `PUBKEY=SIGNATURE` line printed by one run is read back by another as the same key and the
same signature, whatever the bytes are. -/
theorem signer_line_round_trip (k : Pubkey) (s : Signature) :
    parsePresigner (signerLine k s) = some (k, s) := by
  have hne : ∀ c ∈ Serde.toBase58 k, (fun c => decide (c ≠ '=')) c = true := by
    intro c hc
    have := Serde.base58_alphabet k.bytes c hc
    simp only [ne_eq, decide_not, Bool.not_eq_eq_eq_not, Bool.not_true, decide_eq_false_iff_not]
    rintro rfl
    revert this
    decide
  obtain ⟨h1, h2⟩ := Serde.takeWhile_stop (p := fun c => decide (c ≠ '=')) (a := Serde.toBase58 k)
    (rest := s.text) (c := '=') hne (by simp)
  unfold parsePresigner signerLine
  rw [h2, h1]
  dsimp only
  rw [Serde.ofBase58_toBase58, Signature.parse_text]
  rfl

/-- **C81** So two different signatures, or the signatures of two different keys, never print as the
same line. -/
theorem signer_line_injective {k k' : Pubkey} {s s' : Signature}
    (h : signerLine k s = signerLine k' s') : k = k' ∧ s = s' := by
  have := signer_line_round_trip k s
  rw [h, signer_line_round_trip] at this
  cases this
  exact ⟨rfl, rfl⟩

/-! ## What a `--sign-only` run prints -/

theorem signOnly_lines {w : Wire} {msg : Message} {bh : Pubkey} {signers : List Signer} {tx : SentTx}
    (h : signTx w msg bh signers = .ok tx) {l : List Char} :
    l ∈ (tx.signOnlyData w).signers ↔ ∃ k ∈ requiredSigners msg.payer msg.instructions,
      l = signerLine k (slotOf w (w.encode msg bh) signers k) ∧
      w.verify k (w.encode msg bh) (slotOf w (w.encode msg bh) signers k) = true := by
  obtain ⟨_, _, rfl⟩ := signTx_ok.1 h
  simp only [SentTx.signOnlyData, List.mem_map, List.mem_filter, List.mem_dedup]
  constructor
  · rintro ⟨e, ⟨⟨k, hk, rfl⟩, hv⟩, rfl⟩; exact ⟨k, hk, rfl, hv⟩
  · rintro ⟨k, hk, rfl, hv⟩; exact ⟨_, ⟨⟨k, hk, rfl⟩, hv⟩, rfl⟩

/-- A slot holds a valid signature or is empty. -/
theorem slot_valid_or_zero {w : Wire} {m : Bytes} {signers : List Signer} {k : Pubkey}
    (h : ∀ s ∈ signers, s.usable w m = true) :
    w.verify k m (slotOf w m signers k) = true ∨ slotOf w m signers k = .zero := by
  unfold slotOf
  cases hf : signers.reverse.find? (fun s => decide (s.key w = k)) with
  | none => exact .inr rfl
  | some s =>
    have hs : s.key w = k := by simpa using List.find?_some hf
    have hu := h s (List.mem_reverse.1 (List.mem_of_find?_eq_some hf))
    dsimp only
    rw [← hs]
    cases s with
    | keypair sk => exact .inl (w.correct sk m)
    | absent _ => exact .inr rfl
    | presigned k g => exact .inl hu

/-- The report of a partly signed transaction: everybody who has to sign is listed, with a valid
signature or as absent, and nobody twice. -/
structure SignReport (w : Wire) (m : Bytes) (must : Pubkey → Prop) (d : SignOnlyData) : Prop where
  message : d.message = m
  listed : ∀ k, must k ↔ (∃ g, w.verify k m g = true ∧ signerLine k g ∈ d.signers) ∨
    Serde.toBase58 k ∈ d.absent
  once : ∀ k g, signerLine k g ∈ d.signers → Serde.toBase58 k ∉ d.absent
  noBad : d.badSig = []

theorem signOnly_report {w : Wire} {msg : Message} {bh : Pubkey} {signers : List Signer} {tx : SentTx}
    (h : signTx w msg bh signers = .ok tx) :
    SignReport w (w.encode msg bh) (· ∈ requiredSigners msg.payer msg.instructions)
      (tx.signOnlyData w) := by
  have hl := fun l => signOnly_lines h (l := l)
  obtain ⟨_, hus, rfl⟩ := signTx_ok.1 h
  have hz := fun k => slot_valid_or_zero (k := k) hus
  have habs : ∀ k, Serde.toBase58 k ∈ (SentTx.signOnlyData w ⟨msg, bh,
      (requiredSigners msg.payer msg.instructions).dedup.map fun k =>
        (k, slotOf w (w.encode msg bh) signers k)⟩).absent ↔
      k ∈ requiredSigners msg.payer msg.instructions ∧
        slotOf w (w.encode msg bh) signers k = .zero := by
    intro k
    simp only [SentTx.signOnlyData, List.mem_map, List.mem_filter, List.mem_dedup]
    constructor
    · rintro ⟨e, ⟨⟨k', hk, rfl⟩, hv⟩, he⟩
      have := Serde.ofBase58_toBase58 k'
      rw [he, Serde.ofBase58_toBase58] at this
      cases this
      simp only [Bool.and_eq_true, decide_eq_true_eq] at hv
      exact ⟨hk, hv.2⟩
    · rintro ⟨hk, hv⟩
      exact ⟨_, ⟨⟨k, hk, rfl⟩, by simp [hv, w.empty]⟩, rfl⟩
  refine ⟨rfl, fun k => ⟨fun hk => ?_, ?_⟩, fun k g hg ha => ?_, ?_⟩
  · rcases hz k with hv | hv
    · exact .inl ⟨_, hv, (hl _).2 ⟨k, hk, rfl, hv⟩⟩
    · exact .inr ((habs k).2 ⟨hk, hv⟩)
  · rintro (⟨g, _, hg⟩ | ha)
    · obtain ⟨k', hk, he, _⟩ := (hl _).1 hg
      rw [(signer_line_injective he).1]; exact hk
    · exact ((habs k).1 ha).1
  · obtain ⟨k', hk, he, hv⟩ := (hl _).1 hg
    rw [(signer_line_injective he).1] at ha
    rw [((habs _).1 ha).2, w.empty] at hv
    cases hv
  · simp only [SentTx.signOnlyData, List.map_eq_nil_iff, List.filter_eq_nil_iff, List.mem_map,
      List.mem_dedup]
    rintro e ⟨k, _, rfl⟩
    rcases hz k with hv | hv <;> simp [hv, w.empty]

section
variable {c : Cluster} {cfg : CliConfig} {Lq Ls : Ledger}

/-- The message `wrap` makes when its addresses resolve to `a`. -/
def WrapCmd.message (c : Cluster) (cfg : CliConfig) (cmd : WrapCmd) (a : WrapAddrs) : Message :=
  ⟨cfg.payer.key c.wire, [.call (Build.wrap crateId a.recipient a.wrappedMint a.authority a.program
    cmd.wrappedTokenProgram cmd.unwrappedTokenAccount a.mint a.escrow
    ((cmd.transferAuthority.getD cfg.payer).key c.wire) (cmd.multisig.map (·.key c.wire)) cmd.amount)]⟩

/-- The message `unwrap` makes when its addresses resolve to `a`. -/
def UnwrapCmd.message (c : Cluster) (cfg : CliConfig) (cmd : UnwrapCmd) (a : UnwrapAddrs) : Message :=
  ⟨cfg.payer.key c.wire, [.call (Build.unwrap crateId a.escrow cmd.recipient a.authority a.mint
    a.wrappedProgram a.program cmd.wrappedTokenAccount a.wrappedMint
    ((cmd.transferAuthority.getD cfg.payer).key c.wire) (cmd.multisig.map (·.key c.wire)) cmd.amount)]⟩

theorem wrap_message_eq {cmd : WrapCmd} {a : WrapAddrs} :
    (⟨cfg.payer.key c.wire, [cliWrapIx (cmd.args c.wire cfg.payer) a]⟩ : Message) =
      cmd.message c cfg a := by
  simp only [WrapCmd.message, cliWrapIx, WrapCmd.args, getD_abs, List.map_map]
  rfl

theorem unwrap_message_eq {cmd : UnwrapCmd} {a : UnwrapAddrs} :
    (⟨cfg.payer.key c.wire, [cliUnwrapIx (cmd.args c.wire cfg.payer) a]⟩ : Message) =
      cmd.message c cfg a := by
  simp only [UnwrapCmd.message, cliUnwrapIx, UnwrapCmd.args, getD_abs, List.map_map]
  rfl

/-- The lines a run of `wrap` prints for others to hand in. -/
def printedLines (o : Outcome) : List (List Char) :=
  match o.result with
  | .ok (.wrap o) => (o.signOnly.map (·.signers)).getD []
  | .ok (.unwrap o) => (o.signOnly.map (·.signers)).getD []
  | _ => []

/-- The keys a transaction of a wrap or unwrap must be signed with. -/
def MustSign (payer authority : Pubkey) (members : List Pubkey) (k : Pubkey) : Prop :=
  k = payer ∨ (members = [] ∧ k = authority) ∨ k ∈ members

theorem mustSign_wrap {cmd : WrapCmd} {a : WrapAddrs} {k : Pubkey} :
    k ∈ requiredSigners (cmd.message c cfg a).payer (cmd.message c cfg a).instructions ↔
      MustSign (cfg.payer.key c.wire) ((cmd.transferAuthority.getD cfg.payer).key c.wire)
        (cmd.multisig.map (·.key c.wire)) k := by
  rw [WrapCmd.message]
  dsimp only
  rw [requiredSigners_call, signs_build_wrap]
  rfl

theorem mustSign_unwrap {cmd : UnwrapCmd} {a : UnwrapAddrs} {k : Pubkey} :
    k ∈ requiredSigners (cmd.message c cfg a).payer (cmd.message c cfg a).instructions ↔
      MustSign (cfg.payer.key c.wire) ((cmd.transferAuthority.getD cfg.payer).key c.wire)
        (cmd.multisig.map (·.key c.wire)) k := by
  rw [UnwrapCmd.message]
  dsimp only
  rw [requiredSigners_call, signs_build_unwrap]
  rfl

/-- Somebody who brings their key pair, and brings nobody else's slot for the same key. -/
def Brings (w : Wire) (own : List Signer) (k : Pubkey) : Prop :=
  (∃ secret, Signer.keypair secret ∈ own ∧ w.pub secret = k) ∧
    ∀ s ∈ own, s.key w = k → ∃ secret, s = .keypair secret

theorem slot_own {w : Wire} {m : Bytes} {own : List Signer} {k : Pubkey} (h : Brings w own k) :
    w.verify k m (slotOf w m own k) = true := by
  obtain ⟨⟨sk, hm, hk⟩, hall⟩ := h
  unfold slotOf
  cases hf : own.reverse.find? (fun s => decide (s.key w = k)) with
  | none =>
    have := List.find?_eq_none.1 hf _ (List.mem_reverse.2 hm)
    simp [Signer.key, hk] at this
  | some s =>
    have hs : s.key w = k := by simpa using List.find?_some hf
    obtain ⟨sk', rfl⟩ := hall s (List.mem_reverse.1 (List.mem_of_find?_eq_some hf)) hs
    dsimp only [Signer.signature]
    rw [← hs]
    exact w.correct sk' m

theorem mem_ownSigners {w : Wire} {payer authority : Signer} {multisig : List Signer} {s : Signer}
    (h : s ∈ ownSigners w payer authority multisig) :
    MustSign (payer.key w) (authority.key w) (multisig.map (·.key w)) (s.key w) := by
  simp only [ownSigners, List.mem_append, List.mem_cons, List.not_mem_nil, or_false] at h
  rcases h with (rfl | h) | h
  · exact .inl rfl
  · split at h
    · rename_i hc
      simp only [List.mem_cons, List.not_mem_nil, or_false] at h
      subst h
      have : multisig = [] := by simpa using hc.2
      exact .inr (.inl ⟨by rw [this]; rfl, rfl⟩)
    · cases h
  · exact .inr (.inr (List.mem_map_of_mem h))

/-- Signers loaded from key files or named by their key: no signatures among them. -/
def Loaded (own : List Signer) : Prop := ∀ s ∈ own, ∀ k g, s ≠ .presigned k g

theorem Loaded.usable {w : Wire} {own : List Signer} (h : Loaded own) (m : Bytes) :
    ∀ s ∈ own, s.usable w m = true := by
  intro s hs
  cases s with
  | keypair _ => rfl
  | absent _ => rfl
  | presigned k g => exact absurd rfl (h _ hs k g)

/-- Signing with one's own signers and valid signatures handed in. -/
theorem sign_with_collected {w : Wire} {msg : Message} {bh : Pubkey} {own : List Signer}
    {pre : List (Pubkey × Signature)} (hl : Loaded own)
    (hown : ∀ s ∈ own, s.key w ∈ requiredSigners msg.payer msg.instructions)
    (hpre : ∀ e ∈ pre, e.1 ∈ requiredSigners msg.payer msg.instructions ∧
      w.verify e.1 (w.encode msg bh) e.2 = true) :
    ∃ tx, signTx w msg bh (own ++ presigned pre) = .ok tx ∧
      ∀ k, (∃ g, (k, g) ∈ pre) ∨ Brings w own k →
        w.verify k (w.encode msg bh) (slotOf w (w.encode msg bh) (own ++ presigned pre) k) = true := by
  have hmem : ∀ s ∈ presigned pre, ∃ e ∈ pre, s = .presigned e.1 e.2 := by
    intro s hs
    obtain ⟨e, he, rfl⟩ := List.mem_map.1 hs
    exact ⟨e, he, rfl⟩
  refine ⟨_, signTx_ok.2 ⟨?_, ?_, rfl⟩, ?_⟩
  · intro s hs
    rcases List.mem_append.1 hs with h | h
    · exact hown s h
    · obtain ⟨e, he, rfl⟩ := hmem s h
      exact (hpre e he).1
  · intro s hs
    rcases List.mem_append.1 hs with h | h
    · exact hl.usable _ s h
    · obtain ⟨e, he, rfl⟩ := hmem s h
      exact (hpre e he).2
  · intro k hk
    cases hf : (presigned pre).reverse.find? (fun s => decide (s.key w = k)) with
    | some s =>
      obtain ⟨e, he, rfl⟩ := hmem s (List.mem_reverse.1 (List.mem_of_find?_eq_some hf))
      have hs : e.1 = k := of_decide_eq_true
        (List.find?_some (p := fun s => decide (Signer.key w s = k)) hf)
      unfold slotOf
      rw [List.reverse_append, List.find?_append, hf, Option.some_or]
      dsimp only [Signer.signature]
      rw [← hs]
      exact (hpre e he).2
    | none =>
      have hb : Brings w own k := by
        rcases hk with ⟨g, hg⟩ | h
        · have := List.find?_eq_none.1 hf (.presigned k g)
            (List.mem_reverse.2 (List.mem_map.2 ⟨(k, g), hg, rfl⟩))
          simp [Signer.key] at this
        · exact h
      have := slot_own (m := w.encode msg bh) hb
      unfold slotOf at this ⊢
      rw [List.reverse_append, List.find?_append, hf, Option.none_or]
      exact this

/-- Reading back lines. -/
theorem parse_lines {P : Pubkey × Signature → Prop} : ∀ {lines : List (List Char)},
    (∀ l ∈ lines, ∃ k g, l = signerLine k g ∧ P (k, g)) →
    ∃ pre, lines.mapM parsePresigner = some pre ∧ (∀ e ∈ pre, P e) ∧
      ∀ k g, signerLine k g ∈ lines → (k, g) ∈ pre
  | [], _ => ⟨[], rfl, by simp, by simp⟩
  | l :: ls, h => by
    obtain ⟨k, g, rfl, hP⟩ := h l (by simp)
    obtain ⟨pre, h1, h2, h3⟩ := parse_lines (lines := ls)
      (fun l hl => h l (List.mem_cons_of_mem _ hl))
    refine ⟨(k, g) :: pre, ?_, ?_, ?_⟩
    · rw [List.mapM_cons, signer_line_round_trip, h1]; rfl
    · intro e he
      rcases List.mem_cons.1 he with rfl | he
      · exact hP
      · exact h2 e he
    · intro k' g' hl
      rcases List.mem_cons.1 hl with h' | h'
      · obtain ⟨rfl, rfl⟩ := signer_line_injective h'
        exact List.mem_cons_self
      · exact List.mem_cons_of_mem _ (h3 _ _ h')

/-- What a printed line of a wrap is: a valid signature of the message by somebody who has to sign. -/
theorem wrap_line {cmd : WrapCmd} {a : WrapAddrs} {l : List Char}
    (ha : cliWrapAddrs c.env (cmd.args c.wire cfg.payer) Lq = .ok a)
    (h : l ∈ printedLines ((Command.wrap cmd).run c cfg Lq Ls)) :
    cmd.signOnly = true ∧ ∃ k g, l = signerLine k g ∧
      k ∈ requiredSigners (cmd.message c cfg a).payer (cmd.message c cfg a).instructions ∧
      c.wire.verify k (c.wire.encode (cmd.message c cfg a) (cmd.blockhash.getD c.latest)) g = true := by
  have hres : ∃ p s, (Command.wrap cmd).prepare c cfg Lq = .ok p ∧
      ((Command.wrap cmd).run c cfg Lq Ls).result = .ok (p.output s) := by
    rcases run_cases (c := c) (cfg := cfg) (Lq := Lq) (Ls := Ls) (cmd := .wrap cmd) with
      ⟨e, _, hr⟩ | ⟨p, hp, ⟨h1, hr⟩ | ⟨tx, ht, hs, ⟨_, hr⟩ | ⟨_, L', _, hr⟩ | ⟨_, e, _, hr⟩⟩⟩ <;>
      rw [hr] at h ⊢
    · cases h
    · exact ⟨p, _, hp, rfl⟩
    · exact ⟨p, _, hp, rfl⟩
    · exact ⟨p, _, hp, rfl⟩
    · cases h
  obtain ⟨p, s, hp, hr⟩ := hres
  obtain ⟨_, a', tx, ha', ht, rfl⟩ := WrapCmd.prepare_ok.1 hp
  rw [ha] at ha'; cases ha'
  rw [wrap_message_eq] at ht
  unfold printedLines at h
  rw [hr] at h
  dsimp only at h
  cases hso : cmd.signOnly with
  | false => rw [hso] at h; simp at h
  | true =>
    rw [hso] at h
    simp only [if_true, Option.map_some, Option.getD_some] at h
    obtain ⟨k, hk, hl, hv⟩ := (signOnly_lines ht).1 h
    exact ⟨rfl, k, _, hl, hk, hv⟩

/-- The same for unwrap. -/
theorem unwrap_line {cmd : UnwrapCmd} {a : UnwrapAddrs} {l : List Char}
    (ha : cliUnwrapAddrs c.env (cmd.args c.wire cfg.payer) Lq = .ok a)
    (h : l ∈ printedLines ((Command.unwrap cmd).run c cfg Lq Ls)) :
    cmd.signOnly = true ∧ ∃ k g, l = signerLine k g ∧
      k ∈ requiredSigners (cmd.message c cfg a).payer (cmd.message c cfg a).instructions ∧
      c.wire.verify k (c.wire.encode (cmd.message c cfg a) (cmd.blockhash.getD c.latest)) g = true := by
  have hres : ∃ p s, (Command.unwrap cmd).prepare c cfg Lq = .ok p ∧
      ((Command.unwrap cmd).run c cfg Lq Ls).result = .ok (p.output s) := by
    rcases run_cases (c := c) (cfg := cfg) (Lq := Lq) (Ls := Ls) (cmd := .unwrap cmd) with
      ⟨e, _, hr⟩ | ⟨p, hp, ⟨h1, hr⟩ | ⟨tx, ht, hs, ⟨_, hr⟩ | ⟨_, L', _, hr⟩ | ⟨_, e, _, hr⟩⟩⟩ <;>
      rw [hr] at h ⊢
    · cases h
    · exact ⟨p, _, hp, rfl⟩
    · exact ⟨p, _, hp, rfl⟩
    · exact ⟨p, _, hp, rfl⟩
    · cases h
  obtain ⟨p, s, hp, hr⟩ := hres
  obtain ⟨_, a', tx, ha', ht, rfl⟩ := UnwrapCmd.prepare_ok.1 hp
  rw [ha] at ha'; cases ha'
  rw [unwrap_message_eq] at ht
  unfold printedLines at h
  rw [hr] at h
  dsimp only at h
  cases hso : cmd.signOnly with
  | false => rw [hso] at h; simp at h
  | true =>
    rw [hso] at h
    simp only [if_true, Option.map_some, Option.getD_some] at h
    obtain ⟨k, hk, hl, hv⟩ := (signOnly_lines ht).1 h
    exact ⟨rfl, k, _, hl, hk, hv⟩

/-- **C81** Somebody runs `wrap --sign-only` with their own key pair (or several), the keys of the
others, and no signatures handed in: the run succeeds, a line with their valid signature of the message
is printed, and nothing on the chain changes. -/
theorem cli_wrap_sign_only {cmd : WrapCmd} {a : WrapAddrs} {k : Pubkey}
    (hp : cmd.parses = true) (ha : cliWrapAddrs c.env (cmd.args c.wire cfg.payer) Lq = .ok a)
    (hs : cmd.signOnly = true) (hpre : cmd.presigners = [])
    (hl : Loaded (ownSigners c.wire cfg.payer (cmd.transferAuthority.getD cfg.payer) cmd.multisig))
    (hb : Brings c.wire (ownSigners c.wire cfg.payer (cmd.transferAuthority.getD cfg.payer)
      cmd.multisig) k) :
    ∃ g, signerLine k g ∈ printedLines ((Command.wrap cmd).run c cfg Lq Ls) ∧
      c.wire.verify k (c.wire.encode (cmd.message c cfg a) (cmd.blockhash.getD c.latest)) g = true ∧
      ((Command.wrap cmd).run c cfg Lq Ls).ledger = Ls := by
  obtain ⟨tx, ht, hv⟩ := sign_with_collected (bh := cmd.blockhash.getD c.latest)
    (msg := cmd.message c cfg a) (pre := cmd.presigners) hl
    (fun s h => mustSign_wrap.2 (mem_ownSigners h)) (by rw [hpre]; simp)
  have hv := hv k (.inr hb)
  have hprep := WrapCmd.prepare_ok.2 ⟨hp, a, tx, ha, by rw [wrap_message_eq]; exact ht, rfl⟩
  have hfin : ∀ p : Prepared, (Command.wrap cmd).prepare c cfg Lq = .ok p → p.tx = some tx →
      p.signOnly = true → (Command.wrap cmd).run c cfg Lq Ls = ⟨[], .ok (p.output none), Ls⟩ := by
    intro p h1 h2 h3
    unfold Command.run
    rw [h1]
    dsimp only
    unfold Prepared.finish
    rw [h2, h3]
  have hrun := hfin _ hprep rfl hs
  refine ⟨_, ?_, hv, by rw [hrun]⟩
  rw [hrun]
  unfold printedLines
  simp only [hs, if_true, Option.map_some, Option.getD_some]
  obtain ⟨⟨sk, hm, hk⟩, _⟩ := hb
  refine (signOnly_lines ht).2 ⟨k, mustSign_wrap.2 ?_, rfl, hv⟩
  rw [← hk]
  exact mem_ownSigners hm

/-- **C81** The same for `unwrap --sign-only`. -/
theorem cli_unwrap_sign_only {cmd : UnwrapCmd} {a : UnwrapAddrs} {k : Pubkey}
    (hp : cmd.parses = true) (ha : cliUnwrapAddrs c.env (cmd.args c.wire cfg.payer) Lq = .ok a)
    (hs : cmd.signOnly = true) (hpre : cmd.presigners = [])
    (hl : Loaded (ownSigners c.wire cfg.payer (cmd.transferAuthority.getD cfg.payer) cmd.multisig))
    (hb : Brings c.wire (ownSigners c.wire cfg.payer (cmd.transferAuthority.getD cfg.payer)
      cmd.multisig) k) :
    ∃ g, signerLine k g ∈ printedLines ((Command.unwrap cmd).run c cfg Lq Ls) ∧
      c.wire.verify k (c.wire.encode (cmd.message c cfg a) (cmd.blockhash.getD c.latest)) g = true ∧
      ((Command.unwrap cmd).run c cfg Lq Ls).ledger = Ls := by
  obtain ⟨tx, ht, hv⟩ := sign_with_collected (bh := cmd.blockhash.getD c.latest)
    (msg := cmd.message c cfg a) (pre := cmd.presigners) hl
    (fun s h => mustSign_unwrap.2 (mem_ownSigners h)) (by rw [hpre]; simp)
  have hv := hv k (.inr hb)
  have hprep := UnwrapCmd.prepare_ok.2 ⟨hp, a, tx, ha, by rw [unwrap_message_eq]; exact ht, rfl⟩
  have hfin : ∀ p : Prepared, (Command.unwrap cmd).prepare c cfg Lq = .ok p → p.tx = some tx →
      p.signOnly = true → (Command.unwrap cmd).run c cfg Lq Ls = ⟨[], .ok (p.output none), Ls⟩ := by
    intro p h1 h2 h3
    unfold Command.run
    rw [h1]
    dsimp only
    unfold Prepared.finish
    rw [h2, h3]
  have hrun := hfin _ hprep rfl hs
  refine ⟨_, ?_, hv, by rw [hrun]⟩
  rw [hrun]
  unfold printedLines
  simp only [hs, if_true, Option.map_some, Option.getD_some]
  obtain ⟨⟨sk, hm, hk⟩, _⟩ := hb
  refine (signOnly_lines ht).2 ⟨k, mustSign_unwrap.2 ?_, rfl, hv⟩
  rw [← hk]
  exact mem_ownSigners hm

/-! ## The broadcaster -/

/-- Sending a verified transaction whose message runs. -/
theorem finish_sent {p : Prepared} {tx : SentTx} {L' : Ledger} (ht : p.tx = some tx)
    (hs : p.signOnly = false) (hd : cfg.dryRun = false) (hl : c.live tx.blockhash = true)
    (hv : tx.verified c.wire = true) (hrun : tx.message.run c.env c.demoted Ls = .ok L') :
    p.finish c cfg Ls = ⟨[], .ok (p.output (tx.signatures.head?.map (·.2))), L'⟩ := by
  unfold Prepared.finish processTransaction
  rw [ht, hs]
  simp only [hd, Bool.false_eq_true, if_false, sendAndConfirm_ok.2 ⟨hl, hv, hrun⟩]

theorem finish_refused {p : Prepared} {tx : SentTx} (ht : p.tx = some tx)
    (hs : p.signOnly = false) (hd : cfg.dryRun = false) (hv : tx.verified c.wire = false) :
    p.finish c cfg Ls = ⟨[], .error .refused, Ls⟩ := by
  unfold Prepared.finish processTransaction
  rw [ht, hs]
  have : sendAndConfirm c tx Ls = .error .refused := by
    unfold sendAndConfirm
    rw [hv, Bool.and_false]
    rfl
  simp only [hd, Bool.false_eq_true, if_false, this]

theorem verified_of_slots {w : Wire} {msg : Message} {bh : Pubkey} {signers : List Signer} {tx : SentTx}
    (h : signTx w msg bh signers = .ok tx)
    (hv : ∀ k ∈ requiredSigners msg.payer msg.instructions,
      w.verify k (w.encode msg bh) (slotOf w (w.encode msg bh) signers k) = true) :
    tx.verified w = true := by
  obtain ⟨_, _, rfl⟩ := signTx_ok.1 h
  simp only [SentTx.verified, List.all_eq_true, List.mem_map, List.mem_dedup]
  rintro e ⟨k, hk, rfl⟩
  exact hv k hk

/-- **C81** The multisig flow of `wrap`, for any number of members, in any order, however they share
the work: every line was printed by some `--sign-only` run, on any machine at any time, of the same
message with the same blockhash; everybody who has to sign is covered by a line or brings a key pair to
the last run.  Then all lines parse, and the last run, given them with `--signer`, succeeds and leaves
exactly what the message does to the chain. -/
theorem cli_wrap_offline {cmd : WrapCmd} {a : WrapAddrs} {bh : Pubkey} {lines : List (List Char)}
    {L' : Ledger} (hp : cmd.parses = true) (hbh : cmd.blockhash = some bh)
    (ha : cliWrapAddrs c.env (cmd.args c.wire cfg.payer) Lq = .ok a)
    (hd : cfg.dryRun = false) (hs : cmd.signOnly = false) (hlive : c.live bh = true)
    (hl : Loaded (ownSigners c.wire cfg.payer (cmd.transferAuthority.getD cfg.payer) cmd.multisig))
    (hlines : ∀ l ∈ lines, ∃ cfg' cmd' Lq' Ls' a',
      l ∈ printedLines ((Command.wrap cmd').run c cfg' Lq' Ls') ∧
      cliWrapAddrs c.env (cmd'.args c.wire cfg'.payer) Lq' = .ok a' ∧
      cmd'.message c cfg' a' = cmd.message c cfg a ∧ cmd'.blockhash = some bh)
    (hall : ∀ k, MustSign (cfg.payer.key c.wire) ((cmd.transferAuthority.getD cfg.payer).key c.wire)
        (cmd.multisig.map (·.key c.wire)) k → (∃ g, signerLine k g ∈ lines) ∨
      Brings c.wire (ownSigners c.wire cfg.payer (cmd.transferAuthority.getD cfg.payer) cmd.multisig) k)
    (hrun : (cmd.message c cfg a).run c.env c.demoted Ls = .ok L') :
    ∃ pre, lines.mapM parsePresigner = some pre ∧
      ∃ o, (Command.wrap { cmd with presigners := pre }).run c cfg Lq Ls = ⟨[], .ok (.wrap o), L'⟩ := by
  obtain ⟨pre, h1, h2, h3⟩ := parse_lines (lines := lines)
    (P := fun e => e.1 ∈ requiredSigners (cmd.message c cfg a).payer (cmd.message c cfg a).instructions ∧
      c.wire.verify e.1 (c.wire.encode (cmd.message c cfg a) bh) e.2 = true) (by
    intro l hm
    obtain ⟨cfg', cmd', Lq', Ls', a', hpl, ha', hmsg, hb'⟩ := hlines l hm
    obtain ⟨_, k, g, hk, hreq, hv⟩ := wrap_line ha' hpl
    rw [hmsg] at hreq hv
    rw [hb'] at hv
    exact ⟨k, g, hk, hreq, hv⟩)
  refine ⟨pre, h1, ?_⟩
  obtain ⟨tx, ht, hv⟩ := sign_with_collected (bh := bh) (msg := cmd.message c cfg a) (pre := pre) hl
    (fun s h => mustSign_wrap.2 (mem_ownSigners h)) h2
  have hver : tx.verified c.wire = true := verified_of_slots ht fun k hk =>
    hv k ((hall k (mustSign_wrap.1 hk)).imp (fun ⟨g, hg⟩ => ⟨g, h3 k g hg⟩) id)
  have hp' : WrapCmd.parses { cmd with presigners := pre } = true := by
    simp only [WrapCmd.parses, Bool.and_eq_true] at hp ⊢
    exact ⟨hp.1, by rw [hbh]; rfl⟩
  have hprep := (WrapCmd.prepare_ok (cmd := { cmd with presigners := pre }) (c := c) (cfg := cfg)
    (Lq := Lq)).2 ⟨hp', a, tx, ha, by
      rw [wrap_message_eq]
      dsimp only
      rw [hbh]
      exact ht, rfl⟩
  obtain ⟨_, _, hx⟩ := signTx_ok.1 ht
  obtain ⟨p, hq, hq1, hq2, o, ho⟩ : ∃ p : Prepared,
      (Command.wrap { cmd with presigners := pre }).prepare c cfg Lq = .ok p ∧ p.tx = some tx ∧
      p.signOnly = false ∧ ∃ o, ∀ s, p.output s = .wrap o := ⟨_, hprep, rfl, hs, _, fun _ => rfl⟩
  refine ⟨o, ?_⟩
  unfold Command.run
  rw [hq]
  dsimp only
  rw [finish_sent hq1 hq2 hd (by rw [hx]; exact hlive) hver (by rw [hx]; exact hrun), ho]

/-- **C81** The multisig flow of `unwrap`. -/
theorem cli_unwrap_offline {cmd : UnwrapCmd} {a : UnwrapAddrs} {bh : Pubkey} {lines : List (List Char)}
    {L' : Ledger} (hp : cmd.parses = true) (hbh : cmd.blockhash = some bh)
    (ha : cliUnwrapAddrs c.env (cmd.args c.wire cfg.payer) Lq = .ok a)
    (hd : cfg.dryRun = false) (hs : cmd.signOnly = false) (hlive : c.live bh = true)
    (hl : Loaded (ownSigners c.wire cfg.payer (cmd.transferAuthority.getD cfg.payer) cmd.multisig))
    (hlines : ∀ l ∈ lines, ∃ cfg' cmd' Lq' Ls' a',
      l ∈ printedLines ((Command.unwrap cmd').run c cfg' Lq' Ls') ∧
      cliUnwrapAddrs c.env (cmd'.args c.wire cfg'.payer) Lq' = .ok a' ∧
      cmd'.message c cfg' a' = cmd.message c cfg a ∧ cmd'.blockhash = some bh)
    (hall : ∀ k, MustSign (cfg.payer.key c.wire) ((cmd.transferAuthority.getD cfg.payer).key c.wire)
        (cmd.multisig.map (·.key c.wire)) k → (∃ g, signerLine k g ∈ lines) ∨
      Brings c.wire (ownSigners c.wire cfg.payer (cmd.transferAuthority.getD cfg.payer) cmd.multisig) k)
    (hrun : (cmd.message c cfg a).run c.env c.demoted Ls = .ok L') :
    ∃ pre, lines.mapM parsePresigner = some pre ∧
      ∃ o, (Command.unwrap { cmd with presigners := pre }).run c cfg Lq Ls =
        ⟨[], .ok (.unwrap o), L'⟩ := by
  obtain ⟨pre, h1, h2, h3⟩ := parse_lines (lines := lines)
    (P := fun e => e.1 ∈ requiredSigners (cmd.message c cfg a).payer (cmd.message c cfg a).instructions ∧
      c.wire.verify e.1 (c.wire.encode (cmd.message c cfg a) bh) e.2 = true) (by
    intro l hm
    obtain ⟨cfg', cmd', Lq', Ls', a', hpl, ha', hmsg, hb'⟩ := hlines l hm
    obtain ⟨_, k, g, hk, hreq, hv⟩ := unwrap_line ha' hpl
    rw [hmsg] at hreq hv
    rw [hb'] at hv
    exact ⟨k, g, hk, hreq, hv⟩)
  refine ⟨pre, h1, ?_⟩
  obtain ⟨tx, ht, hv⟩ := sign_with_collected (bh := bh) (msg := cmd.message c cfg a) (pre := pre) hl
    (fun s h => mustSign_unwrap.2 (mem_ownSigners h)) h2
  have hver : tx.verified c.wire = true := verified_of_slots ht fun k hk =>
    hv k ((hall k (mustSign_unwrap.1 hk)).imp (fun ⟨g, hg⟩ => ⟨g, h3 k g hg⟩) id)
  have hp' : UnwrapCmd.parses { cmd with presigners := pre } = true := by
    simp only [UnwrapCmd.parses, Bool.and_eq_true] at hp ⊢
    exact ⟨hp.1, by rw [hbh]; rfl⟩
  have hprep := (UnwrapCmd.prepare_ok (cmd := { cmd with presigners := pre }) (c := c) (cfg := cfg)
    (Lq := Lq)).2 ⟨hp', a, tx, ha, by
      rw [unwrap_message_eq]
      dsimp only
      rw [hbh]
      exact ht, rfl⟩
  obtain ⟨_, _, hx⟩ := signTx_ok.1 ht
  obtain ⟨p, hq, hq1, hq2, o, ho⟩ : ∃ p : Prepared,
      (Command.unwrap { cmd with presigners := pre }).prepare c cfg Lq = .ok p ∧ p.tx = some tx ∧
      p.signOnly = false ∧ ∃ o, ∀ s, p.output s = .unwrap o := ⟨_, hprep, rfl, hs, _, fun _ => rfl⟩
  refine ⟨o, ?_⟩
  unfold Command.run
  rw [hq]
  dsimp only
  rw [finish_sent hq1 hq2 hd (by rw [hx]; exact hlive) hver (by rw [hx]; exact hrun), ho]

/-! ## Somebody is missing -/

/-- Nobody signs for `k`: neither a key pair nor a signature handed in. -/
def Missing (w : Wire) (own : List Signer) (pre : List (Pubkey × Signature)) (k : Pubkey) : Prop :=
  (∀ s ∈ own, s.key w = k → s = .absent k) ∧ ∀ e ∈ pre, e.1 ≠ k

theorem slot_missing {w : Wire} {m : Bytes} {own : List Signer} {pre : List (Pubkey × Signature)}
    {k : Pubkey} (h : Missing w own pre k) :
    w.verify k m (slotOf w m (own ++ presigned pre) k) = false := by
  unfold slotOf
  cases hf : (own ++ presigned pre).reverse.find? (fun s => decide (s.key w = k)) with
  | none => exact w.empty k m
  | some s =>
    have hs : s.key w = k := by simpa using List.find?_some hf
    rcases List.mem_append.1 (List.mem_reverse.1 (List.mem_of_find?_eq_some hf)) with hm | hm
    · rw [h.1 s hm hs]; exact w.empty k m
    · obtain ⟨e, he, rfl⟩ := List.mem_map.1 hm
      exact absurd hs (h.2 e he)

theorem unverified_of_slot {w : Wire} {msg : Message} {bh : Pubkey} {signers : List Signer} {tx : SentTx}
    {k : Pubkey} (h : signTx w msg bh signers = .ok tx)
    (hk : k ∈ requiredSigners msg.payer msg.instructions)
    (hv : w.verify k (w.encode msg bh) (slotOf w (w.encode msg bh) signers k) = false) :
    tx.verified w = false := by
  obtain ⟨_, _, rfl⟩ := signTx_ok.1 h
  rw [Bool.eq_false_iff]
  intro hall
  simp only [SentTx.verified, List.all_eq_true, List.mem_map, List.mem_dedup] at hall
  have := hall _ ⟨k, hk, rfl⟩
  dsimp only at this
  rw [hv] at this
  cases this

/-- **C81** If a signature is missing, the run fails and nothing changes. -/
theorem cli_wrap_missing_signature {cmd : WrapCmd} {k : Pubkey} (hd : cfg.dryRun = false)
    (hs : cmd.signOnly = false)
    (hk : MustSign (cfg.payer.key c.wire) ((cmd.transferAuthority.getD cfg.payer).key c.wire)
      (cmd.multisig.map (·.key c.wire)) k)
    (hm : Missing c.wire (ownSigners c.wire cfg.payer (cmd.transferAuthority.getD cfg.payer)
      cmd.multisig) cmd.presigners k) :
    ∃ e, (Command.wrap cmd).run c cfg Lq Ls = ⟨[], .error e, Ls⟩ := by
  cases hp : (Command.wrap cmd).prepare c cfg Lq with
  | error e => exact ⟨e, by unfold Command.run; rw [hp]⟩
  | ok p =>
    obtain ⟨_, a, tx, ha, ht, rfl⟩ := WrapCmd.prepare_ok.1 hp
    rw [wrap_message_eq] at ht
    refine ⟨.refused, ?_⟩
    unfold Command.run
    rw [hp]
    exact finish_refused rfl hs hd (unverified_of_slot ht (mustSign_wrap.2 hk) (slot_missing hm))

/-- **C81** Likewise for `unwrap`. -/
theorem cli_unwrap_missing_signature {cmd : UnwrapCmd} {k : Pubkey} (hd : cfg.dryRun = false)
    (hs : cmd.signOnly = false)
    (hk : MustSign (cfg.payer.key c.wire) ((cmd.transferAuthority.getD cfg.payer).key c.wire)
      (cmd.multisig.map (·.key c.wire)) k)
    (hm : Missing c.wire (ownSigners c.wire cfg.payer (cmd.transferAuthority.getD cfg.payer)
      cmd.multisig) cmd.presigners k) :
    ∃ e, (Command.unwrap cmd).run c cfg Lq Ls = ⟨[], .error e, Ls⟩ := by
  cases hp : (Command.unwrap cmd).prepare c cfg Lq with
  | error e => exact ⟨e, by unfold Command.run; rw [hp]⟩
  | ok p =>
    obtain ⟨_, a, tx, ha, ht, rfl⟩ := UnwrapCmd.prepare_ok.1 hp
    rw [unwrap_message_eq] at ht
    refine ⟨.refused, ?_⟩
    unfold Command.run
    rw [hp]
    exact finish_refused rfl hs hd (unverified_of_slot ht (mustSign_unwrap.2 hk) (slot_missing hm))

/-! ## The report of a `--sign-only` run -/

/-- **C81** A successful `wrap --sign-only` reports about everybody who has to sign: with their valid
signature of the message, or as absent. -/
theorem cli_wrap_sign_only_report {cmd : WrapCmd} {a : WrapAddrs} {o : WrapOutput}
    (ha : cliWrapAddrs c.env (cmd.args c.wire cfg.payer) Lq = .ok a)
    (hs : cmd.signOnly = true)
    (h : ((Command.wrap cmd).run c cfg Lq Ls).result = .ok (.wrap o)) :
    ∃ d, o.signOnly = some d ∧
      SignReport c.wire (c.wire.encode (cmd.message c cfg a) (cmd.blockhash.getD c.latest))
        (MustSign (cfg.payer.key c.wire) ((cmd.transferAuthority.getD cfg.payer).key c.wire)
          (cmd.multisig.map (·.key c.wire))) d := by
  cases hp : (Command.wrap cmd).prepare c cfg Lq with
  | error e => unfold Command.run at h; rw [hp] at h; cases h
  | ok p =>
    obtain ⟨_, a', tx, ha', ht, rfl⟩ := WrapCmd.prepare_ok.1 hp
    rw [ha] at ha'; cases ha'
    rw [wrap_message_eq] at ht
    unfold Command.run at h
    rw [hp] at h
    dsimp only at h
    unfold Prepared.finish at h
    rw [hs] at h
    dsimp only at h
    cases h
    have r := signOnly_report ht
    refine ⟨_, rfl, r.message, fun k => ?_, r.once, r.noBad⟩
    rw [← mustSign_wrap (a := a)]
    exact r.listed k

/-- **C81** The same for `unwrap --sign-only`. -/
theorem cli_unwrap_sign_only_report {cmd : UnwrapCmd} {a : UnwrapAddrs} {o : UnwrapOutput}
    (ha : cliUnwrapAddrs c.env (cmd.args c.wire cfg.payer) Lq = .ok a)
    (hs : cmd.signOnly = true)
    (h : ((Command.unwrap cmd).run c cfg Lq Ls).result = .ok (.unwrap o)) :
    ∃ d, o.signOnly = some d ∧
      SignReport c.wire (c.wire.encode (cmd.message c cfg a) (cmd.blockhash.getD c.latest))
        (MustSign (cfg.payer.key c.wire) ((cmd.transferAuthority.getD cfg.payer).key c.wire)
          (cmd.multisig.map (·.key c.wire))) d := by
  cases hp : (Command.unwrap cmd).prepare c cfg Lq with
  | error e => unfold Command.run at h; rw [hp] at h; cases h
  | ok p =>
    obtain ⟨_, a', tx, ha', ht, rfl⟩ := UnwrapCmd.prepare_ok.1 hp
    rw [ha] at ha'; cases ha'
    rw [unwrap_message_eq] at ht
    unfold Command.run at h
    rw [hp] at h
    dsimp only at h
    unfold Prepared.finish at h
    rw [hs] at h
    dsimp only at h
    cases h
    have r := signOnly_report ht
    refine ⟨_, rfl, r.message, fun k => ?_, r.once, r.noBad⟩
    rw [← mustSign_unwrap (a := a)]
    exact r.listed k

/-! ## Away from the network -/

/-- **C81** With mint and token program given (and the blockhash, see `Cluster.latest`), `wrap --sign-only` does not depend
on the chain at all: it can be run on a machine without a network. -/
theorem cli_wrap_sign_only_offline {cmd : WrapCmd} {Lq' Ls' : Ledger} (hs : cmd.signOnly = true)
    (hu : cmd.unwrappedMint.isSome) (hp : cmd.unwrappedTokenProgram.isSome) :
    ((Command.wrap cmd).run c cfg Lq Ls).result = ((Command.wrap cmd).run c cfg Lq' Ls').result := by
  have haddr : cliWrapAddrs c.env (cmd.args c.wire cfg.payer) Lq =
      cliWrapAddrs c.env (cmd.args c.wire cfg.payer) Lq' := by
    obtain ⟨u, hu⟩ := Option.isSome_iff_exists.1 hu
    obtain ⟨q, hp⟩ := Option.isSome_iff_exists.1 hp
    simp only [cliWrapAddrs, WrapCmd.args, hu, hp, orQuery]
  have hprep : (Command.wrap cmd).prepare c cfg Lq = (Command.wrap cmd).prepare c cfg Lq' := by
    simp only [Command.prepare, WrapCmd.prepare, haddr]
  unfold Command.run
  rw [hprep]
  cases h : (Command.wrap cmd).prepare c cfg Lq' with
  | error e => rfl
  | ok p =>
    have := (prepare_facts h).1
    dsimp only
    unfold Prepared.finish
    rw [this]
    simp only [Command.onlySigns, hs]
    cases p.tx <;> rfl

/-- **C81** `unwrap --sign-only` always asks the chain, even with every argument given: it fails where
the accounts cannot be read. -/
theorem cli_unwrap_sign_only_needs_chain {cmd : UnwrapCmd}
    (h0 : (Lq cmd.wrappedTokenAccount).lamports = 0) :
    ∃ e, ((Command.unwrap cmd).run c cfg Lq Ls).result = .error e := by
  cases hp : (Command.unwrap cmd).prepare c cfg Lq with
  | error e => exact ⟨e, by unfold Command.run; rw [hp]⟩
  | ok p =>
    obtain ⟨_, a, tx, ha, ht, rfl⟩ := UnwrapCmd.prepare_ok.1 hp
    simp only [cliUnwrapAddrs, bind_ok_iff, rpcOwner_ok] at ha
    obtain ⟨q1, h1, _⟩ := ha
    exact absurd h0 h1.1

end

end TokenWrap
