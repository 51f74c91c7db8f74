import Verif.CliRun
import Verif.Props.Message
import Verif.Props.Clients
/-!
# Whole runs of the CLI (C80), collecting signatures with `--sign-only` (C81)
-/

namespace TokenWrap

open TokenWrapInstruction

/-! ## Signing -/

section
variable {w : Wire} {msg : Message} {bh : Pubkey} {signers : List Signer} {tx : SentTx}

theorem signTx_ok : signTx w msg bh signers = .ok tx ↔
    (∀ s ∈ signers, s.key w ∈ requiredSigners msg.payer msg.instructions) ∧
    (∀ s ∈ signers, s.usable w (w.encode msg bh) = true) ∧
    tx = ⟨msg, bh, (requiredSigners msg.payer msg.instructions).dedup.map fun k =>
      (k, slotOf w (w.encode msg bh) signers k)⟩ := by
  simp only [signTx, bind_ok_iff, require_ok_iff, List.all_eq_true, List.contains_iff_mem, pure_ok_iff,
    exists_const, eq_comm (b := tx)]

theorem signTxFully_ok : signTxFully w msg bh signers = .ok tx ↔
    signTx w msg bh signers = .ok tx ∧ ∀ e ∈ tx.signatures, e.2 ≠ .zero := by
  simp only [signTxFully, bind_ok_iff, require_ok_iff, List.all_eq_true, pure_ok_iff, exists_const,
    decide_eq_true_eq]
  constructor
  · rintro ⟨t, h1, h2, rfl⟩; exact ⟨h1, h2⟩
  · rintro ⟨h1, h2⟩; exact ⟨tx, h1, h2, rfl⟩

/-- A slot verifies exactly if the last signer given for the key is there. -/
theorem slot_verifies {k : Pubkey} {m : Bytes} {p : Pubkey} {ixs : List ClientIx}
    (hu : ∀ s ∈ signers, s.usable w m = true) :
    w.verify k m (slotOf w m signers k) =
      CliTx.hasSignature ⟨p, ixs, signers.map (·.abs w)⟩ k := by
  unfold slotOf CliTx.hasSignature
  dsimp only
  rw [← List.map_reverse, List.find?_map]
  have hf : ((fun s : CliSigner => decide (s.key = k)) ∘ fun s => Signer.abs w s) =
      fun s => decide (Signer.key w s = k) := rfl
  rw [hf]
  cases hfind : signers.reverse.find? (fun s => decide (s.key w = k)) with
  | none => exact w.empty k m
  | some s =>
    have hk : s.key w = k := by simpa using List.find?_some hfind
    have hs := hu s (List.mem_reverse.1 (List.mem_of_find?_eq_some hfind))
    cases s with
    | keypair sk => rw [← hk]; exact w.correct sk m
    | absent _ => exact w.empty k m
    | presigned k' g => simp only [Signer.key] at hk; rw [← hk]; exact hs

/-- All slots verify exactly if the transaction is fully signed in the sense of C55. -/
theorem verified_iff (h : signTx w msg bh signers = .ok tx) :
    tx.verified w = true ↔
      CliTx.FullySigned ⟨msg.payer, msg.instructions, signers.map (·.abs w)⟩ := by
  obtain ⟨_, hu, rfl⟩ := signTx_ok.1 h
  simp only [SentTx.verified, List.all_eq_true, List.mem_map, List.mem_dedup, CliTx.FullySigned]
  constructor
  · intro hv k hk
    have := hv _ ⟨k, hk, rfl⟩
    dsimp only at this
    rwa [slot_verifies (p := msg.payer) (ixs := msg.instructions) hu] at this
  · rintro hv e ⟨k, hk, rfl⟩
    dsimp only
    rw [slot_verifies (p := msg.payer) (ixs := msg.instructions) hu]
    exact hv k hk

end

theorem ownSigners_abs {w : Wire} {payer authority : Signer} {multisig : List Signer}
    {pre : List (Pubkey × Signature)} :
    (ownSigners w payer authority multisig ++ presigned pre).map (·.abs w) =
      cliSigners (payer.abs w) (authority.abs w) (multisig.map (·.abs w))
        (pre.map fun e => ⟨e.1, true⟩) := by
  have h1 : (payer.key w ≠ authority.key w ∧ multisig.isEmpty) =
      ((payer.abs w).key ≠ (authority.abs w).key ∧ (multisig.map (·.abs w)).isEmpty) := by
    simp [Signer.abs]
  have h2 : (presigned pre).map (·.abs w) = pre.map fun e => (⟨e.1, true⟩ : CliSigner) := by
    simp only [presigned, List.map_map]; rfl
  unfold ownSigners cliSigners
  rw [List.map_append, h2]
  simp only [List.map_append, List.map_cons, List.map_nil]
  congr 3
  simp only [h1]
  split <;> rfl

section
variable {c : Cluster} {cfg : CliConfig} {Lq Ls : Ledger}

/-! ## What was prepared -/

theorem WrapCmd.prepare_ok {cmd : WrapCmd} {p : Prepared} :
    cmd.prepare c cfg Lq = .ok p ↔ cmd.parses = true ∧
      ∃ a tx, cliWrapAddrs c.env (cmd.args c.wire cfg.payer) Lq = .ok a ∧
        signTx c.wire ⟨cfg.payer.key c.wire, [cliWrapIx (cmd.args c.wire cfg.payer) a]⟩
          (cmd.blockhash.getD c.latest)
          (ownSigners c.wire cfg.payer (cmd.transferAuthority.getD cfg.payer) cmd.multisig ++
            presigned cmd.presigners) = .ok tx ∧
        p = ⟨some tx, cmd.signOnly, fun _ => .wrap
          { unwrappedMint := a.mint, wrappedMint := a.wrappedMint
            unwrappedTokenAccount := cmd.unwrappedTokenAccount, recipient := a.recipient
            escrow := a.escrow, amount := cmd.amount, signatures := tx.signatures.map (·.2)
            signOnly := if cmd.signOnly then some (tx.signOnlyData c.wire) else none }⟩ := by
  simp only [WrapCmd.prepare, bind_ok_iff, require_ok_iff, pure_ok_iff, exists_const]
  constructor
  · rintro ⟨h1, a, h2, tx, h3, rfl⟩; exact ⟨h1, a, tx, h2, h3, rfl⟩
  · rintro ⟨h1, a, tx, h2, h3, rfl⟩; exact ⟨h1, a, h2, tx, h3, rfl⟩

theorem UnwrapCmd.prepare_ok {cmd : UnwrapCmd} {p : Prepared} :
    cmd.prepare c cfg Lq = .ok p ↔ cmd.parses = true ∧
      ∃ a tx, cliUnwrapAddrs c.env (cmd.args c.wire cfg.payer) Lq = .ok a ∧
        signTx c.wire ⟨cfg.payer.key c.wire, [cliUnwrapIx (cmd.args c.wire cfg.payer) a]⟩
          (cmd.blockhash.getD c.latest)
          (ownSigners c.wire cfg.payer (cmd.transferAuthority.getD cfg.payer) cmd.multisig ++
            presigned cmd.presigners) = .ok tx ∧
        p = ⟨some tx, cmd.signOnly, fun _ => .unwrap
          { unwrappedTokenProgram := a.program, unwrappedMint := a.mint, wrappedMint := a.wrappedMint
            escrow := a.escrow, wrappedTokenAccount := cmd.wrappedTokenAccount
            recipient := cmd.recipient, amount := cmd.amount, signatures := tx.signatures.map (·.2)
            signOnly := if cmd.signOnly then some (tx.signOnlyData c.wire) else none }⟩ := by
  simp only [UnwrapCmd.prepare, bind_ok_iff, require_ok_iff, pure_ok_iff, exists_const]
  constructor
  · rintro ⟨h1, a, h2, tx, h3, rfl⟩; exact ⟨h1, a, tx, h2, h3, rfl⟩
  · rintro ⟨h1, a, tx, h2, h3, rfl⟩; exact ⟨h1, a, h2, tx, h3, rfl⟩

theorem getD_abs {w : Wire} {t : Option Signer} {p : Signer} :
    (t.map (·.abs w)).getD (p.abs w) = (t.getD p).abs w := by
  cases t <;> rfl

/-- What the full command signs is what the command of C55 builds. -/
theorem wrap_sign_abs {cmd : WrapCmd} {a : WrapAddrs} {tx : SentTx}
    (ha : cliWrapAddrs c.env (cmd.args c.wire cfg.payer) Lq = .ok a)
    (ht : signTx c.wire ⟨cfg.payer.key c.wire, [cliWrapIx (cmd.args c.wire cfg.payer) a]⟩
      (cmd.blockhash.getD c.latest)
      (ownSigners c.wire cfg.payer (cmd.transferAuthority.getD cfg.payer) cmd.multisig ++
        presigned cmd.presigners) = .ok tx) :
    ∃ t, cliWrap c.env (cmd.args c.wire cfg.payer) Lq = .ok t ∧ t.message = tx.message ∧
      (tx.verified c.wire = true ↔ t.FullySigned) := by
  have hv := verified_iff ht
  obtain ⟨h1, h2, rfl⟩ := signTx_ok.1 ht
  refine ⟨_, ?_, rfl, hv⟩
  unfold cliWrap
  rw [ha, ok_bind]
  dsimp only
  have e : cliSigners (cmd.args c.wire cfg.payer).payer
      ((cmd.args c.wire cfg.payer).transferAuthority.getD (cmd.args c.wire cfg.payer).payer)
      (cmd.args c.wire cfg.payer).multisig (cmd.args c.wire cfg.payer).presigners =
      (ownSigners c.wire cfg.payer (cmd.transferAuthority.getD cfg.payer) cmd.multisig ++
        presigned cmd.presigners).map (·.abs c.wire) := by
    rw [ownSigners_abs, ← getD_abs]; rfl
  rw [e]
  refine partialSign_eq ?_
  intro s hs
  obtain ⟨s', hs', rfl⟩ := List.mem_map.1 hs
  exact h1 s' hs'

/-- The same for unwrap. -/
theorem unwrap_sign_abs {cmd : UnwrapCmd} {a : UnwrapAddrs} {tx : SentTx}
    (ha : cliUnwrapAddrs c.env (cmd.args c.wire cfg.payer) Lq = .ok a)
    (ht : signTx c.wire ⟨cfg.payer.key c.wire, [cliUnwrapIx (cmd.args c.wire cfg.payer) a]⟩
      (cmd.blockhash.getD c.latest)
      (ownSigners c.wire cfg.payer (cmd.transferAuthority.getD cfg.payer) cmd.multisig ++
        presigned cmd.presigners) = .ok tx) :
    ∃ t, cliUnwrap c.env (cmd.args c.wire cfg.payer) Lq = .ok t ∧ t.message = tx.message ∧
      (tx.verified c.wire = true ↔ t.FullySigned) := by
  have hv := verified_iff ht
  obtain ⟨h1, h2, rfl⟩ := signTx_ok.1 ht
  refine ⟨_, ?_, rfl, hv⟩
  unfold cliUnwrap
  rw [ha, ok_bind]
  dsimp only
  have e : cliSigners (cmd.args c.wire cfg.payer).payer
      ((cmd.args c.wire cfg.payer).transferAuthority.getD (cmd.args c.wire cfg.payer).payer)
      (cmd.args c.wire cfg.payer).multisig (cmd.args c.wire cfg.payer).presigners =
      (ownSigners c.wire cfg.payer (cmd.transferAuthority.getD cfg.payer) cmd.multisig ++
        presigned cmd.presigners).map (·.abs c.wire) := by
    rw [ownSigners_abs, ← getD_abs]; rfl
  rw [e]
  refine partialSign_eq ?_
  intro s hs
  obtain ⟨s', hs', rfl⟩ := List.mem_map.1 hs
  exact h1 s' hs'

/-! ## What a run can do to the chain -/

/-- `--sign-only`: only `wrap` and `unwrap` have it. -/
def Command.onlySigns : Command → Bool
  | .wrap cmd => cmd.signOnly
  | .unwrap cmd => cmd.signOnly
  | _ => false

theorem sendAndConfirm_ok {tx : SentTx} {L L' : Ledger} :
    sendAndConfirm c tx L = .ok L' ↔ c.live tx.blockhash = true ∧ tx.verified c.wire = true ∧
      tx.message.run c.env c.demoted L = .ok L' := by
  simp only [sendAndConfirm, bind_ok_iff, require_ok_iff, Bool.and_eq_true, exists_const]
  split
  · rename_i L1 h; simp [h, and_assoc]
  · rename_i e h; simp [h]

/-- The four ways a run ends. -/
theorem run_cases {cmd : Command} :
    (∃ e, cmd.prepare c cfg Lq = .error e ∧ cmd.run c cfg Lq Ls = ⟨[], .error e, Ls⟩) ∨
    ∃ p, cmd.prepare c cfg Lq = .ok p ∧
      (((p.tx = none ∨ p.signOnly = true) ∧ cmd.run c cfg Lq Ls = ⟨[], .ok (p.output none), Ls⟩) ∨
      ∃ tx, p.tx = some tx ∧ p.signOnly = false ∧
        ((cfg.dryRun = true ∧
          cmd.run c cfg Lq Ls = ⟨simulationNotices c cfg tx Ls, .ok (p.output none), Ls⟩) ∨
        (cfg.dryRun = false ∧ ∃ L', sendAndConfirm c tx Ls = .ok L' ∧
          cmd.run c cfg Lq Ls = ⟨[], .ok (p.output (tx.signatures.head?.map (·.2))), L'⟩) ∨
        (cfg.dryRun = false ∧ ∃ e, sendAndConfirm c tx Ls = .error e ∧
          cmd.run c cfg Lq Ls = ⟨[], .error e, Ls⟩))) := by
  cases hp : cmd.prepare c cfg Lq with
  | error e => left; exact ⟨e, rfl, by simp only [Command.run, hp]⟩
  | ok p =>
    refine .inr ⟨p, rfl, ?_⟩
    simp only [Command.run, hp, Prepared.finish]
    cases ht : p.tx with
    | none => left; simp
    | some tx =>
      cases hs : p.signOnly with
      | true => left; simp
      | false =>
        refine .inr ⟨tx, rfl, rfl, ?_⟩
        dsimp only
        unfold processTransaction
        cases hd : cfg.dryRun with
        | true => left; exact ⟨rfl, rfl⟩
        | false =>
          right
          simp only [Bool.false_eq_true, if_false]
          cases hc : sendAndConfirm c tx Ls with
          | ok L' => left; exact ⟨trivial, L', rfl, rfl⟩
          | error e => right; exact ⟨trivial, e, rfl, rfl⟩

theorem prepare_facts {cmd : Command} {p : Prepared} (h : cmd.prepare c cfg Lq = .ok p) :
    p.signOnly = cmd.onlySigns ∧ ∀ tx, p.tx = some tx → ∃ signers,
      signTx c.wire tx.message tx.blockhash signers = .ok tx := by
  have key : ∀ {msg bh signers tx}, signTx c.wire msg bh signers = .ok tx → ∀ tx', some tx = some tx' →
      ∃ signers, signTx c.wire tx'.message tx'.blockhash signers = .ok tx' := by
    intro msg bh signers tx ht tx' he
    cases he
    obtain ⟨_, _, hx⟩ := id (signTx_ok.1 ht)
    refine ⟨signers, ?_⟩
    rw [show tx.message = msg by rw [hx], show tx.blockhash = bh by rw [hx]]
    exact ht
  cases cmd with
  | wrap cmd => obtain ⟨_, a, tx, _, ht, rfl⟩ := WrapCmd.prepare_ok.1 h; exact ⟨rfl, key ht⟩
  | unwrap cmd => obtain ⟨_, a, tx, _, ht, rfl⟩ := UnwrapCmd.prepare_ok.1 h; exact ⟨rfl, key ht⟩
  | createMint u wprog i =>
    simp only [Command.prepare, prepareCreateMint, bind_ok_iff, pure_ok_iff] at h
    obtain ⟨_, _, _, _, _, _, _, _, _, _, tx, ht, rfl⟩ := h
    exact ⟨rfl, key (signTxFully_ok.1 ht).1⟩
  | findPdas u wprog =>
    simp only [Command.prepare, bind_ok_iff, pure_ok_iff] at h
    obtain ⟨_, _, _, _, rfl⟩ := h
    exact ⟨rfl, fun tx h => nomatch h⟩
  | createEscrow u wprog i =>
    simp only [Command.prepare, prepareCreateEscrow, bind_ok_iff] at h
    obtain ⟨_, _, t, _, _, _, _, _, _, _, _, _, h⟩ := h
    cases t with
    | none => cases h; exact ⟨rfl, fun tx h => nomatch h⟩
    | some t =>
      simp only [bind_ok_iff, pure_ok_iff] at h
      obtain ⟨tx, ht, rfl⟩ := h
      exact ⟨rfl, key (signTxFully_ok.1 ht).1⟩
  | closeEscrow u d wprog =>
    simp only [Command.prepare, prepareCloseEscrow, bind_ok_iff, pure_ok_iff] at h
    obtain ⟨_, _, _, _, _, _, _, _, tx, ht, rfl⟩ := h
    exact ⟨rfl, key (signTxFully_ok.1 ht).1⟩
  | syncSpl u s p =>
    simp only [Command.prepare, prepareSyncSpl, bind_ok_iff, pure_ok_iff] at h
    obtain ⟨_, _, _, _, _, _, _, _, tx, ht, rfl⟩ := h
    exact ⟨rfl, key ht⟩
  | sync22 u s p =>
    simp only [Command.prepare, prepareSync22, bind_ok_iff, pure_ok_iff] at h
    obtain ⟨_, _, _, _, _, _, _, _, tx, ht, rfl⟩ := h
    exact ⟨rfl, key ht⟩

/-- **C80** A run with `--dry-run` or `--sign-only`, and a run that ends with an error, leaves the chain
as it was. -/
theorem cli_run_no_effect {cmd : Command}
    (h : cfg.dryRun = true ∨ cmd.onlySigns = true ∨ ∃ e, (cmd.run c cfg Lq Ls).result = .error e) :
    (cmd.run c cfg Lq Ls).ledger = Ls := by
  rcases run_cases (c := c) (cfg := cfg) (Lq := Lq) (Ls := Ls) (cmd := cmd) with
    ⟨e, _, hr⟩ | ⟨p, hp, ⟨_, hr⟩ | ⟨tx, _, hs, ⟨_, hr⟩ | ⟨hd, L', _, hr⟩ | ⟨_, e, _, hr⟩⟩⟩ <;>
    rw [hr]
  rw [hr] at h
  rcases h with h | h | ⟨e, h⟩
  · rw [hd] at h; cases h
  · rw [← (prepare_facts hp).1, hs] at h; cases h
  · cases h

/-- **C80** What a run that changed the chain did: it sent one transaction, whose required signers had
all validly signed exactly this message with this blockhash, and the change is that of the message. -/
theorem cli_run_executed {cmd : Command} (h : (cmd.run c cfg Lq Ls).ledger ≠ Ls) :
    ∃ p tx out, cmd.prepare c cfg Lq = .ok p ∧ p.tx = some tx ∧
      (cmd.run c cfg Lq Ls).result = .ok out ∧ c.live tx.blockhash = true ∧
      (∀ k ∈ requiredSigners tx.message.payer tx.message.instructions, ∃ g, (k, g) ∈ tx.signatures ∧
        c.wire.verify k (c.wire.encode tx.message tx.blockhash) g = true) ∧
      tx.message.run c.env c.demoted Ls = .ok (cmd.run c cfg Lq Ls).ledger := by
  rcases run_cases (c := c) (cfg := cfg) (Lq := Lq) (Ls := Ls) (cmd := cmd) with
    ⟨e, _, hr⟩ | ⟨p, hp, ⟨_, hr⟩ | ⟨tx, ht, hs, ⟨_, hr⟩ | ⟨hd, L', hsend, hr⟩ | ⟨_, e, _, hr⟩⟩⟩ <;>
    rw [hr] at h ⊢
  · exact absurd rfl h
  · exact absurd rfl h
  · exact absurd rfl h
  · obtain ⟨h1, h2, h3⟩ := sendAndConfirm_ok.1 hsend
    refine ⟨p, tx, _, hp, ht, rfl, h1, ?_, h3⟩
    obtain ⟨signers, hsig⟩ := (prepare_facts hp).2 tx ht
    obtain ⟨_, _, hx⟩ := signTx_ok.1 hsig
    intro k hk
    refine ⟨slotOf c.wire (c.wire.encode tx.message tx.blockhash) signers k, ?_⟩
    have hm : (k, slotOf c.wire (c.wire.encode tx.message tx.blockhash) signers k) ∈ tx.signatures := by
      rw [hx]
      exact List.mem_map.2 ⟨k, List.mem_dedup.2 hk, rfl⟩
    exact ⟨hm, List.all_eq_true.1 h2 _ hm⟩
  · exact absurd rfl h

/-! ## wrap and unwrap: the output tells the truth -/

theorem cliWrapAddrs_ok {env : Env} {args : CliWrapArgs} {L : Ledger} {a : WrapAddrs}
    (h : cliWrapAddrs env args L = .ok a) :
    CliWrapResolved env args L a.mint a.program a.wrappedMint a.authority a.escrow a.recipient := by
  simp only [cliWrapAddrs, bind_ok_iff, okOr_ok_iff, pure_ok_iff] at h
  obtain ⟨u, hu, W, hW, A, hA, rcp, hr, uprog, hp, E, hE, rfl⟩ := h
  exact ⟨(orQuery_ok.1 hu).imp id fun h => ⟨h.1, (rpcTokenMint_ok.1 h.2).2⟩,
    (orQuery_ok.1 hp).imp id fun h => ⟨h.1, (rpcOwner_ok.1 h.2).2⟩,
    (orQuery_ok.1 hr).imp id fun h => ⟨h.1, okOr_ok_iff.1 h.2⟩, hW, hA, hE⟩

theorem cliUnwrapAddrs_ok {env : Env} {args : CliUnwrapArgs} {L : Ledger} {a : UnwrapAddrs}
    (h : cliUnwrapAddrs env args L = .ok a) :
    CliUnwrapResolved env args L a.mint a.wrappedProgram a.program a.wrappedMint a.authority
      a.escrow := by
  simp only [cliUnwrapAddrs, bind_ok_iff, okOr_ok_iff, cliAgree_ok, rpcOwner_ok, rpcTokenMint_ok,
    pure_ok_iff] at h
  obtain ⟨q1, h1, wprog, h2, q2, h3, u, h4, q3, h5, uprog, h6, W, hW, A, hA, E, hE, rfl⟩ := h
  obtain ⟨rfl, h2⟩ := h2
  obtain ⟨rfl, h4⟩ := h4
  obtain ⟨rfl, h6⟩ := h6
  exact ⟨⟨h1.2, h2⟩, ⟨h3.2, h4⟩, ⟨h5.2, h6⟩, hW, hA, hE⟩

/-- A run that really sent something and succeeded. -/
theorem run_sent {cmd : Command} {out : CliOutput} (hok : (cmd.run c cfg Lq Ls).result = .ok out)
    (hd : cfg.dryRun = false) (hs : cmd.onlySigns = false) :
    ∃ p, cmd.prepare c cfg Lq = .ok p ∧
      ((p.tx = none ∧ out = p.output none ∧ (cmd.run c cfg Lq Ls).ledger = Ls) ∨
       ∃ tx, p.tx = some tx ∧ out = p.output (tx.signatures.head?.map (·.2)) ∧
        c.live tx.blockhash = true ∧ tx.verified c.wire = true ∧
        tx.message.run c.env c.demoted Ls = .ok (cmd.run c cfg Lq Ls).ledger) := by
  rcases run_cases (c := c) (cfg := cfg) (Lq := Lq) (Ls := Ls) (cmd := cmd) with
    ⟨e, _, hr⟩ | ⟨p, hp, ⟨h1, hr⟩ | ⟨tx, ht, hs, ⟨h, hr⟩ | ⟨_, L', hsend, hr⟩ | ⟨_, e, _, hr⟩⟩⟩ <;>
    rw [hr] at hok ⊢
  · cases hok
  · cases hok
    refine ⟨p, hp, .inl ⟨?_, rfl, rfl⟩⟩
    rcases h1 with h1 | h1
    · exact h1
    · rw [(prepare_facts hp).1, hs] at h1; cases h1
  · rw [hd] at h; cases h
  · cases hok
    obtain ⟨h1, h2, h3⟩ := sendAndConfirm_ok.1 hsend
    exact ⟨p, hp, .inr ⟨tx, ht, rfl, h1, h2, h3⟩⟩
  · cases hok

/-- **C80** A successful `wrap` that was sent: the output names the mint, wrapped mint, recipient and
escrow the arguments stand for; all signatures were valid; and between the ledger it was sent to and the
one afterwards the source lost the amount printed, and escrow, recipient and wrapped supply gained the
amount less the transfer fee. -/
theorem cli_wrap_run {cmd : WrapCmd} {out : CliOutput}
    (hok : ((Command.wrap cmd).run c cfg Lq Ls).result = .ok out) (hd : cfg.dryRun = false)
    (hs : cmd.signOnly = false) :
    ∃ o uprog A, out = .wrap o ∧
      CliWrapResolved c.env (cmd.args c.wire cfg.payer) Lq o.unwrappedMint uprog o.wrappedMint A o.escrow
        o.recipient ∧
      o.unwrappedTokenAccount = cmd.unwrappedTokenAccount ∧ o.amount = cmd.amount ∧ o.signOnly = none ∧
      (∃ tx, cliWrap c.env (cmd.args c.wire cfg.payer) Lq = .ok tx ∧ tx.FullySigned ∧
        tx.message.run c.env c.demoted Ls = .ok ((Command.wrap cmd).run c cfg Lq Ls).ledger) ∧
      (o.unwrappedTokenAccount ≠ o.escrow →
      ∃ m fee, (Ls o.unwrappedMint).data = .mint m ∧ IsMintFee m c.env.epoch o.amount.toNat fee ∧
        fee ≤ o.amount.toNat ∧
        balanceOf ((Command.wrap cmd).run c cfg Lq Ls).ledger o.unwrappedTokenAccount +
            o.amount.toNat = balanceOf Ls o.unwrappedTokenAccount ∧
        balanceOf ((Command.wrap cmd).run c cfg Lq Ls).ledger o.escrow =
          balanceOf Ls o.escrow + (o.amount.toNat - fee) ∧
        balanceOf ((Command.wrap cmd).run c cfg Lq Ls).ledger o.recipient =
          balanceOf Ls o.recipient + (o.amount.toNat - fee) ∧
        supplyOf ((Command.wrap cmd).run c cfg Lq Ls).ledger o.wrappedMint =
          supplyOf Ls o.wrappedMint + (o.amount.toNat - fee)) := by
  obtain ⟨p, hp, h⟩ := run_sent hok hd hs
  obtain ⟨_, a, tx, ha, ht, rfl⟩ := WrapCmd.prepare_ok.1 hp
  rcases h with ⟨h, _⟩ | ⟨tx', h, hout, hlive, hver, hrun⟩
  · cases h
  · cases h
    obtain ⟨t, h1, h2, h3⟩ := wrap_sign_abs ha ht
    refine ⟨_, a.program, a.authority, hout, cliWrapAddrs_ok ha, rfl, rfl, by simp [hs],
      ⟨t, h1, h3.1 hver, by rw [h2]; exact hrun⟩, fun hne => ?_⟩
    obtain ⟨_, _, hx⟩ := signTx_ok.1 ht
    rw [show tx.message = _ by rw [hx], cliWrapIx, run_single] at hrun
    simp only [Build.wrap, List.map_append, List.map_cons, List.map_nil] at hrun
    exact wrap_credits_exactly_what_escrow_receives hrun hne

/-- **C80** The same for `unwrap`: the holder, the wrapped supply and the escrow lost the amount
printed, the recipient gained it less the transfer fee. -/
theorem cli_unwrap_run {cmd : UnwrapCmd} {out : CliOutput}
    (hok : ((Command.unwrap cmd).run c cfg Lq Ls).result = .ok out) (hd : cfg.dryRun = false)
    (hs : cmd.signOnly = false) :
    ∃ o wprog A, out = .unwrap o ∧
      CliUnwrapResolved c.env (cmd.args c.wire cfg.payer) Lq o.unwrappedMint wprog
        o.unwrappedTokenProgram o.wrappedMint A o.escrow ∧
      o.wrappedTokenAccount = cmd.wrappedTokenAccount ∧ o.recipient = cmd.recipient ∧
      o.amount = cmd.amount ∧ o.signOnly = none ∧
      (∃ tx, cliUnwrap c.env (cmd.args c.wire cfg.payer) Lq = .ok tx ∧ tx.FullySigned ∧
        tx.message.run c.env c.demoted Ls = .ok ((Command.unwrap cmd).run c cfg Lq Ls).ledger) ∧
      (o.wrappedMint ≠ o.unwrappedMint → o.escrow ≠ o.recipient →
      ∃ m fee, (Ls o.unwrappedMint).data = .mint m ∧ IsMintFee m c.env.epoch o.amount.toNat fee ∧
        fee ≤ o.amount.toNat ∧
        balanceOf ((Command.unwrap cmd).run c cfg Lq Ls).ledger o.wrappedTokenAccount +
            o.amount.toNat = balanceOf Ls o.wrappedTokenAccount ∧
        supplyOf ((Command.unwrap cmd).run c cfg Lq Ls).ledger o.wrappedMint + o.amount.toNat =
          supplyOf Ls o.wrappedMint ∧
        balanceOf ((Command.unwrap cmd).run c cfg Lq Ls).ledger o.escrow + o.amount.toNat =
          balanceOf Ls o.escrow ∧
        balanceOf ((Command.unwrap cmd).run c cfg Lq Ls).ledger o.recipient =
          balanceOf Ls o.recipient + (o.amount.toNat - fee)) := by
  obtain ⟨p, hp, h⟩ := run_sent hok hd hs
  obtain ⟨_, a, tx, ha, ht, rfl⟩ := UnwrapCmd.prepare_ok.1 hp
  rcases h with ⟨h, _⟩ | ⟨tx', h, hout, hlive, hver, hrun⟩
  · cases h
  · cases h
    obtain ⟨t, h1, h2, h3⟩ := unwrap_sign_abs ha ht
    refine ⟨_, a.wrappedProgram, a.authority, hout, cliUnwrapAddrs_ok ha, rfl, rfl, rfl, by simp [hs],
      ⟨t, h1, h3.1 hver, by rw [h2]; exact hrun⟩, fun hne hne' => ?_⟩
    obtain ⟨_, _, hx⟩ := signTx_ok.1 ht
    rw [show tx.message = _ by rw [hx], cliUnwrapIx, run_single] at hrun
    simp only [Build.unwrap, List.map_append, List.map_cons, List.map_nil] at hrun
    exact unwrap_pays_one_for_one hrun hne hne'

/-! ## The other commands -/

/-- **C80** A successful `create-mint` that was sent executed the transaction of C33, and the output
names the derived addresses and the lamports the transaction sent to them. -/
theorem cli_create_mint_run {u wprog : Pubkey} {idem : Bool} {out : CliOutput}
    (hok : ((Command.createMint u wprog idem).run c cfg Lq Ls).result = .ok out)
    (hd : cfg.dryRun = false) :
    ∃ o ixs, out = .createMint o ∧ o.unwrappedMint = u ∧
      wrappedMintAddress c.env.cr u wprog = some o.wrappedMint ∧
      backpointerAddress c.env.cr o.wrappedMint = some o.backpointer ∧
      cliCreateMint c.env (cfg.payer.key c.wire) u wprog idem Lq = .ok ixs ∧
      (o.wrappedMint ≠ o.backpointer → sentTo o.wrappedMint ixs = o.fundedMint ∧
        sentTo o.backpointer ixs = o.fundedBackpointer) ∧
      (⟨cfg.payer.key c.wire, ixs⟩ : Message).run c.env c.demoted Ls =
        .ok ((Command.createMint u wprog idem).run c cfg Lq Ls).ledger := by
  obtain ⟨p, hp, h⟩ := run_sent hok hd rfl
  simp only [Command.prepare, prepareCreateMint, bind_ok_iff, pure_ok_iff, okOr_ok_iff] at hp
  obtain ⟨_, _, W, hW, B, hB, size, hsz, ixs, hixs, tx, ht, rfl⟩ := hp
  rcases h with ⟨h, _⟩ | ⟨tx', h, hout, hlive, hver, hrun⟩
  · cases h
  · cases h
    obtain ⟨_, _, hx⟩ := signTx_ok.1 (signTxFully_ok.1 ht).1
    have hixs' : cliCreateMint c.env (cfg.payer.key c.wire) u wprog idem Lq = .ok ixs := by
      cases hc : cliCreateMint c.env (cfg.payer.key c.wire) u wprog idem Lq with
      | ok x => rw [hc] at hixs; cases hixs; rfl
      | error e => rw [hc] at hixs; cases hixs
    refine ⟨_, ixs, hout, rfl, hW, hB, hixs', fun hne => ?_, ?_⟩
    · rw [cliMintSize_eq] at hsz
      cases hsz
      exact ⟨(createMint_funding_exact hW hB hne hixs').1, (createMint_funding_exact hW hB hne hixs').2.1⟩
    · rw [show tx.message = _ by rw [hx]] at hrun
      exact hrun

/-- **C80** A successful `create-escrow-account`: the output names the escrow of the pair and its owner;
either the account existed and nothing was sent, or the transaction of C57 was executed. -/
theorem cli_create_escrow_run {u wprog : Pubkey} {idem : Bool} {out : CliOutput}
    (hok : ((Command.createEscrow u wprog idem).run c cfg Lq Ls).result = .ok out)
    (hd : cfg.dryRun = false) :
    ∃ o W, out = .createEscrow o ∧ (Lq u).owner = o.unwrappedTokenProgram ∧
      wrappedMintAddress c.env.cr u wprog = some W ∧ authorityAddress c.env.cr W = some o.owner ∧
      escrowAddress c.env.cr u o.unwrappedTokenProgram wprog = some o.escrow ∧
      ((idem = true ∧ (Lq o.escrow).lamports ≠ 0 ∧ o.signature = none ∧
        ((Command.createEscrow u wprog idem).run c cfg Lq Ls).ledger = Ls) ∨
       ((Lq o.escrow).lamports = 0 ∧
        (⟨cfg.payer.key c.wire, [.createAta (cfg.payer.key c.wire) o.owner u o.unwrappedTokenProgram]⟩ :
          Message).run c.env c.demoted Ls =
          .ok ((Command.createEscrow u wprog idem).run c cfg Lq Ls).ledger)) := by
  obtain ⟨p, hp, h⟩ := run_sent hok hd rfl
  simp only [Command.prepare, prepareCreateEscrow, bind_ok_iff, okOr_ok_iff] at hp
  obtain ⟨_, _, t?, ht?, uprog, hup, W, hW, A, hA, E, hE, hp⟩ := hp
  simp only [cliCreateEscrow, bind_ok_iff, okOr_ok_iff] at ht?
  obtain ⟨_, _, uprog', hup', W', hW', A', hA', E', hE', ht?⟩ := ht?
  rw [hup] at hup'; cases hup'
  rw [hW] at hW'; cases hW'
  rw [hA] at hA'; cases hA'
  rw [hE] at hE'; cases hE'
  have hown := (rpcOwner_ok.1 hup).2
  cases hacc : rpcAccount Lq E with
  | ok acc =>
    rw [hacc] at ht?
    dsimp only at ht?
    cases idem with
    | false => cases ht?
    | true =>
      cases ht?
      cases hp
      rcases h with ⟨_, hout, hL⟩ | ⟨tx', h, _⟩
      · exact ⟨_, W, hout, hown, hW, hA, hE, .inl ⟨rfl, (rpcAccount_ok.1 hacc).1, rfl, hL⟩⟩
      · cases h
  | error e =>
    rw [hacc] at ht?
    dsimp only at ht?
    simp only [bind_ok_iff, pure_ok_iff] at ht?
    obtain ⟨t, hpt, rfl⟩ := ht?
    obtain ⟨rfl, _⟩ := partialSign_ok hpt
    simp only [bind_ok_iff, pure_ok_iff] at hp
    obtain ⟨tx, ht, rfl⟩ := hp
    rcases h with ⟨h, _⟩ | ⟨tx', h, hout, hlive, hver, hrun⟩
    · cases h
    · cases h
      obtain ⟨_, _, hx⟩ := signTx_ok.1 (signTxFully_ok.1 ht).1
      have h0 : (Lq E).lamports = 0 := by
        unfold rpcAccount at hacc
        split at hacc
        · assumption
        · cases hacc
      refine ⟨_, W, hout, hown, hW, hA, hE, .inr ⟨h0, ?_⟩⟩
      rw [show tx.message = _ by rw [hx]] at hrun
      exact hrun

/-- **C80** A successful `close-stuck-escrow` that was sent executed the instruction of C57 on the escrow
it names. -/
theorem cli_close_run {u dest wprog : Pubkey} {out : CliOutput}
    (hok : ((Command.closeEscrow u dest wprog).run c cfg Lq Ls).result = .ok out)
    (hd : cfg.dryRun = false) :
    ∃ o W A, out = .closeEscrow o ∧ o.unwrappedMint = u ∧ (Lq u).owner = token2022Id ∧
      wrappedMintAddress c.env.cr u wprog = some W ∧ authorityAddress c.env.cr W = some A ∧
      escrowAddress c.env.cr u token2022Id wprog = some o.escrow ∧
      (⟨cfg.payer.key c.wire, [.call (Build.closeStuckEscrow crateId o.escrow dest u W A)]⟩ :
        Message).run c.env c.demoted Ls =
        .ok ((Command.closeEscrow u dest wprog).run c cfg Lq Ls).ledger := by
  obtain ⟨p, hp, h⟩ := run_sent hok hd rfl
  simp only [Command.prepare, prepareCloseEscrow, bind_ok_iff, okOr_ok_iff, pure_ok_iff] at hp
  obtain ⟨_, _, t, ht, uprog, hup, E, hE, tx, htx, rfl⟩ := hp
  simp only [cliCloseStuckEscrow, bind_ok_iff, okOr_ok_iff, require_ok_iff, exists_const,
    decide_eq_true_eq] at ht
  obtain ⟨uprog', hup', h22, W, hW, A, hA, E', hE', hpt⟩ := ht
  rw [hup] at hup'; cases hup'
  subst h22
  rw [hE] at hE'; cases hE'
  obtain ⟨rfl, _⟩ := partialSign_ok hpt
  rcases h with ⟨h, _⟩ | ⟨tx', h, hout, hlive, hver, hrun⟩
  · cases h
  · cases h
    obtain ⟨_, _, hx⟩ := signTx_ok.1 (signTxFully_ok.1 htx).1
    refine ⟨_, W, A, hout, rfl, (rpcOwner_ok.1 hup).2, hW, hA, hE, ?_⟩
    rw [show tx.message = _ by rw [hx]] at hrun
    exact hrun

/-- **C80** A successful `sync-metadata-to-token2022` that was sent executed the sync of the pair it
names, from the source it names. -/
theorem cli_sync22_run {u : Pubkey} {source program : Option Pubkey} {out : CliOutput}
    (hok : ((Command.sync22 u source program).run c cfg Lq Ls).result = .ok out)
    (hd : cfg.dryRun = false) :
    ∃ o, out = .sync22 o ∧ o.unwrappedMint = u ∧
      wrappedMintAddress c.env.cr u token2022Id = some o.wrappedMint ∧
      authorityAddress c.env.cr o.wrappedMint = some o.authority ∧ o.program = program ∧
      (∀ k, source = some k → o.source = some k) ∧
      (source = none → cliResolveSource c.env u Lq = .ok o.source) ∧
      (⟨cfg.payer.key c.wire, [.call (Build.syncMetadataToToken2022 crateId o.wrappedMint o.authority u
        o.source o.program)]⟩ : Message).run c.env c.demoted Ls =
        .ok ((Command.sync22 u source program).run c cfg Lq Ls).ledger := by
  obtain ⟨p, hp, h⟩ := run_sent hok hd rfl
  simp only [Command.prepare, prepareSync22, bind_ok_iff, okOr_ok_iff, pure_ok_iff] at hp
  obtain ⟨t, ht, W, hW, A, hA, src, hsrc, tx, htx, rfl⟩ := hp
  have hm : t.message = ⟨cfg.payer.key c.wire, [.call (Build.syncMetadataToToken2022 crateId W A u src
      program)]⟩ := by
    simp only [cliSync22, bind_ok_iff, okOr_ok_iff] at ht
    obtain ⟨_, _, W', hW', A', hA', src', hsrc', hpt⟩ := ht
    rw [hW] at hW'; cases hW'
    rw [hA] at hA'; cases hA'
    have : src' = src := by
      unfold cliSource22 at hsrc
      cases source with
      | none => exact Except.ok.inj (hsrc'.symm.trans hsrc)
      | some k => cases hsrc; cases hsrc'; rfl
    subst this
    obtain ⟨rfl, _⟩ := partialSign_ok hpt
    rfl
  rcases h with ⟨h, _⟩ | ⟨tx', h, hout, hlive, hver, hrun⟩
  · cases h
  · cases h
    obtain ⟨_, _, hx⟩ := signTx_ok.1 htx
    refine ⟨_, hout, rfl, hW, hA, rfl, ?_, ?_, ?_⟩
    · rintro k rfl; cases hsrc; rfl
    · rintro rfl; exact hsrc
    · rw [show tx.message = _ by rw [hx], hm] at hrun
      exact hrun

/-- **C80** A successful `sync-metadata-to-spl-token` that was sent executed the sync of the pair it
names, into the metadata account it names. -/
theorem cli_syncSpl_run {u : Pubkey} {source program : Option Pubkey} {out : CliOutput}
    (hok : ((Command.syncSpl u source program).run c cfg Lq Ls).result = .ok out)
    (hd : cfg.dryRun = false) :
    ∃ o, out = .syncSpl o ∧ o.unwrappedMint = u ∧
      wrappedMintAddress c.env.cr u splTokenId = some o.wrappedMint ∧
      authorityAddress c.env.cr o.wrappedMint = some o.authority ∧
      metaplexPda c.env.cr o.wrappedMint = some o.metaplexMetadata ∧
      o.source = source ∧ o.program = program ∧
      (⟨cfg.payer.key c.wire, [.call (Build.syncMetadataToSplToken crateId o.metaplexMetadata o.authority
        o.wrappedMint u source program)]⟩ : Message).run c.env c.demoted Ls =
        .ok ((Command.syncSpl u source program).run c cfg Lq Ls).ledger := by
  obtain ⟨p, hp, h⟩ := run_sent hok hd rfl
  simp only [Command.prepare, prepareSyncSpl, bind_ok_iff, okOr_ok_iff, pure_ok_iff] at hp
  obtain ⟨t, ht, W, hW, A, hA, X, hX, tx, htx, rfl⟩ := hp
  have hm : t.message = ⟨cfg.payer.key c.wire, [.call (Build.syncMetadataToSplToken crateId X A W u source
      program)]⟩ := by
    simp only [cliSyncSpl, bind_ok_iff, okOr_ok_iff] at ht
    obtain ⟨W', hW', A', hA', X', hX', hpt⟩ := ht
    rw [hW] at hW'; cases hW'
    rw [hA] at hA'; cases hA'
    rw [hX] at hX'; cases hX'
    obtain ⟨rfl, _⟩ := partialSign_ok hpt
    rfl
  rcases h with ⟨h, _⟩ | ⟨tx', h, hout, hlive, hver, hrun⟩
  · cases h
  · cases h
    obtain ⟨_, _, hx⟩ := signTx_ok.1 htx
    refine ⟨_, hout, rfl, hW, hA, hX, rfl, rfl, ?_⟩
    rw [show tx.message = _ by rw [hx], hm] at hrun
    exact hrun

/-! ## Dry runs -/

/-- **C80** A dry run tells nothing: unless the output is verbose, everything a dry run prints, and its
exit status, are the same whatever the chain is like when the transaction is simulated. -/
theorem cli_dry_run_blind {cmd : Command} {Ls' : Ledger} (hd : cfg.dryRun = true)
    (hv : cfg.format ≠ .verbose) :
    (cmd.run c cfg Lq Ls).printed = (cmd.run c cfg Lq Ls').printed ∧
      (cmd.run c cfg Lq Ls).result = (cmd.run c cfg Lq Ls').result := by
  unfold Command.run Prepared.finish processTransaction simulationNotices
  cases cmd.prepare c cfg Lq with
  | error e => exact ⟨rfl, rfl⟩
  | ok p =>
    dsimp only
    cases p.tx with
    | none => exact ⟨rfl, rfl⟩
    | some tx =>
      cases p.signOnly with
      | true => exact ⟨rfl, rfl⟩
      | false => simp [hd, hv]

/-- **C80** In every dry run of a command that has a transaction and that prints anything, the line
"Simulation succeeded" is printed, even if the simulation failed. -/
theorem cli_dry_run_always_succeeds {cmd : Command} {p : Prepared} {tx : SentTx}
    (hd : cfg.dryRun = true) (hp : cmd.prepare c cfg Lq = .ok p) (ht : p.tx = some tx)
    (hs : p.signOnly = false) (hf : cfg.prints = true) :
    Notice.simulationSucceeded ∈ (cmd.run c cfg Lq Ls).printed ∧
      ∃ out, (cmd.run c cfg Lq Ls).result = .ok out := by
  rcases run_cases (c := c) (cfg := cfg) (Lq := Lq) (Ls := Ls) (cmd := cmd) with
    ⟨e, he, _⟩ | ⟨p', hp', ⟨h1, hr⟩ | ⟨tx', ht', hs', ⟨h, hr⟩ | ⟨h, _⟩ | ⟨h, _⟩⟩⟩
  · rw [hp] at he; cases he
  · rw [hp] at hp'; cases hp'
    rcases h1 with h1 | h1
    · rw [ht] at h1; cases h1
    · rw [hs] at h1; cases h1
  · rw [hr]
    refine ⟨?_, _, rfl⟩
    simp only [simulationNotices, hf, if_true]
    split <;> simp
  · rw [hd] at h; cases h
  · rw [hd] at h; cases h

end

end TokenWrap
