import Verif.Props.Journey
import Verif.Props.CliRunExample
import Verif.Props.PostState
/-!
# Wrapping and unwrapping with the command line tool works (C94)

The path a user of the CLI takes: `create-mint --idempotent`, `create-escrow-account --idempotent`, an
associated token account for the wrapped tokens (made with another tool), `wrap`, `unwrap`.
-/

namespace TokenWrap

open TokenWrapInstruction

/-! ## Runs with one key pair -/

/-- One key pair signs everything: the transaction is complete. -/
theorem signs_alone {w : Wire} {msg : Message} {bh : Pubkey} {secret : Bytes}
    (hp : msg.payer = w.pub secret)
    (hr : ∀ k ∈ requiredSigners msg.payer msg.instructions, k = w.pub secret) :
    ∃ tx, signTx w msg bh [.keypair secret] = .ok tx ∧
      signTxFully w msg bh [.keypair secret] = .ok tx ∧
      tx.message = msg ∧ tx.blockhash = bh ∧ tx.verified w = true := by
  have h1 : ∃ tx, signTx w msg bh [.keypair secret] = .ok tx := by
    refine ⟨_, signTx_ok.2 ⟨?_, ?_, rfl⟩⟩
    · intro s hs
      obtain rfl := List.mem_singleton.1 hs
      simp [requiredSigners, hp, Signer.key]
    · intro s hs
      obtain rfl := List.mem_singleton.1 hs
      rfl
  obtain ⟨tx, h1⟩ := h1
  have hb : Brings w [.keypair secret] (w.pub secret) :=
    ⟨⟨secret, by simp, rfl⟩, fun s hs _ => ⟨secret, List.mem_singleton.1 hs⟩⟩
  have hv : tx.verified w = true := verified_of_slots h1 fun k hk => by
    rw [hr k hk]; exact slot_own hb
  obtain ⟨_, _, hx⟩ := signTx_ok.1 h1
  refine ⟨tx, h1, signTxFully_ok.2 ⟨h1, ?_⟩, by rw [hx], by rw [hx], hv⟩
  intro e he hz
  have := List.all_eq_true.1 hv e he
  rw [hz, w.empty] at this
  cases this

section
variable {c : Cluster} {cfg : CliConfig} {secret : Bytes} {L L' : Ledger}

/-- Sending a complete transaction that runs. -/
theorem run_of_prepared {cmd : Command} {p : Prepared} {tx : SentTx}
    (hprep : cmd.prepare c cfg L = .ok p) (ht : p.tx = some tx) (hs : p.signOnly = false)
    (hd : cfg.dryRun = false) (hl : c.live tx.blockhash = true) (hv : tx.verified c.wire = true)
    (hrun : tx.message.run c.env c.demoted L = .ok L') :
    cmd.run c cfg L L = ⟨[], .ok (p.output (tx.signatures.head?.map (·.2))), L'⟩ := by
  unfold Command.run
  rw [hprep]
  dsimp only
  exact finish_sent ht hs hd hl hv hrun

/-- `create-mint` succeeds if its instructions do. -/
theorem createMint_run_ok {u wprog W B : Pubkey} {idem : Bool} {ixs : List ClientIx}
    (hpay : cfg.payer = .keypair secret) (hd : cfg.dryRun = false) (hl : c.live c.latest = true)
    (hp : wprog = splTokenId ∨ wprog = token2022Id)
    (hW : wrappedMintAddress c.env.cr u wprog = some W) (hB : backpointerAddress c.env.cr W = some B)
    (hixs : cliCreateMint c.env (c.wire.pub secret) u wprog idem L = .ok ixs)
    (hdem : W ∉ c.demoted ∧ B ∉ c.demoted)
    (hrun : runClient c.env ixs L = .ok L') :
    ∃ s, (Command.createMint u wprog idem).run c cfg L L = ⟨[], .ok (.createMint
      ⟨u, W, B, c.env.rentMin (specMintSize wprog) - (L W).lamports,
        c.env.rentMin 32 - (L B).lamports, some s⟩), L'⟩ := by
  have hixs' := hixs
  rw [cliCreateMint_ok hW hB] at hixs'
  have hixs' := (Except.ok.inj hixs').symm
  have hreq : ∀ k ∈ requiredSigners (c.wire.pub secret) ixs, k = c.wire.pub secret := by
    intro k hk
    rw [hixs'] at hk
    simp only [requiredSigners, List.mem_cons, List.mem_flatMap, List.mem_append,
      List.not_mem_nil, or_false] at hk
    rcases hk with h | ⟨ix, (h | h) | h, h2⟩
    · exact h
    · unfold cliFund at h; split at h
      · obtain rfl := List.mem_singleton.1 h; simpa [ClientIx.signerKeys] using h2
      · cases h
    · unfold cliFund at h; split at h
      · obtain rfl := List.mem_singleton.1 h; simpa [ClientIx.signerKeys] using h2
      · cases h
    · subst h
      simp [ClientIx.signerKeys, Build.createMint, Meta.rw, Meta.ro] at h2
  have hcall : ∀ ix, ClientIx.call ix ∈ ixs → ix = Build.createMint crateId W B u wprog idem := by
    intro ix hk
    rw [hixs'] at hk
    simp only [List.mem_append, List.mem_cons, List.not_mem_nil, or_false] at hk
    rcases hk with (h | h) | h
    · unfold cliFund at h; split at h
      · cases List.mem_singleton.1 h
      · cases h
    · unfold cliFund at h; split at h
      · cases List.mem_singleton.1 h
      · cases h
    · exact ClientIx.call.inj h
  obtain ⟨tx, _, ht, hm, hb, hv⟩ := signs_alone (w := c.wire) (bh := c.latest) (secret := secret)
    (msg := ⟨c.wire.pub secret, ixs⟩) rfl hreq
  have hkey : cfg.payer.key c.wire = c.wire.pub secret := by rw [hpay]; rfl
  have hprep : (Command.createMint u wprog idem).prepare c cfg L = .ok ⟨some tx, false, fun s =>
      .createMint ⟨u, W, B, c.env.rentMin (specMintSize wprog) - (L W).lamports,
        c.env.rentMin 32 - (L B).lamports, s⟩⟩ := by
    show prepareCreateMint c cfg u wprog idem L = _
    unfold prepareCreateMint
    rw [hkey, hixs, cliMintSize_eq]
    have : parsedTokenProgram wprog = true := by rcases hp with h | h <;> rw [h] <;> decide
    simp only [this, require_true, ok_bind, hW, hB, okOr_some, Except.toOption]
    rw [hpay, ht]
    rfl
  have hmsg : tx.message.run c.env c.demoted L = .ok L' := by
    rw [hm]
    refine message_runs_instructions (msg := ⟨c.wire.pub secret, ixs⟩) ?_ ?_ hrun
    · intro ix hix mt hm hwr
      rw [hcall ix hix] at hm
      simp only [Build.createMint, List.mem_cons, List.not_mem_nil, or_false] at hm
      rcases hm with rfl | rfl | rfl | rfl | rfl
      · exact hdem.1
      · exact hdem.2
      · cases hwr
      · cases hwr
      · cases hwr
    · intro ix hix m hm
      rw [hcall ix hix] at hm
      simp [Build.createMint] at hm
  have hr := run_of_prepared hprep rfl rfl hd (by rw [hb]; exact hl) hv hmsg
  cases hsig : tx.signatures with
  | nil =>
    obtain ⟨_, _, hx⟩ := signTx_ok.1 (signTxFully_ok.1 ht).1
    rw [hx] at hsig
    dsimp only at hsig
    rw [List.map_eq_nil_iff, List.dedup_eq_nil] at hsig
    cases hsig
  | cons e rest =>
    rw [hsig] at hr
    exact ⟨_, hr⟩

/-- `create-escrow-account --idempotent` succeeds if the escrow can be created ... -/
theorem createEscrow_run_ok {u wprog uprog W A E : Pubkey} {m : Mint}
    (hpay : cfg.payer = .keypair secret) (hd : cfg.dryRun = false) (hl : c.live c.latest = true)
    (hp : wprog = splTokenId ∨ wprog = token2022Id) (hup : uprog = splTokenId ∨ uprog = token2022Id)
    (hW : wrappedMintAddress c.env.cr u wprog = some W) (hA : authorityAddress c.env.cr W = some A)
    (hE : associatedTokenAddress c.env.cr A u uprog = some E)
    (hul : (L u).lamports ≠ 0) (huo : (L u).owner = uprog) (hud : (L u).data = .mint m)
    (hno : (L E).lamports = 0)
    (hrun : ataCreatePaid c.env (c.wire.pub secret) A u uprog L = .ok L') :
    ∃ s, (Command.createEscrow u wprog true).run c cfg L L =
      ⟨[], .ok (.createEscrow ⟨E, A, uprog, some s⟩), L'⟩ := by
  have hkey : cfg.payer.abs c.wire = ⟨c.wire.pub secret, true⟩ := by rw [hpay]; rfl
  obtain ⟨j1, _, _⟩ := js_escrow_eq_cli (env := c.env) (payer := ⟨c.wire.pub secret, true⟩) hup hW hA hE
    hul huo hud
  obtain ⟨_, t, hcli, hins⟩ := j1 hno
  have htp : t.payer = c.wire.pub secret := by
    unfold cliCreateEscrow at hcli
    simp only [bind_ok_iff] at hcli
    obtain ⟨_, _, _, _, _, _, _, _, _, _, hcli⟩ := hcli
    split at hcli
    · simp [pure, Except.pure] at hcli
    · obtain ⟨t', ht', hx⟩ := bind_ok_iff.1 hcli
      cases hx
      rw [(partialSign_ok ht').1]
  obtain ⟨tx, _, ht, hm, hb, hv⟩ := signs_alone (w := c.wire) (bh := c.latest) (secret := secret)
    (msg := t.message) htp (by
      intro k hk
      simp only [CliTx.message, hins, htp] at hk
      simpa [requiredSigners, ClientIx.signerKeys] using hk)
  have hE' : escrowAddress c.env.cr u uprog wprog = some E :=
    (escrowAddress_eq _ _ _ _ _ _ hW hA).trans hE
  have hprep : (Command.createEscrow u wprog true).prepare c cfg L = .ok ⟨some tx, false, fun s =>
      .createEscrow ⟨E, A, uprog, s⟩⟩ := by
    show prepareCreateEscrow c cfg u wprog true L = _
    unfold prepareCreateEscrow
    rw [hkey, hcli]
    have : parsedTokenProgram wprog = true := by rcases hp with h | h <;> rw [h] <;> decide
    simp only [this, require_true, ok_bind, hW, hA, hE', okOr_some, rpcOwner_ok.2 ⟨hul, huo⟩]
    rw [hpay, ht]
    rfl
  have hmsg : tx.message.run c.env c.demoted L = .ok L' := by
    rw [hm]
    unfold Message.run
    simp only [CliTx.message, hins, List.map_cons, List.map_nil, Message.compileIx, runClient,
      runClientIx]
    rw [hrun]
    rfl
  have hr := run_of_prepared hprep rfl rfl hd (by rw [hb]; exact hl) hv hmsg
  cases hsig : tx.signatures with
  | nil =>
    obtain ⟨_, _, hx⟩ := signTx_ok.1 (signTxFully_ok.1 ht).1
    rw [hx] at hsig
    dsimp only at hsig
    rw [List.map_eq_nil_iff, List.dedup_eq_nil] at hsig
    cases hsig
  | cons e rest =>
    rw [hsig] at hr
    exact ⟨_, hr⟩

/-- ... and does nothing if there is one. -/
theorem createEscrow_run_there {u wprog uprog W A E : Pubkey} {m : Mint} {d : TokenAcct}
    (hpay : cfg.payer = .keypair secret)
    (hp : wprog = splTokenId ∨ wprog = token2022Id) (hup : uprog = splTokenId ∨ uprog = token2022Id)
    (hW : wrappedMintAddress c.env.cr u wprog = some W) (hA : authorityAddress c.env.cr W = some A)
    (hE : associatedTokenAddress c.env.cr A u uprog = some E)
    (hul : (L u).lamports ≠ 0) (huo : (L u).owner = uprog) (hud : (L u).data = .mint m)
    (hel : (L E).lamports ≠ 0) (hed : (L E).data = .token d) :
    (Command.createEscrow u wprog true).run c cfg L L =
      ⟨[], .ok (.createEscrow ⟨E, A, uprog, none⟩), L⟩ := by
  have hkey : cfg.payer.abs c.wire = ⟨c.wire.pub secret, true⟩ := by rw [hpay]; rfl
  obtain ⟨_, j2, _⟩ := js_escrow_eq_cli (env := c.env) (payer := ⟨c.wire.pub secret, true⟩) hup hW hA hE
    hul huo hud
  have hcli := (j2 d hel hed).2
  have hE' : escrowAddress c.env.cr u uprog wprog = some E :=
    (escrowAddress_eq _ _ _ _ _ _ hW hA).trans hE
  have hprep : (Command.createEscrow u wprog true).prepare c cfg L = .ok ⟨none, false, fun s =>
      .createEscrow ⟨E, A, uprog, s⟩⟩ := by
    show prepareCreateEscrow c cfg u wprog true L = _
    unfold prepareCreateEscrow
    rw [hkey, hcli]
    have : parsedTokenProgram wprog = true := by rcases hp with h | h <;> rw [h] <;> decide
    simp only [this, require_true, ok_bind, hW, hA, hE', okOr_some, rpcOwner_ok.2 ⟨hul, huo⟩]
    rfl
  unfold Command.run
  rw [hprep]
  rfl

theorem ownSigners_self {w : Wire} {s : Signer} : ownSigners w s s [] = [s] := by
  simp [ownSigners]

/-- `wrap SOURCE PROGRAM AMOUNT` succeeds if the accounts are in order: tokens of the payer, and an
associated token account for the wrapped tokens. -/
theorem wrap_run_ok {src wprog uprog u W A E rcp : Pubkey} {amount : UInt64} {fee : Nat}
    {s d r : TokenAcct} {m w : Mint}
    (hpay : cfg.payer = .keypair secret) (hd : cfg.dryRun = false) (hl : c.live c.latest = true)
    (hid : c.env.programId = crateId) (hz : amount ≠ 0)
    (hrej : ∀ p ix sg L, c.env.reject p ix sg L = none) (hne : src ≠ E)
    (cw : CanWrap c.env L rcp W A uprog wprog src u E (c.wire.pub secret) [] amount.toNat fee s d r m w)
    (hex : (L src).lamports ≠ 0)
    (hrcp : associatedTokenAddress c.env.cr (c.wire.pub secret) W wprog = some rcp)
    (hdem : ∀ k ∈ [rcp, W, src, E], k ∉ c.demoted) :
    ∃ sigs, (Command.wrap ⟨src, wprog, amount, none, none, none, none, [], none, [], false⟩).run
        c cfg L L =
      ⟨[], .ok (.wrap ⟨u, W, src, rcp, E, amount, sigs, none⟩),
        ledgerAfterWrap L src E rcp W s d r w (pdOf uprog m) (c.wire.pub secret) amount.toNat fee⟩ := by
  generalize hcmd : (⟨src, wprog, amount, none, none, none, none, [], none, [], false⟩ : WrapCmd) = cmd
  have hkey : cfg.payer.key c.wire = c.wire.pub secret := by rw [hpay]; rfl
  have hE' : escrowAddress c.env.cr u uprog wprog = some E :=
    (escrowAddress_eq _ _ _ _ _ _ cw.addrW cw.addrA).trans cw.addrE
  have haddr : cliWrapAddrs c.env (cmd.args c.wire cfg.payer) L = .ok ⟨u, W, A, rcp, uprog, E⟩ := by
    subst hcmd
    unfold cliWrapAddrs WrapCmd.args
    dsimp only
    rw [orQuery_ok.2 (.inr ⟨rfl, rpcTokenMint_ok.2 ⟨hex, s, cw.srcData, cw.srcMint⟩⟩), ok_bind, cw.addrW,
      okOr_some, ok_bind, cw.addrA, okOr_some, ok_bind]
    rw [show (Signer.abs c.wire cfg.payer).key = c.wire.pub secret from hkey, hrcp, okOr_some,
      orQuery_ok.2 (.inr ⟨rfl, rfl⟩), ok_bind, orQuery_ok.2 (.inr ⟨rfl, rpcOwner_ok.2 ⟨hex, cw.srcOwner⟩⟩),
      ok_bind, hE', okOr_some, ok_bind]
    rfl
  have hmsgEq : cmd.message c cfg ⟨u, W, A, rcp, uprog, E⟩ = ⟨c.wire.pub secret, [.call (Build.wrap crateId
      rcp W A uprog wprog src u E (c.wire.pub secret) [] amount)]⟩ := by
    subst hcmd
    simp only [WrapCmd.message, Option.getD_none, List.map_nil, hkey]
  obtain ⟨tx, ht, _, hm, hb, hv⟩ := signs_alone (w := c.wire) (bh := c.latest) (secret := secret)
    (msg := cmd.message c cfg ⟨u, W, A, rcp, uprog, E⟩) (by rw [hmsgEq]) (by
      intro k hk
      rw [hmsgEq] at hk
      simpa [requiredSigners, ClientIx.signerKeys, Build.wrap, Meta.rw, Meta.ro] using hk)
  have hprep := (WrapCmd.prepare_ok (cmd := cmd) (c := c) (cfg := cfg) (Lq := L)).2 ⟨by
      subst hcmd
      have : parsedTokenProgram wprog = true := by rcases cw.wprogOk with h | h <;> rw [h] <;> decide
      simp [WrapCmd.parses, this], _, tx, haddr, by
      rw [wrap_message_eq]
      subst hcmd
      simp only [Option.getD_none, ownSigners_self, presigned, List.map_nil, List.append_nil, hpay]
      exact ht, rfl⟩
  have hmsg : tx.message.run c.env c.demoted L = .ok (ledgerAfterWrap L src E rcp W s d r w (pdOf uprog m)
      (c.wire.pub secret) amount.toNat fee) := by
    rw [hm, hmsgEq]
    refine message_runs_instructions ?_ ?_ (runClient_call.2 (wrap_runs_to hid hz hrej hne cw))
    · intro ix hix mt hm hwr
      obtain rfl := ClientIx.call.inj (List.mem_singleton.1 hix)
      simp only [Build.wrap, List.map_nil, List.append_nil, List.mem_cons, List.not_mem_nil,
        or_false] at hm
      rcases hm with rfl | rfl | rfl | rfl | rfl | rfl | rfl | rfl | rfl
      · exact hdem rcp (by simp)
      · exact hdem W (by simp)
      · cases hwr
      · cases hwr
      · cases hwr
      · exact hdem src (by simp)
      · cases hwr
      · exact hdem E (by simp)
      · cases hwr
    · intro ix hix m hm
      obtain rfl := ClientIx.call.inj (List.mem_singleton.1 hix)
      simp [Build.wrap] at hm
  have hr := run_of_prepared (cmd := .wrap cmd) hprep rfl (by subst hcmd; rfl) hd
    (by rw [hb]; exact hl) hv hmsg
  refine ⟨tx.signatures.map (·.2), hr.trans ?_⟩
  subst hcmd
  rfl

/-- `unwrap ACCOUNT RECIPIENT AMOUNT` succeeds if the accounts are in order. -/
theorem unwrap_run_ok {holder rcp wprog uprog u W A E : Pubkey} {amount : UInt64} {fee : Nat}
    {e d t : TokenAcct} {m w : Mint}
    (hpay : cfg.payer = .keypair secret) (hd : cfg.dryRun = false) (hl : c.live c.latest = true)
    (hid : c.env.programId = crateId) (hz : amount ≠ 0)
    (hrej : ∀ p ix sg L, c.env.reject p ix sg L = none) (hne : rcp ≠ E)
    (cu : CanUnwrap c.env L E rcp A u wprog uprog holder W (c.wire.pub secret) [] amount.toNat fee
      e d t m w)
    (hex : (L holder).lamports ≠ 0 ∧ (L rcp).lamports ≠ 0 ∧ (L u).lamports ≠ 0)
    (hdem : ∀ k ∈ [E, rcp, holder, W], k ∉ c.demoted) :
    ∃ sigs, (Command.unwrap ⟨holder, rcp, amount, none, none, none, none, [], none, [], false⟩).run
        c cfg L L =
      ⟨[], .ok (.unwrap ⟨uprog, u, W, E, holder, rcp, amount, sigs, none⟩),
        ledgerAfterUnwrap L holder W E rcp t e d w (pdOf wprog w) (pdOf uprog m) (c.wire.pub secret) A
          amount.toNat fee⟩ := by
  generalize hcmd :
    (⟨holder, rcp, amount, none, none, none, none, [], none, [], false⟩ : UnwrapCmd) = cmd
  have hkey : cfg.payer.key c.wire = c.wire.pub secret := by rw [hpay]; rfl
  have hE' : escrowAddress c.env.cr u uprog wprog = some E :=
    (escrowAddress_eq _ _ _ _ _ _ cu.addrW cu.addrA).trans cu.addrE
  have haddr : cliUnwrapAddrs c.env (cmd.args c.wire cfg.payer) L = .ok ⟨wprog, u, uprog, W, A, E⟩ := by
    subst hcmd
    unfold cliUnwrapAddrs UnwrapCmd.args
    dsimp only
    rw [rpcOwner_ok.2 ⟨hex.1, cu.hOwner⟩, ok_bind, cliAgree_ok.2 ⟨rfl, .inl rfl⟩, ok_bind,
      rpcTokenMint_ok.2 ⟨hex.2.1, d, cu.rData, cu.rMint⟩, ok_bind, cliAgree_ok.2 ⟨rfl, .inl rfl⟩, ok_bind,
      rpcOwner_ok.2 ⟨hex.2.2, cu.mintOwner⟩, ok_bind, cliAgree_ok.2 ⟨rfl, .inl rfl⟩, ok_bind, cu.addrW,
      okOr_some, ok_bind, cu.addrA, okOr_some, ok_bind, hE', okOr_some, ok_bind]
    rfl
  have hmsgEq : cmd.message c cfg ⟨wprog, u, uprog, W, A, E⟩ = ⟨c.wire.pub secret, [.call (Build.unwrap
      crateId E rcp A u wprog uprog holder W (c.wire.pub secret) [] amount)]⟩ := by
    subst hcmd
    simp only [UnwrapCmd.message, Option.getD_none, List.map_nil, hkey]
  obtain ⟨tx, ht, _, hm, hb, hv⟩ := signs_alone (w := c.wire) (bh := c.latest) (secret := secret)
    (msg := cmd.message c cfg ⟨wprog, u, uprog, W, A, E⟩) (by rw [hmsgEq]) (by
      intro k hk
      rw [hmsgEq] at hk
      simpa [requiredSigners, ClientIx.signerKeys, Build.unwrap, Meta.rw, Meta.ro] using hk)
  have hprep := (UnwrapCmd.prepare_ok (cmd := cmd) (c := c) (cfg := cfg) (Lq := L)).2 ⟨by
      subst hcmd
      simp [UnwrapCmd.parses], _, tx, haddr, by
      rw [unwrap_message_eq]
      subst hcmd
      simp only [Option.getD_none, ownSigners_self, presigned, List.map_nil, List.append_nil, hpay]
      exact ht, rfl⟩
  have hmsg : tx.message.run c.env c.demoted L = .ok (ledgerAfterUnwrap L holder W E rcp t e d w
      (pdOf wprog w) (pdOf uprog m) (c.wire.pub secret) A amount.toNat fee) := by
    rw [hm, hmsgEq]
    refine message_runs_instructions ?_ ?_ (runClient_call.2 (unwrap_runs_to hid hz hrej hne cu))
    · intro ix hix mt hm hwr
      obtain rfl := ClientIx.call.inj (List.mem_singleton.1 hix)
      simp only [Build.unwrap, List.map_nil, List.append_nil, List.mem_cons, List.not_mem_nil,
        or_false] at hm
      rcases hm with rfl | rfl | rfl | rfl | rfl | rfl | rfl | rfl | rfl
      · exact hdem E (by simp)
      · exact hdem rcp (by simp)
      · cases hwr
      · cases hwr
      · cases hwr
      · cases hwr
      · exact hdem holder (by simp)
      · exact hdem W (by simp)
      · cases hwr
    · intro ix hix m hm
      obtain rfl := ClientIx.call.inj (List.mem_singleton.1 hix)
      simp [Build.unwrap] at hm
  have hr := run_of_prepared (cmd := .unwrap cmd) hprep rfl (by subst hcmd; rfl) hd
    (by rw [hb]; exact hl) hv hmsg
  refine ⟨tx.signatures.map (·.2), hr.trans ?_⟩
  subst hcmd
  rfl

end

/-- The size of an associated token account of a wrapped mint: 165 bytes, and five more for the
`ImmutableOwner` extension with Token-2022. -/
def walletAccountSize (wprog : Pubkey) : Nat := if wprog = token2022Id then 170 else 165

/-- An associated token account for the wrapped tokens can be created. -/
theorem holder_ata_step {env : Env} {L : Ledger} {payer key W wprog : Pubkey} {w : Mint}
    (hp : wprog = splTokenId ∨ wprog = token2022Id)
    (hk : associatedTokenAddress env.cr payer W wprog = some key) (hf : L key = Account.empty)
    (wo : (L W).owner = wprog) (wd : (L W).data = .mint w) (we : wprog = splTokenId → w.exts = [])
    (wf : w.defaultFrozen = false) (wq : w.requiredAccountExts = []) (wn : W ∉ nativeMints)
    (po : (L payer).owner = systemId) (pd : (L payer).data = .bytes []) (pk : payer ≠ key)
    (hl : env.rentMin (walletAccountSize wprog) ≤ (L payer).lamports) :
    ∃ L3 r, ataCreatePaid env payer payer W wprog L = .ok L3 ∧
      HolderStep L L3 payer key W wprog payer (env.rentMin (walletAccountSize wprog)) r := by
  have hsize : ataLen wprog W L = walletAccountSize wprog := by
    simp only [ataLen, wd, newAcctExts, wq, walletAccountSize]
    rcases hp with h | h
    · rw [h]; decide
    · rw [h]; decide
  have e0 : (L key).lamports = 0 := by rw [hf]; rfl
  have e1 := ataCreatePaid_ok (env := env) (payer := payer) (wallet := payer) (mint := W) (prog := wprog)
    (k := key) (m := w) (L := L) hp hk (by rw [hf]; rfl) (by rw [hf]; rfl) wo wd we po pd pk
    (by rw [hsize]; omega)
  rw [hsize, e0, Nat.zero_max, Nat.sub_zero] at e1
  generalize hr : newTokenAcct (env.rentMin (walletAccountSize wprog)) wprog
    (env.rentMin (walletAccountSize wprog)) W w payer [.immutableOwner] = r at e1
  refine ⟨_, r, e1, ?_⟩
  subst hr
  refine ⟨by rw [Ledger.set_same], rfl, rfl, ?_, ?_, rfl, ?_, ?_, ?_, ?_⟩
  · simp [newTokenAcct, wn]
  · simp [newTokenAcct, wf]
  · simp [newTokenAcct, wn]
  · rw [Ledger.set_ne _ _ pk, Ledger.setLamports_same]; exact pd
  · rw [Ledger.set_ne _ _ pk, Ledger.setLamports_same]; exact po
  · intro k h1 h2
    rw [Ledger.set_ne _ _ h2, Ledger.setLamports_ne _ _ h1]

/-- The escrow step with the CLI: created if missing, left alone if there. -/
theorem cli_escrow_step {c : Cluster} {cfg : CliConfig} {secret : Bytes} {L : Ledger}
    {u wprog uprog W A E : Pubkey} {m : Mint}
    (hpay : cfg.payer = .keypair secret) (hd : cfg.dryRun = false) (hlive : c.live c.latest = true)
    (hwp : wprog = splTokenId ∨ wprog = token2022Id) (hp : uprog = splTokenId ∨ uprog = token2022Id)
    (hW : wrappedMintAddress c.env.cr u wprog = some W) (hA : authorityAddress c.env.cr W = some A)
    (hE : associatedTokenAddress c.env.cr A u uprog = some E)
    (hul : (L u).lamports ≠ 0) (huo : (L u).owner = uprog) (hud : (L u).data = .mint m)
    (hsp : uprog = splTokenId → m.exts = []) (hdf : m.defaultFrozen = false) (hn : u ∉ nativeMints)
    (hesc : EscrowReady L E A u uprog)
    (po : (L (c.wire.pub secret)).owner = systemId) (pd : (L (c.wire.pub secret)).data = .bytes [])
    (pE : c.wire.pub secret ≠ E)
    (hl : c.env.rentMin (ataLen uprog u L) - (L E).lamports ≤ (L (c.wire.pub secret)).lamports) :
    ∃ s L2 d, (Command.createEscrow u wprog true).run c cfg L L =
        ⟨[], .ok (.createEscrow ⟨E, A, uprog, s⟩), L2⟩ ∧
      EscrowStep L L2 (c.wire.pub secret) E A u uprog
        (c.env.rentMin (ataLen uprog u L) - (L E).lamports) d := by
  rcases hesc with ⟨e1, e2, e3⟩ | ⟨d, e1, e2, e3, e4, e5, e6, e7, e8⟩
  · have hr := ataCreatePaid_ok (env := c.env) hp hE e1 e2 huo hud hsp po pd pE hl
    generalize hd' : newTokenAcct (c.env.rentMin (ataLen uprog u L)) uprog (max (L E).lamports
      (c.env.rentMin (ataLen uprog u L))) u m A [.immutableOwner] = d at hr
    obtain ⟨s, hs⟩ := createEscrow_run_ok hpay hd hlive hwp hp hW hA hE hul huo hud e3 hr
    refine ⟨some s, _, d, hs, ?_⟩
    subst hd'
    refine ⟨?_, ?_, ?_, ?_, ?_, ?_, ?_, ?_, ?_, ?_, ?_, ?_⟩
    · rw [Ledger.set_same]
    · rw [Ledger.set_same]
    · rfl
    · rfl
    · simp [newTokenAcct, hdf]
    · rfl
    · simp [newTokenAcct, hn]
    · simp [newTokenAcct, hn, balanceOf, e2]
    · rw [Ledger.set_ne _ _ pE, Ledger.setLamports_same]; exact po
    · rw [Ledger.set_ne _ _ pE, Ledger.setLamports_same]; exact pd
    · rw [Ledger.set_ne _ _ pE, Ledger.setLamports_same]; dsimp only; omega
    · intro k h1 h2
      rw [Ledger.set_ne _ _ h2, Ledger.setLamports_ne _ _ h1]
  · refine ⟨none, L, d, createEscrow_run_there hpay hwp hp hW hA hE hul huo hud e1 e3,
      ⟨e2, e3, e4, e5, e6, e7, e8, ?_, po, pd, by omega, fun _ _ _ => rfl⟩⟩
    simp [balanceOf, e3]

/-- **C94** The walk-through with the command line tool works: from every chain on which the mint
charges no fee for the amount, the fee payer owns the tokens and can pay the rent still missing,
`create-mint --idempotent`, `create-escrow-account --idempotent`, creating the payer's associated token
account of the wrapped mint, `wrap SOURCE PROGRAM AMOUNT` and `unwrap ACCOUNT SOURCE AMOUNT`, with
nothing else given, all succeed - whether the wrapped mint and the escrow existed before or not.  The
outputs name the addresses of the pair; after the wrap the account holds the amount, fully backed, and
after the unwrap everybody has what they had before. -/
theorem cli_walkthrough_works {c : Cluster} {cfg : CliConfig} {secret : Bytes} {L : Ledger}
    {u src wprog uprog key W B A E : Pubkey} {amount : UInt64} {m : Mint} {s : TokenAcct}
    (hid : c.env.programId = crateId) (hrej : ∀ p ix s L, c.env.reject p ix s L = none)
    (hpay : cfg.payer = .keypair secret) (hd : cfg.dryRun = false) (hlive : c.live c.latest = true)
    (st : ScriptStart c.env L (c.wire.pub secret) u src wprog uprog key W B A E amount m s
      (walletAccountSize wprog))
    (hkey : associatedTokenAddress c.env.cr (c.wire.pub secret) W wprog = some key)
    (hown : s.owner = c.wire.pub secret) (hdel : s.delegate ≠ some (c.wire.pub secret))
    (hdem : ∀ k ∈ [src, key, W, B, E], k ∉ c.demoted) :
    ∃ L1 L2 L3 L4 L5 sig1 sig2 sigs4 sigs5,
      (Command.createMint u wprog true).run c cfg L L = ⟨[], .ok (.createMint
        ⟨u, W, B, c.env.rentMin (specMintSize wprog) - (L W).lamports,
          c.env.rentMin 32 - (L B).lamports, sig1⟩), L1⟩ ∧
      (Command.createEscrow u wprog true).run c cfg L1 L1 =
        ⟨[], .ok (.createEscrow ⟨E, A, uprog, sig2⟩), L2⟩ ∧
      ataCreatePaid c.env (c.wire.pub secret) (c.wire.pub secret) W wprog L2 = .ok L3 ∧
      (Command.wrap ⟨src, wprog, amount, none, none, none, none, [], none, [], false⟩).run c cfg L3 L3 =
        ⟨[], .ok (.wrap ⟨u, W, src, key, E, amount, sigs4, none⟩), L4⟩ ∧
      (Command.unwrap ⟨key, src, amount, none, none, none, none, [], none, [], false⟩).run c cfg L4 L4 =
        ⟨[], .ok (.unwrap ⟨uprog, u, W, E, key, src, amount, sigs5, none⟩), L5⟩ ∧
      ScriptWorked L L4 L5 (c.wire.pub secret) src key W B E amount := by
  generalize hpk : c.wire.pub secret = payer at *
  have nd := st.nodup
  simp only [List.nodup_cons, List.mem_cons, List.not_mem_nil, or_false, not_or, not_false_eq_true,
    List.nodup_nil, and_true] at nd
  obtain ⟨⟨p1, p2, p3, p4, p5, p6, p7⟩, ⟨u1, u2, u3, u4, u5, u6⟩, ⟨s1, s2, s3, s4, s5⟩,
    ⟨k1, k2, k3, k4⟩, ⟨w1, w2, w3⟩, ⟨b1, b2⟩, a1⟩ := nd
  have hf := st.payerFunds
  -- create-mint
  obtain ⟨ixs, L1, w, h1, h2, ms⟩ := js_mint_step (um := m) hid hrej st.wprogOk st.addrW st.addrB st.addrA
    (by rw [st.mintOwner]; exact st.uprogOk) st.mintData st.pair st.payerAcct w1 p4 p5 p1 u3 u4
    (by omega)
  rw [js_createMint_eq_cli] at h1
  obtain ⟨sig1, r1⟩ := createMint_run_ok (c := c) (cfg := cfg) hpay hd hlive st.wprogOk st.addrW st.addrB
    (by rw [hpk]; exact h1) ⟨hdem W (by simp), hdem B (by simp)⟩ h2
  have fU : L1 u = L u := ms.frame u (Ne.symm p1) u3 u4
  have fE : L1 E = L E := ms.frame E (Ne.symm p7) (Ne.symm w3) (Ne.symm b2)
  have fLen : ataLen uprog u L1 = ataLen uprog u L := by simp only [ataLen, fU]
  -- create-escrow-account
  obtain ⟨sig2, L2, d, r2, es⟩ := cli_escrow_step (L := L1) (W := W)
    (wprog := wprog) hpay hd hlive st.wprogOk st.uprogOk st.addrW st.addrA st.addrE
    (by rw [fU]; exact st.mintExists)
    (by rw [fU]; exact st.mintOwner) (by rw [fU]; exact st.mintData) st.splExts st.thawedByDefault
    st.notNative.1 (by have := st.escrow; unfold EscrowReady at this ⊢; rwa [fE])
    (by rw [hpk, ms.payerLeft]) (by rw [hpk, ms.payerLeft]) (by rw [hpk]; exact p7)
    (by rw [hpk, fLen, fE, ms.payerLeft]; dsimp only; omega)
  rw [hpk] at es
  have gK : L2 key = Account.empty := by
    rw [es.frame key (Ne.symm p3) k4, ms.frame key (Ne.symm p3) k1 k2]
    exact st.fresh
  have gW : L2 W = L1 W := es.frame W (Ne.symm p4) w3
  have gP := es.payerLeft
  rw [fLen, fE, ms.payerLeft] at gP
  dsimp only at gP
  -- the account for the wrapped tokens
  obtain ⟨L3, t, r3, hs⟩ := holder_ata_step st.wprogOk hkey gK
    (by rw [gW]; exact ms.wOwner) (by rw [gW]; exact ms.wData) ms.wExts ms.wThawed ms.wNoRoom st.notNative.2
    es.payerOwner es.payerData p3 (by omega)
  have jW : L3 W = L1 W := (hs.frame W (Ne.symm p4) (Ne.symm k1)).trans gW
  have jE : L3 E = L2 E := hs.frame E (Ne.symm p7) (Ne.symm k4)
  have sd : SetupDone c.env L L3 payer u key W B A E wprog uprog payer d t w := {
    wOwner := by rw [jW]; exact ms.wOwner
    wData := by rw [jW]; exact ms.wData
    wAuth := ms.wAuth, wExts := ms.wExts, supply := ms.supply
    eOwner := by rw [jE]; exact es.owner
    eData := by rw [jE]; exact es.data
    eMint := es.mint, eTokenOwner := es.tokenOwner, eThawed := es.thawed, eDelegate := es.delegate
    ePlain := es.plain
    eAmount := by rw [es.amount]; simp only [balanceOf, fE]
    rData := by rw [hs.acct]
    rOwner := by rw [hs.acct]
    rExists := by rw [hs.acct]; exact Nat.pos_iff_ne_zero.1 st.rentPositive
    rMint := hs.mint, rTokenOwner := hs.tokenOwner, rAmount := hs.amount, rThawed := hs.thawed
    rDelegate := hs.delegate, rPlain := hs.plain
    payerSame := ⟨hs.payerOwner, hs.payerData⟩
    frame := by
      intro k hk
      simp only [List.mem_cons, List.not_mem_nil, or_false, not_or] at hk
      rw [hs.frame k hk.1 hk.2.1, es.frame k hk.1 hk.2.2.2.2, ms.frame k hk.1 hk.2.2.1 hk.2.2.2.1] }
  have fS : L3 src = L src := sd.frame src (by simp [Ne.symm p2, s1, s2, s3, s5])
  have fU3 : L3 u = L u := sd.frame u (by simp [Ne.symm p1, u2, u3, u4, u6])
  have happ : ∀ prog, BuiltApproval prog L3 payer [] := fun _ =>
    .inl ⟨rfl, fun ms h => by rw [sd.payerSame.2] at h; cases h⟩
  have cw := sd.canWrap st (tauth := payer) (members := []) (.inr (.inr ⟨hdel, hown⟩)) (happ _)
  -- wrap
  obtain ⟨sigs4, r4⟩ := wrap_run_ok (c := c) (cfg := cfg) hpay hd hlive hid st.positive hrej s5
    (by rw [hpk]; exact cw) (by rw [fS]; exact st.srcExists) (by rw [hpk]; exact hkey)
    (by intro k hk; exact hdem k (by simp at hk ⊢; rcases hk with h | h | h | h <;> simp [h]))
  rw [hpk] at r4
  have h4 := wrap_runs_to hid st.positive hrej s5 cw
  generalize hL4 : ledgerAfterWrap L3 src E key W s d t w (pdOf uprog m) payer amount.toNat 0 = L4 at r4 h4
  obtain ⟨e, d', h', w', cu⟩ := wrapped_can_be_unwrapped (rcp := .rw key false) (wm := .rw W false)
    (au := .ro A false) (up := .ro uprog false) (wp := .ro wprog false) (sr := .rw src false)
    (um := .ro u false) (es := .rw E false) (ta := .ro payer true) (rest := []) (o := payer)
    (members' := []) cw h4 s5 st.srcU64 sd.eDelegate sd.ePlain sd.rDelegate sd.rTokenOwner
    (by simp [Meta.rw, p2, p3, p4, p7]) (happ _)
  have lamS : (L4 src).lamports = (L3 src).lamports := by
    rw [← hL4]; simp [ledgerAfterWrap, nativeLamports, st.srcPlain]
  have lamK : (L4 key).lamports = (L3 key).lamports := by
    rw [← hL4]; simp [ledgerAfterWrap, Ne.symm s1, k4]
  have lamU : L4 u = L3 u := by
    rw [← hL4]; simp [ledgerAfterWrap, u1, u2, u3, u6]
  -- unwrap
  obtain ⟨sigs5, r5⟩ := unwrap_run_ok (c := c) (cfg := cfg) hpay hd hlive hid st.positive hrej s5
    (by rw [hpk]; exact cu)
    ⟨by show (L4 key).lamports ≠ 0; rw [lamK]; exact sd.rExists,
      by show (L4 src).lamports ≠ 0; rw [lamS, fS]; exact st.srcExists,
      by show (L4 u).lamports ≠ 0; rw [lamU, fU3]; exact st.mintExists⟩
    (by intro k hk; exact hdem k (by simp [Meta.rw] at hk ⊢; rcases hk with h | h | h | h <;> simp [h]))
  have h5 := unwrap_runs_to hid st.positive hrej s5 cu
  rw [hpk] at r5
  exact ⟨L1, L2, L3, L4, _, some sig1, sig2, sigs4, sigs5, r1, r2, r3, r4, r5,
    script_accounting st sd rfl rfl rfl rfl rfl rfl rfl rfl rfl rfl h4 h5 st.feeZero⟩

/-! ## Concrete instances -/

namespace Example.CliJourney

open TokenWrap.Example TokenWrap.Example.CliRunEx

/-- the payer's associated token account of the wrapped mint -/
def holder : Pubkey := (associatedTokenAddress env.cr user W splTokenId).getD (.lit 0)

local macro "start_tac" : tactic => `(tactic| first
  | decide +kernel
  | exact Or.inl (by decide +kernel)
  | exact Or.inr ⟨wMint 40, by decide +kernel⟩
  | exact Or.inr ⟨acct u A 40 [.immutableOwner], by decide +kernel⟩
  | rfl)

theorem start_cli : ScriptStart env (Journey.start [] user) user u src splTokenId token2022Id holder
    W B A E 1000 (uMint []) (acct u user 5000 [.transferFeeAmount]) (walletAccountSize splTokenId) := by
  constructor <;> start_tac

theorem later_cli : ScriptStart env (Journey.later user) user u src splTokenId token2022Id holder
    W B A E 1000 (uMint []) (acct u user 5000 [.transferFeeAmount]) (walletAccountSize splTokenId) := by
  constructor <;> start_tac

theorem holder_address : associatedTokenAddress env.cr user W splTokenId = some holder := by
  decide +kernel

/-- From scratch, and with everything there already. -/
example : ∃ L4 L5, ScriptWorked (Journey.start [] user) L4 L5 user src holder W B E 1000 := by
  obtain ⟨_, _, _, L4, L5, _, _, _, _, _, _, _, _, _, h⟩ := cli_walkthrough_works (c := cl) (cfg := cfg)
    (secret := [4]) rfl (fun _ _ _ _ => rfl) rfl rfl rfl start_cli holder_address rfl (by simp [acct])
    (by simp [cl])
  exact ⟨L4, L5, h⟩

example : ∃ L4 L5, ScriptWorked (Journey.later user) L4 L5 user src holder W B E 1000 := by
  obtain ⟨_, _, _, L4, L5, _, _, _, _, _, _, _, _, _, h⟩ := cli_walkthrough_works (c := cl) (cfg := cfg)
    (secret := [4]) rfl (fun _ _ _ _ => rfl) rfl rfl rfl later_cli holder_address rfl (by simp [acct])
    (by simp [cl])
  exact ⟨L4, L5, h⟩

end Example.CliJourney

end TokenWrap
