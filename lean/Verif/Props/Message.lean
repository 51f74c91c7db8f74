import Verif.Message
import Verif.Props.Flags
import Verif.Props.Js
import Verif.Props.Pointer
/-!
# Transactions (C74 - C76)

What the single-instruction theorems mean for a transaction: the flags the program sees are those of
the message, and the message gets a signer flag only from a signature.
-/

namespace TokenWrap

open TokenWrapInstruction

section
variable {env : Env} {L L' : Ledger} {demoted : List Pubkey} {msg : Message}

theorem ClientIx.mem_signerKeys {cr : Crypto} {ix : ClientIx} {k : Pubkey} :
    k ∈ ix.signerKeys ↔ Signs (ix.metas cr) k := by
  cases ix with
  | transfer s d n =>
    simp only [ClientIx.signerKeys, ClientIx.metas, Signs, List.mem_cons, List.not_mem_nil, or_false]
    constructor
    · rintro rfl; exact ⟨.rw k true, .inl rfl, rfl, rfl⟩
    · rintro ⟨m, rfl | rfl, h2, h3⟩ <;> simp_all [Meta.rw]
  | call ix =>
    simp only [ClientIx.signerKeys, ClientIx.metas, Signs, List.mem_map, List.mem_filter]
    constructor
    · rintro ⟨m, ⟨h1, h2⟩, h3⟩; exact ⟨m, h1, h3, h2⟩
    · rintro ⟨m, h1, h2, h3⟩; exact ⟨m, ⟨h1, h3⟩, h2⟩
  | createAta p w m q =>
    simp only [ClientIx.signerKeys, ClientIx.metas, Signs, List.mem_append, List.mem_cons,
      List.not_mem_nil, or_false, List.mem_map]
    constructor
    · rintro rfl; exact ⟨.rw k true, .inl (.inl rfl), rfl, rfl⟩
    · rintro ⟨m, (rfl | ⟨a, _, rfl⟩) | rfl | rfl | rfl | rfl, h2, h3⟩ <;>
        simp_all [Meta.rw, Meta.ro]

/-- **C74** A key carries the signer flag in a message exactly if it is a required signer of the
transaction: the fee payer or a key that some instruction marks as signer. -/
theorem message_signer_iff {cr : Crypto} {k : Pubkey} :
    msg.isSigner cr k = true ↔ k ∈ requiredSigners msg.payer msg.instructions := by
  simp only [Message.isSigner, Bool.or_eq_true, decide_eq_true_eq, List.any_eq_true,
    Bool.and_eq_true, requiredSigners, List.mem_cons, List.mem_flatMap]
  refine or_congr Iff.rfl (exists_congr fun ix => and_congr Iff.rfl ?_)
  exact Iff.symm (ClientIx.mem_signerKeys (cr := cr))

/-- **C74** So a program sees a signature on a key exactly when the transaction requires one. -/
theorem compiled_signs {cr : Crypto} {accounts : List Meta} {k : Pubkey}
    (h : Signs (accounts.map (msg.compileMeta cr demoted)) k) :
    k ∈ requiredSigners msg.payer msg.instructions := by
  obtain ⟨m, hm, rfl, hs⟩ := h
  obtain ⟨a, _, rfl⟩ := List.mem_map.1 hm
  exact message_signer_iff.1 hs

/-! ## Messages run their instructions -/

theorem moreFlags_compile {cr : Crypto} {accounts : List Meta} {ix : ClientIx}
    (hix : ix ∈ msg.instructions) (hsub : ∀ m ∈ accounts, m ∈ ix.metas cr)
    (hw : ∀ m ∈ accounts, m.writable = true → m.key ∉ demoted) :
    MoreFlags accounts (accounts.map (msg.compileMeta cr demoted)) := by
  induction accounts with
  | nil => exact .nil
  | cons m l ih =>
    refine .cons ⟨rfl, fun h => ?_, fun h => ?_⟩
      (ih (fun a ha => hsub a (by simp [ha])) (fun a ha => hw a (by simp [ha])))
    · simp only [Message.compileMeta, Message.isSigner, Bool.or_eq_true, List.any_eq_true,
        Bool.and_eq_true, decide_eq_true_eq]
      exact .inr ⟨ix, hix, m, hsub m (by simp), rfl, h⟩
    · simp only [Message.compileMeta, Message.isWritable, Bool.or_eq_true, List.any_eq_true,
        Bool.and_eq_true, decide_eq_true_eq]
      refine ⟨.inr ⟨ix, hix, m, hsub m (by simp), rfl, h⟩, ?_⟩
      have := hw m (by simp) h
      simpa using this

/-- **C74** Packing instructions into one message does not break them: if the instructions succeed one
after the other with the flags they ask for, the message succeeds with the same result.  (Asked for:
no account the runtime refuses to open for writing; and the accounts after the ninth, where Wrap and
Unwrap look for multisig members, sign.) -/
theorem message_runs_instructions
    (hw : ∀ ix, .call ix ∈ msg.instructions → ∀ m ∈ ix.accounts, m.writable = true → m.key ∉ demoted)
    (ht : ∀ ix, .call ix ∈ msg.instructions → ∀ m ∈ ix.accounts.drop 9, m.signer = true)
    (h : runClient env msg.instructions L = .ok L') : msg.run env demoted L = .ok L' := by
  unfold Message.run
  suffices ∀ ixs : List ClientIx, (∀ ix ∈ ixs, ix ∈ msg.instructions) → ∀ L, runClient env ixs L = .ok L' →
      runClient env (ixs.map (msg.compileIx env.cr demoted)) L = .ok L' from
    this _ (fun _ h => h) L h
  intro ixs
  induction ixs with
  | nil => intro _ L h; exact h
  | cons ix rest ih =>
    intro hsub L h
    simp only [runClient, List.map_cons, bind_ok_iff] at h ⊢
    obtain ⟨L1, h1, h2⟩ := h
    refine ⟨L1, ?_, ih (fun a ha => hsub a (by simp [ha])) L1 h2⟩
    cases ix with
    | transfer s d n => exact h1
    | createAta p w m q => exact h1
    | call ix =>
      have hix := hsub (.call ix) (by simp)
      refine more_privileges_change_nothing
        (moreFlags_compile hix (fun m hm => hm) (hw ix hix)) ?_ h1
      rw [← List.map_drop, List.map_map]
      refine List.map_congr_left fun m hm => ?_
      have hs := ht ix hix m hm
      rw [hs, eq_comm]
      simp only [Function.comp, Message.compileMeta, Message.isSigner, Bool.or_eq_true,
        List.any_eq_true, Bool.and_eq_true, decide_eq_true_eq]
      exact .inr ⟨.call ix, hix, m, List.mem_of_mem_drop hm, rfl, hs⟩

/-- Running a message that consists of one Token Wrap instruction. -/
theorem run_single {ix : Instr} {payer : Pubkey} :
    (⟨payer, [.call ix]⟩ : Message).run env demoted L = .ok L' ↔
      processInstruction env (ix.accounts.map
        ((⟨payer, [.call ix]⟩ : Message).compileMeta env.cr demoted)) ix.data L = .ok L' := by
  unfold Message.run
  exact runClient_call

/-! ## Signatures -/

theorem run_split {pre post : List ClientIx} {ix : Instr}
    (hins : msg.instructions = pre ++ .call ix :: post) (h : msg.run env demoted L = .ok L') :
    ∃ L1 L2, runClient env (pre.map (msg.compileIx env.cr demoted)) L = .ok L1 ∧
      processInstruction env (ix.accounts.map (msg.compileMeta env.cr demoted)) ix.data L1 = .ok L2 ∧
      runClient env (post.map (msg.compileIx env.cr demoted)) L2 = .ok L' := by
  unfold Message.run at h
  rw [hins, List.map_append, List.map_cons] at h
  generalize hp : pre.map (msg.compileIx env.cr demoted) = cpre at h
  clear hp hins
  induction cpre generalizing L with
  | nil =>
    simp only [List.nil_append, runClient, bind_ok_iff] at h ⊢
    obtain ⟨L2, h1, h2⟩ := h
    exact ⟨L, L2, rfl, h1, h2⟩
  | cons c rest ih =>
    simp only [List.cons_append, runClient, bind_ok_iff] at h ⊢
    obtain ⟨L0, h0, h⟩ := h
    obtain ⟨L1, L2, h1, h2, h3⟩ := ih h
    exact ⟨L1, L2, ⟨L0, h0, h1⟩, h2, h3⟩

/-- Approval seen by the program comes from signatures on the transaction. -/
theorem approves_by_signatures {cr : Crypto} {accounts : List Meta} {k : Pubkey} {sigs : Pubkey → Prop}
    (hsig : ∀ s ∈ requiredSigners msg.payer msg.instructions, sigs s)
    (h : Approves L (accounts.map (msg.compileMeta cr demoted)) k) : ApprovesBy L sigs k := by
  unfold Approves at h
  split at h
  · rename_i ms hms
    rcases h with h | ⟨members, h1, h2, h3⟩
    · exact .inl (hsig _ (compiled_signs h))
    · exact .inr ⟨ms, members, hms, h1, h2, fun x hx => hsig _ (compiled_signs (h3 x hx))⟩
  · exact .inl (hsig _ (compiled_signs h))

/-- **C75** Whatever else a transaction does: a Wrap in it takes tokens only with signatures on the
*transaction* of the source's owner, of a delegate with sufficient allowance or of the permanent
delegate (or of m members, if that is a multisig) - as they are at the moment the Wrap runs. -/
theorem transaction_wrap_authorised {sigs : Pubkey → Prop} {pre post : List ClientIx}
    {pid : Pubkey} {recipient wmint auth uprog wprog src umint escrow tauth : Meta} {rest : List Meta}
    {amount : UInt64}
    (hsig : ∀ k ∈ requiredSigners msg.payer msg.instructions, sigs k)
    (hins : msg.instructions = pre ++ .call ⟨pid, [recipient, wmint, auth, uprog, wprog, src, umint,
      escrow, tauth] ++ rest, (wrap amount).pack⟩ :: post)
    (h : msg.run env demoted L = .ok L') :
    ∃ L1, runClient env (pre.map (msg.compileIx env.cr demoted)) L = .ok L1 ∧
    ∃ t m, (L1 src.key).data = .token t ∧ (L1 umint.key).data = .mint m ∧
      ApprovesBy L1 sigs tauth.key ∧
      (t.owner = tauth.key ∨
       (t.delegate = some tauth.key ∧ amount.toNat ≤ t.delegatedAmount) ∨
       (uprog.key = token2022Id ∧ m.permanentDelegate? = some tauth.key)) := by
  obtain ⟨L1, L2, h1, h2, _⟩ := run_split hins h
  refine ⟨L1, h1, ?_⟩
  simp only [List.map_append, List.map_cons, List.map_nil] at h2
  obtain ⟨t, m, ht, hm, happ, hown⟩ := wrap_authorised h2
  refine ⟨t, m, ht, hm, ?_, hown⟩
  refine approves_by_signatures (cr := env.cr) (demoted := demoted)
    (accounts := [recipient, wmint, auth, uprog, wprog, src, umint, escrow, tauth] ++ rest) hsig ?_
  simp only [List.map_append, List.map_cons, List.map_nil]
  exact happ

/-- **C75** The same for an Unwrap: wrapped tokens are burned only with signatures on the transaction
of their owner, a delegate or the wrapped mint's permanent delegate (accounts owned by the system
program or the incinerator belong to nobody: the token programs let anyone burn from them). -/
theorem transaction_unwrap_authorised {sigs : Pubkey → Prop} {pre post : List ClientIx}
    {pid : Pubkey} {escrow recipient auth umint wprog uprog holder wmint tauth : Meta} {rest : List Meta}
    {amount : UInt64}
    (hsig : ∀ k ∈ requiredSigners msg.payer msg.instructions, sigs k)
    (hins : msg.instructions = pre ++ .call ⟨pid, [escrow, recipient, auth, umint, wprog, uprog, holder,
      wmint, tauth] ++ rest, (unwrap amount).pack⟩ :: post)
    (h : msg.run env demoted L = .ok L') :
    ∃ L1, runClient env (pre.map (msg.compileIx env.cr demoted)) L = .ok L1 ∧
    ∃ t w, (L1 holder.key).data = .token t ∧ (L1 wmint.key).data = .mint w ∧
      ((t.owner = systemId ∨ t.owner = incineratorId) ∨
       (ApprovesBy L1 sigs tauth.key ∧
        (t.owner = tauth.key ∨
         (t.delegate = some tauth.key ∧ amount.toNat ≤ t.delegatedAmount) ∨
         (wprog.key = token2022Id ∧ w.permanentDelegate? = some tauth.key)))) := by
  obtain ⟨L1, L2, h1, h2, _⟩ := run_split hins h
  refine ⟨L1, h1, ?_⟩
  simp only [List.map_append, List.map_cons, List.map_nil] at h2
  obtain ⟨t, w, ht, hw, hor⟩ := unwrap_authorised h2
  refine ⟨t, w, ht, hw, hor.imp id fun ⟨happ, hown⟩ => ⟨?_, hown⟩⟩
  refine approves_by_signatures (cr := env.cr) (demoted := demoted)
    (accounts := [escrow, recipient, auth, umint, wprog, uprog, holder, wmint, tauth] ++ rest) hsig ?_
  simp only [List.map_append, List.map_cons, List.map_nil]
  exact happ

/-- **C75** The same for the canonical pointer: it is set only in a transaction signed by the mint
authority. -/
theorem transaction_pointer_authorised {sigs : Pubkey → Prop} {pre post : List ClientIx}
    {pid p : Pubkey} {ma ptr umint sys : Meta} {rest : List Meta}
    (hsig : ∀ k ∈ requiredSigners msg.payer msg.instructions, sigs k)
    (hins : msg.instructions = pre ++ .call ⟨pid, [ma, ptr, umint, sys] ++ rest,
      (setCanonicalPointer p).pack⟩ :: post)
    (h : msg.run env demoted L = .ok L') :
    ∃ L1, runClient env (pre.map (msg.compileIx env.cr demoted)) L = .ok L1 ∧
      sigs ma.key ∧ ∃ m, (L1 umint.key).data = .mint m ∧ m.mintAuthority = some ma.key := by
  obtain ⟨L1, L2, h1, h2, _⟩ := run_split hins h
  refine ⟨L1, h1, ?_⟩
  simp only [List.map_append, List.map_cons, List.map_nil] at h2
  obtain ⟨hs, hm, _⟩ := pointer_set_by_mint_authority h2
  exact ⟨hsig _ (message_signer_iff.1 hs), hm⟩

/-! ## The clients' transactions -/

/-- The accounts of a built Wrap after the ninth are the members, who sign. -/
theorem build_wrap_trailing {rcp W A uprog wprog src u E tauth : Pubkey} {members : List Pubkey}
    {amount : UInt64} :
    ∀ m ∈ (Build.wrap crateId rcp W A uprog wprog src u E tauth members amount).accounts.drop 9,
      m.signer = true := by
  intro m hm
  simp only [Build.wrap, List.cons_append, List.nil_append, List.drop_succ_cons, List.drop_zero] at hm
  obtain ⟨k, _, rfl⟩ := List.mem_map.1 hm
  rfl

theorem build_wrap_writable {rcp W A uprog wprog src u E tauth : Pubkey} {members : List Pubkey}
    {amount : UInt64} :
    ∀ m ∈ (Build.wrap crateId rcp W A uprog wprog src u E tauth members amount).accounts,
      m.writable = true → m.key ∈ [rcp, W, src, E] := by
  intro m hm hw
  simp only [Build.wrap, List.mem_append, List.mem_cons, List.not_mem_nil, or_false, List.mem_map] at hm
  rcases hm with (rfl | rfl | rfl | rfl | rfl | rfl | rfl | rfl | rfl) | ⟨k, _, rfl⟩ <;>
    simp_all [Meta.rw, Meta.ro]

theorem build_unwrap_trailing {E rcp A u wprog uprog holder W tauth : Pubkey} {members : List Pubkey}
    {amount : UInt64} :
    ∀ m ∈ (Build.unwrap crateId E rcp A u wprog uprog holder W tauth members amount).accounts.drop 9,
      m.signer = true := by
  intro m hm
  simp only [Build.unwrap, List.cons_append, List.nil_append, List.drop_succ_cons, List.drop_zero] at hm
  obtain ⟨k, _, rfl⟩ := List.mem_map.1 hm
  rfl

theorem build_unwrap_writable {E rcp A u wprog uprog holder W tauth : Pubkey} {members : List Pubkey}
    {amount : UInt64} :
    ∀ m ∈ (Build.unwrap crateId E rcp A u wprog uprog holder W tauth members amount).accounts,
      m.writable = true → m.key ∈ [E, rcp, holder, W] := by
  intro m hm hw
  simp only [Build.unwrap, List.mem_append, List.mem_cons, List.not_mem_nil, or_false, List.mem_map] at hm
  rcases hm with (rfl | rfl | rfl | rfl | rfl | rfl | rfl | rfl | rfl) | ⟨k, _, rfl⟩ <;>
    simp_all [Meta.rw, Meta.ro]

/-- A message that consists of one built Wrap works whenever the instruction does. -/
theorem message_wrap {payer rcp W A uprog wprog src u E tauth : Pubkey} {members : List Pubkey}
    {amount : UInt64} (hw : ∀ k ∈ [rcp, W, src, E], k ∉ demoted)
    (h : processInstruction env
      (Build.wrap crateId rcp W A uprog wprog src u E tauth members amount).accounts
      (Build.wrap crateId rcp W A uprog wprog src u E tauth members amount).data L = .ok L') :
    (⟨payer, [.call (Build.wrap crateId rcp W A uprog wprog src u E tauth members amount)]⟩ :
      Message).run env demoted L = .ok L' := by
  refine message_runs_instructions ?_ ?_ (runClient_call.2 h)
  · intro ix hix m hm hwr
    simp only [List.mem_singleton, ClientIx.call.injEq] at hix
    subst hix
    exact hw _ (build_wrap_writable m hm hwr)
  · intro ix hix
    simp only [List.mem_singleton, ClientIx.call.injEq] at hix
    subst hix
    exact build_wrap_trailing

theorem message_unwrap {payer E rcp A u wprog uprog holder W tauth : Pubkey} {members : List Pubkey}
    {amount : UInt64} (hw : ∀ k ∈ [E, rcp, holder, W], k ∉ demoted)
    (h : processInstruction env
      (Build.unwrap crateId E rcp A u wprog uprog holder W tauth members amount).accounts
      (Build.unwrap crateId E rcp A u wprog uprog holder W tauth members amount).data L = .ok L') :
    (⟨payer, [.call (Build.unwrap crateId E rcp A u wprog uprog holder W tauth members amount)]⟩ :
      Message).run env demoted L = .ok L' := by
  refine message_runs_instructions ?_ ?_ (runClient_call.2 h)
  · intro ix hix m hm hwr
    simp only [List.mem_singleton, ClientIx.call.injEq] at hix
    subst hix
    exact hw _ (build_unwrap_writable m hm hwr)
  · intro ix hix
    simp only [List.mem_singleton, ClientIx.call.injEq] at hix
    subst hix
    exact build_unwrap_trailing

/-- **C74** The CLI's wrap transaction as it is executed, with the flags of its message and at any
later state of the chain: the effect is exactly that of the Wrap it was asked for. -/
theorem cli_wrap_message_effect {args : CliWrapArgs} {tx : CliTx} {L0 L1 L2 : Ledger}
    (h : cliWrap env args L0 = .ok tx) (hrun : tx.message.run env demoted L1 = .ok L2) :
    ∃ u uprog W A E rcp, CliWrapResolved env args L0 u uprog W A E rcp ∧
      (args.unwrappedTokenAccount ≠ E →
      ∃ m fee, (L1 u).data = .mint m ∧ IsMintFee m env.epoch args.amount.toNat fee ∧
        fee ≤ args.amount.toNat ∧
        balanceOf L2 args.unwrappedTokenAccount + args.amount.toNat =
          balanceOf L1 args.unwrappedTokenAccount ∧
        balanceOf L2 E = balanceOf L1 E + (args.amount.toNat - fee) ∧
        balanceOf L2 rcp = balanceOf L1 rcp + (args.amount.toNat - fee) ∧
        supplyOf L2 W = supplyOf L1 W + (args.amount.toNat - fee)) := by
  obtain ⟨u, uprog, W, A, E, rcp, hr, hpay, hins, _⟩ := cli_wrap_transaction h
  refine ⟨u, uprog, W, A, E, rcp, hr, fun hne => ?_⟩
  have hm : tx.message = ⟨args.payer.key, [.call (Build.wrap crateId rcp W A uprog
      args.wrappedTokenProgram args.unwrappedTokenAccount u E
      (args.transferAuthority.getD args.payer).key (args.multisig.map (·.key)) args.amount)]⟩ := by
    rw [CliTx.message, hpay, hins]
  rw [hm, run_single] at hrun
  simp only [Build.wrap, List.map_append, List.map_cons, List.map_nil] at hrun
  exact wrap_credits_exactly_what_escrow_receives hrun hne

/-- **C74** The CLI's unwrap transaction, likewise. -/
theorem cli_unwrap_message_effect {args : CliUnwrapArgs} {tx : CliTx} {L0 L1 L2 : Ledger}
    (h : cliUnwrap env args L0 = .ok tx) (hrun : tx.message.run env demoted L1 = .ok L2) :
    ∃ u wprog uprog W A E, CliUnwrapResolved env args L0 u wprog uprog W A E ∧
      (W ≠ u → E ≠ args.recipient →
      ∃ m fee, (L1 u).data = .mint m ∧ IsMintFee m env.epoch args.amount.toNat fee ∧
        fee ≤ args.amount.toNat ∧
        balanceOf L2 args.wrappedTokenAccount + args.amount.toNat =
          balanceOf L1 args.wrappedTokenAccount ∧
        supplyOf L2 W + args.amount.toNat = supplyOf L1 W ∧
        balanceOf L2 E + args.amount.toNat = balanceOf L1 E ∧
        balanceOf L2 args.recipient = balanceOf L1 args.recipient + (args.amount.toNat - fee)) := by
  obtain ⟨u, wprog, uprog, W, A, E, hr, hpay, hins, _⟩ := cli_unwrap_transaction h
  refine ⟨u, wprog, uprog, W, A, E, hr, fun h1 h2 => ?_⟩
  have hm : tx.message = ⟨args.payer.key, [.call (Build.unwrap crateId E args.recipient A u wprog uprog
      args.wrappedTokenAccount W (args.transferAuthority.getD args.payer).key
      (args.multisig.map (·.key)) args.amount)]⟩ := by
    rw [CliTx.message, hpay, hins]
  rw [hm, run_single] at hrun
  simp only [Build.unwrap, List.map_append, List.map_cons, List.map_nil] at hrun
  exact unwrap_pays_one_for_one hrun h1 h2

/-- **C74** The CLI's wrap works as a transaction in every situation in which the tokens can be
wrapped at all. -/
theorem cli_wrap_message_succeeds {args : CliWrapArgs} {rcp W A uprog u E : Pubkey} {fee : Nat}
    {s d r : TokenAcct} {m w : Mint} (hid : env.programId = crateId) (hz : args.amount ≠ 0)
    (hrej : ∀ p ix sg L, env.reject p ix sg L = none)
    (c : CanWrap env L rcp W A uprog args.wrappedTokenProgram args.unwrappedTokenAccount u E
      (args.transferAuthority.getD args.payer).key (args.multisig.map (·.key)) args.amount.toNat fee
      s d r m w)
    (hex : (L args.unwrappedTokenAccount).lamports ≠ 0)
    (hu : OmittedOr args.unwrappedMint u) (hp : OmittedOr args.unwrappedTokenProgram uprog)
    (hr : args.recipient = some rcp ∨ args.recipient = none ∧
      associatedTokenAddress env.cr args.payer.key W args.wrappedTokenProgram = some rcp)
    (hpre : SignaturesFit args.payer.key (args.transferAuthority.getD args.payer).key
      (args.multisig.map (·.key)) args.presigners)
    (hw : ∀ k ∈ [rcp, W, args.unwrappedTokenAccount, E], k ∉ demoted) :
    ∃ tx L', cliWrap env args L = .ok tx ∧ tx.message.run env demoted L = .ok L' := by
  obtain ⟨tx, L', h1, h2⟩ := cli_wrap_succeeds hid hz hrej c hex hu hp hr hpre
  refine ⟨tx, L', h1, ?_⟩
  obtain ⟨u', uprog', W', A', E', rcp', hr', hpay, hins, _⟩ := cli_wrap_transaction h1
  -- the resolved addresses are those of `c`
  have hu' : u' = u := by
    rcases hr'.mint with h | ⟨h, t, ht, rfl⟩
    · rcases hu with h' | h' <;> rw [h] at h' <;> cases h'; rfl
    · rw [c.srcData] at ht; cases ht; exact c.srcMint
  subst hu'
  have hp' : uprog' = uprog := by
    rcases hr'.prog with h | ⟨h, rfl⟩
    · rcases hp with h' | h' <;> rw [h] at h' <;> cases h'; rfl
    · exact c.srcOwner
  subst hp'
  have hW' : W' = W := Option.some.inj (hr'.wrappedMint.symm.trans c.addrW)
  subst hW'
  have hA' : A' = A := Option.some.inj (hr'.authority.symm.trans c.addrA)
  subst hA'
  have hE' : E' = E := Option.some.inj
    (hr'.escrow.symm.trans ((escrowAddress_eq _ _ _ _ _ _ c.addrW c.addrA).trans c.addrE))
  subst hE'
  have hR' : rcp' = rcp := by
    rcases hr'.recipient with h | ⟨h, h'⟩ <;> rcases hr with h2 | ⟨h2, h3⟩
    · rw [h] at h2; exact Option.some.inj h2
    · rw [h] at h2; cases h2
    · rw [h] at h2; cases h2
    · rw [h'] at h3; exact Option.some.inj h3
  subst hR'
  rw [CliTx.message, hpay, hins]
  rw [hins, runClient_call] at h2
  exact message_wrap hw h2

/-- **C74** The CLI's unwrap works as a transaction in every situation in which the tokens can be
unwrapped at all. -/
theorem cli_unwrap_message_succeeds {args : CliUnwrapArgs} {W A wprog uprog u E : Pubkey} {fee : Nat}
    {e d h : TokenAcct} {m w : Mint} (hid : env.programId = crateId) (hz : args.amount ≠ 0)
    (hrej : ∀ p ix sg L, env.reject p ix sg L = none)
    (c : CanUnwrap env L E args.recipient A u wprog uprog args.wrappedTokenAccount W
      (args.transferAuthority.getD args.payer).key (args.multisig.map (·.key)) args.amount.toNat fee
      e d h m w)
    (hex : (L args.wrappedTokenAccount).lamports ≠ 0 ∧ (L args.recipient).lamports ≠ 0 ∧
      (L u).lamports ≠ 0)
    (hw : OmittedOr args.wrappedTokenProgram wprog) (hu : OmittedOr args.unwrappedMint u)
    (hp : OmittedOr args.unwrappedTokenProgram uprog)
    (hpre : SignaturesFit args.payer.key (args.transferAuthority.getD args.payer).key
      (args.multisig.map (·.key)) args.presigners)
    (hdem : ∀ k ∈ [E, args.recipient, args.wrappedTokenAccount, W], k ∉ demoted) :
    ∃ tx L', cliUnwrap env args L = .ok tx ∧ tx.message.run env demoted L = .ok L' := by
  obtain ⟨tx, L', h1, h2⟩ := cli_unwrap_succeeds hid hz hrej c hex hw hu hp hpre
  refine ⟨tx, L', h1, ?_⟩
  obtain ⟨u', wprog', uprog', W', A', E', hr', hpay, hins, _⟩ := cli_unwrap_transaction h1
  -- the resolved addresses are those of `c`
  have hwp : wprog' = wprog := hr'.wrappedProgram.1.symm.trans c.hOwner
  subst hwp
  have hu' : u' = u := by
    obtain ⟨⟨t, ht, rfl⟩, _⟩ := hr'.mint
    rw [c.rData] at ht; cases ht; exact c.rMint
  subst hu'
  have hup : uprog' = uprog := hr'.unwrappedProgram.1.symm.trans c.mintOwner
  subst hup
  have hW' : W' = W := Option.some.inj (hr'.wrappedMint.symm.trans c.addrW)
  subst hW'
  have hA' : A' = A := Option.some.inj (hr'.authority.symm.trans c.addrA)
  subst hA'
  have hE' : E' = E := Option.some.inj
    (hr'.escrow.symm.trans ((escrowAddress_eq _ _ _ _ _ _ c.addrW c.addrA).trans c.addrE))
  subst hE'
  rw [CliTx.message, hpay, hins]
  rw [hins, runClient_call] at h2
  exact message_unwrap hdem h2

/-! ## JavaScript: a transfer authority given as a plain address -/

/-- **C62** A transfer authority given as a plain address signs nothing itself: in a transaction made
of the built instruction it must be the fee payer (or a multisig that the payer is a member of). -/
theorem js_wrap_plain_address_message {args : Js.WrapArgs} {r : Js.WrapResult} {k payer : Pubkey}
    {L1 L2 : Ledger} (ha : args.transferAuthority = some ⟨k, false⟩)
    (hms : ∀ ms, (L1 k).data = .multisig ms → 1 ≤ ms.m)
    (h : Js.singleSignerWrap env args L = .ok r)
    (hrun : (⟨payer, [.call r.ix]⟩ : Message).run env demoted L1 = .ok L2) :
    k = payer ∨ ∃ ms, (L1 k).data = .multisig ms ∧ payer ∈ ms.signers := by
  obtain ⟨u, uprog, W, A, n, hr, hn, hix⟩ := js_wrap_ok h
  have hk : jsAuthority args.transferAuthority args.payer = ⟨k, false⟩ := by rw [ha]; rfl
  have hno : ∀ s ∈ requiredSigners payer [.call r.ix], s = payer := by
    intro s hs
    rcases requiredSigners_call.1 hs with rfl | ⟨m, hm, _, hsg⟩
    · rfl
    · rw [hix] at hm
      simp only [hk, List.append_nil, List.mem_cons, List.not_mem_nil, or_false] at hm
      rcases hm with rfl | rfl | rfl | rfl | rfl | rfl | rfl | rfl | rfl <;> simp [Meta.rw, Meta.ro] at hsg
  obtain ⟨L0, h0, t, m, _, _, happ, _⟩ := transaction_wrap_authorised (sigs := fun s => s = payer)
    (pre := []) (post := []) hno (by rw [hix]; rfl) hrun
  cases h0
  simp only [hk, Meta.ro] at happ
  rcases happ with h | ⟨ms, members, h1, h2, h3, h4⟩
  · exact .inl h
  · have := hms ms h1
    cases members with
    | nil => simp at h3; omega
    | cons x xs =>
      refine .inr ⟨ms, h1, ?_⟩
      rw [← h4 x (by simp)]
      exact h2.subset (by simp)

/-- **C62** And it is enough that the address is the fee payer: the transaction does the same as if the
authority had been given as a signer. -/
theorem js_wrap_plain_payer {args : Js.WrapArgs} {r r' : Js.WrapResult} {payer : Pubkey}
    (ha : args.transferAuthority = some ⟨payer, false⟩)
    (h : Js.singleSignerWrap env args L = .ok r)
    (h' : Js.singleSignerWrap env { args with transferAuthority := some ⟨payer, true⟩ } L = .ok r')
    (L1 : Ledger) :
    (⟨payer, [.call r.ix]⟩ : Message).run env demoted L1 =
      (⟨payer, [.call r'.ix]⟩ : Message).run env demoted L1 := by
  have hix : ∃ a d, r.ix = ⟨crateId, a ++ [⟨payer, false, false⟩], d⟩ ∧
      r'.ix = ⟨crateId, a ++ [⟨payer, true, false⟩], d⟩ := by
    simp only [Js.singleSignerWrap, Js.buildWrapIx, Js.wrapIx, bind_ok_iff, okOr_ok_iff,
      pure_ok_iff, ha, Option.getD_some] at h h'
    obtain ⟨u, hu, uprog, hp, W, hW, A, hA, rcp, hr, E, hE, ix, ⟨E', hE', b, hb, rfl⟩, rfl⟩ := h
    obtain ⟨u', hu', uprog', hp', W', hW', A', hA', rcp', hr', E1, hE1, ix', ⟨E2, hE2, b', hb', rfl⟩,
      rfl⟩ := h'
    rw [hu] at hu'; cases hu'
    rw [hp] at hp'; cases hp'
    rw [hW] at hW'; cases hW'
    rw [hA] at hA'; cases hA'
    rw [hr] at hr'; cases hr'
    rw [hE] at hE'; cases hE'
    rw [hE] at hE2; cases hE2
    rw [hb] at hb'; cases hb'
    exact ⟨[.rw rcp false, .rw W false, .ro A false, .ro uprog false,
      .ro args.wrappedTokenProgram false, .rw args.unwrappedTokenAccount false, .ro u false,
      .rw E false], 1 :: b, by simp [Js.metaOf], by simp [Js.metaOf]⟩
  obtain ⟨a, d, e1, e2⟩ := hix
  have hc : ∀ m, (⟨payer, [.call r.ix]⟩ : Message).compileMeta env.cr demoted m =
      (⟨payer, [.call r'.ix]⟩ : Message).compileMeta env.cr demoted m := by
    intro m
    simp only [Message.compileMeta, Message.isSigner, Message.isWritable, e1, e2, ClientIx.metas,
      List.any_cons, List.any_nil, List.any_append, Bool.or_false, Meta.mk.injEq, true_and]
    refine ⟨?_, ?_⟩
    · by_cases hm : m.key = payer
      · simp [hm]
      · simp [hm, Ne.symm hm]
    · simp
  unfold Message.run
  have hm : (⟨payer, [.call r.ix]⟩ : Message).compileMeta env.cr demoted =
      (⟨payer, [.call r'.ix]⟩ : Message).compileMeta env.cr demoted := funext hc
  simp only [List.map_cons, List.map_nil, Message.compileIx, hm]
  rw [e1, e2]
  simp only [List.map_append, List.map_cons, List.map_nil, Message.compileMeta]

end

/-! ## Concrete instances -/

namespace Example.Msg

open TokenWrap.Example

/-- The wrap of the examples as a message, with the programs demoted: it runs, and with the flags of
the message the payer's own account is writable although the instruction did not ask for it. -/
def wrapMsg : Message := txW.message
def demotedKeys : List Pubkey := [crateId, systemId, token2022Id, splTokenId]

example : ok (wrapMsg.run env demotedKeys L0) = true := by decide +kernel
example : wrapMsg.isWritable env.cr demotedKeys user = true ∧ wrapMsg.isSigner env.cr user = true ∧
    wrapMsg.isSigner env.cr issuer = false := by decide +kernel
/-- The hypotheses of `message_runs_instructions` are met by it. -/
example : (∀ ix, .call ix ∈ wrapMsg.instructions → ∀ m ∈ ix.accounts, m.writable = true →
      m.key ∉ demotedKeys) ∧
    (∀ ix, .call ix ∈ wrapMsg.instructions → ∀ m ∈ ix.accounts.drop 9, m.signer = true) ∧
    ok (runClient env wrapMsg.instructions L0) = true := by
  refine ⟨?_, ?_, by decide +kernel⟩
  · intro ix hix m hm hw
    simp only [wrapMsg, txW, CliTx.message, List.mem_singleton, ClientIx.call.injEq] at hix
    subst hix
    have := build_wrap_writable m hm hw
    revert this
    generalize m.key = k
    revert k
    decide +kernel
  · intro ix hix
    simp only [wrapMsg, txW, CliTx.message, List.mem_singleton, ClientIx.call.injEq] at hix
    subst hix
    exact build_wrap_trailing

/-- Two instructions in one message: the owner signs only because of the second one, and that is
enough for the first. -/
def twoMsg : Message :=
  ⟨issuer, [.call { Build.wrap crateId rcp W A token2022Id splTokenId src u E user [] 1000 with
      accounts := wrapAccounts.map fun m => { m with signer := false } },
    .call (Build.unwrap crateId E src A u splTokenId token2022Id rcp W user [] 7)]⟩
example : ok (twoMsg.run env demotedKeys L0) = true ∧ ok (runClient env twoMsg.instructions L0) = false := by
  decide +kernel

/-- A plain address works when it is the payer, and not otherwise. -/
def jsPlain : Js.WrapArgs := { jsW with transferAuthority := some ⟨user, false⟩ }
example : (match Js.singleSignerWrap env jsPlain L0 with
    | .ok r => ok ((⟨user, [.call r.ix]⟩ : Message).run env demotedKeys L0) &&
        !ok ((⟨issuer, [.call r.ix]⟩ : Message).run env demotedKeys L0)
    | .error _ => false) = true := by decide +kernel

end Example.Msg

end TokenWrap
