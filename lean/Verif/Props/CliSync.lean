import Verif.Props.Message
/-!
# The CLI's metadata commands as transactions (C77)
-/

namespace TokenWrap

open TokenWrapInstruction

section
variable {env : Env} {L L1 L2 : Ledger} {payer : CliSigner} {u : Pubkey} {source program : Option Pubkey}
  {tx : CliTx} {demoted : List Pubkey}

/-- Specification: a transaction with one instruction that only its fee payer signs and pays for. -/
def OnlyPayer (tx : CliTx) (payer : CliSigner) (ix : Instr) : Prop :=
  tx.payer = payer.key ∧ tx.instructions = [.call ix] ∧
    (∀ k, k ∈ requiredSigners tx.payer tx.instructions ↔ k = payer.key) ∧
    (payer.real = true → tx.FullySigned)

/-- Specification: the source account the Token-2022 command uses. -/
def SourceUsed (env : Env) (u : Pubkey) (source : Option Pubkey) (L : Ledger) (k : Option Pubkey) :
    Prop :=
  (source.isSome ∧ k = source) ∨ (source = none ∧ cliResolveSource env u L = .ok k)

theorem onlyPayer_of {ix : Instr} (hix : ∀ m ∈ ix.accounts, m.signer = false) :
    OnlyPayer ⟨payer.key, [.call ix], [payer]⟩ payer ix := by
  have hreq : ∀ k, k ∈ requiredSigners payer.key [.call ix] ↔ k = payer.key := by
    intro k
    simp only [requiredSigners, List.flatMap_cons, List.flatMap_nil, List.append_nil, List.mem_cons,
      ClientIx.signerKeys, List.mem_map, List.mem_filter]
    constructor
    · rintro (h | ⟨m, ⟨hm, hs⟩, _⟩)
      · exact h
      · rw [hix m hm] at hs; cases hs
    · exact .inl
  refine ⟨rfl, rfl, hreq, fun hr k hk => ?_⟩
  have := (hreq k).1 hk
  subst this
  simp [CliTx.hasSignature, hr]

theorem sync22_metas_unsigned {pid W A : Pubkey} {k p : Option Pubkey} :
    ∀ m ∈ (Build.syncMetadataToToken2022 pid W A u k p).accounts, m.signer = false := by
  intro m hm
  simp only [Build.syncMetadataToToken2022, List.mem_append, List.mem_cons, List.not_mem_nil, or_false,
    List.mem_map] at hm
  rcases hm with (rfl | rfl | rfl | rfl) | ⟨_, _, rfl⟩ <;> rfl

theorem syncSpl_metas_unsigned {pid X W A : Pubkey} {k p : Option Pubkey} :
    ∀ m ∈ (Build.syncMetadataToSplToken pid X A W u k p).accounts, m.signer = false := by
  intro m hm
  simp only [Build.syncMetadataToSplToken, List.mem_append, List.mem_cons, List.not_mem_nil, or_false,
    List.mem_map] at hm
  rcases hm with (rfl | rfl | rfl | rfl | rfl | rfl | rfl) | ⟨_, _, rfl⟩ <;> rfl

/-- **C77** `sync-metadata-to-token2022` sends one instruction on the derived wrapped mint and
authority, with the source account given or resolved; the fee payer is the only signer, and a metadata
program is only accepted together with a source account. -/
theorem cli_sync22_transaction (h : cliSync22 env payer u source program L = .ok tx) :
    ∃ W A k, wrappedMintAddress env.cr u token2022Id = some W ∧ authorityAddress env.cr W = some A ∧
      SourceUsed env u source L k ∧ (program.isSome → source.isSome ∧ k.isSome) ∧
      OnlyPayer tx payer (Build.syncMetadataToToken2022 crateId W A u k program) := by
  unfold cliSync22 at h
  simp only [bind_ok_iff, require_ok_iff, okOr_ok_iff] at h
  obtain ⟨_, harg, W, hW, A, hA, k, hk, hp⟩ := h
  have hk' : SourceUsed env u source L k := by
    cases source with
    | some s => simp only [pure_ok_iff] at hk; exact .inl ⟨rfl, hk.symm⟩
    | none => exact .inr ⟨rfl, hk⟩
  obtain ⟨rfl, _⟩ := partialSign_ok hp
  refine ⟨W, A, k, hW, hA, hk', ?_, onlyPayer_of sync22_metas_unsigned⟩
  intro hpr
  have hs : source.isSome = true := by
    cases program with
    | none => cases hpr
    | some _ => simpa using harg
  refine ⟨hs, ?_⟩
  rcases hk' with ⟨_, rfl⟩ | ⟨rfl, _⟩
  · exact hs
  · cases hs

/-- **C77** `sync-metadata-to-spl-token` sends one instruction on the derived wrapped mint, authority
and Metaplex account, with exactly the source and owner program given; the fee payer is the only
signer. -/
theorem cli_syncSpl_transaction (h : cliSyncSpl env payer u source program = .ok tx) :
    ∃ W A X, wrappedMintAddress env.cr u splTokenId = some W ∧ authorityAddress env.cr W = some A ∧
      metaplexPda env.cr W = some X ∧
      OnlyPayer tx payer (Build.syncMetadataToSplToken crateId X A W u source program) := by
  unfold cliSyncSpl at h
  simp only [bind_ok_iff, okOr_ok_iff] at h
  obtain ⟨W, hW, A, hA, X, hX, hp⟩ := h
  obtain ⟨rfl, _⟩ := partialSign_ok hp
  exact ⟨W, A, X, hW, hA, hX, onlyPayer_of syncSpl_metas_unsigned⟩

theorem compiled_optional {f : Meta → Meta} (hf : ∀ m, (f m).key = m.key) (k p : Option Pubkey)
    (hkp : p.isSome → k.isSome) :
    (((k.toList ++ p.toList).map (fun x => f (Meta.ro x false)))[0]?.map (·.key)) = k ∧
    (((k.toList ++ p.toList).map (fun x => f (Meta.ro x false)))[1]?.map (·.key)) = p := by
  cases k with
  | none =>
    cases p with
    | none => exact ⟨rfl, rfl⟩
    | some _ => cases hkp rfl
  | some k =>
    cases p with
    | none => simp [hf, Meta.ro]
    | some p => simp [hf, Meta.ro]

theorem run_single_keys {ix : Instr} {payer : Pubkey}
    (h : (⟨payer, [.call ix]⟩ : Message).run env demoted L1 = .ok L2) :
    ∃ f : Meta → Meta, (∀ m, (f m).key = m.key) ∧
      processInstruction env (ix.accounts.map f) ix.data L1 = .ok L2 :=
  ⟨(⟨payer, [.call ix]⟩ : Message).compileMeta env.cr demoted, fun _ => rfl, run_single.1 h⟩

/-- **C77** Whatever happened to the chain since the command looked at it: if the transaction succeeds,
the wrapped Token-2022 mint of the unwrapped mint named shows exactly the metadata of the source
account given or resolved, as the program reads it at that moment. -/
theorem cli_sync22_effect (hord : FairOrder env) (h : cliSync22 env payer u source program L = .ok tx)
    (hrun : tx.message.run env demoted L1 = .ok L2) :
    ∃ W k src m' md', wrappedMintAddress env.cr u token2022Id = some W ∧
      SourceUsed env u source L k ∧ MetadataSource env L1 u k program src ∧
      (L2 W).data = .mint m' ∧ m'.tokenMetadata? = some md' ∧
      (UniqueKeys L1 W → SameMetadata md' src) := by
  obtain ⟨W, A, k, hW, hA, hk, hso, hpay, hins, _⟩ := cli_sync22_transaction h
  have hm : tx.message = ⟨payer.key, [.call (Build.syncMetadataToToken2022 crateId W A u k program)]⟩ := by
    rw [CliTx.message, hpay, hins]
  rw [hm] at hrun
  obtain ⟨f, hf, hrun⟩ := run_single_keys hrun
  obtain ⟨e1, e2⟩ := compiled_optional hf k program (fun hp => (hso hp).2)
  simp only [Build.syncMetadataToToken2022] at hrun
  rw [List.map_append, List.map_map] at hrun
  simp only [List.map_cons, List.map_nil] at hrun
  obtain ⟨W', A', u', t', rest, src, m', md', hacc, hW', hsrc, hd, htm, hsame⟩ :=
    sync22_equals_source hord hrun
  simp only [List.cons_append, List.nil_append, List.cons.injEq] at hacc
  obtain ⟨rfl, rfl, rfl, rfl, rfl⟩ := hacc
  simp only [hf, Meta.ro, Meta.rw] at hW' hsrc hd hsame
  rw [show ((k.toList ++ program.toList).map (f ∘ fun k => (⟨k, false, false⟩ : Meta)))[0]?.map (·.key) = k
    from e1, show ((k.toList ++ program.toList).map (f ∘ fun k => (⟨k, false, false⟩ : Meta)))[1]?.map
      (·.key) = program from e2] at hsrc
  exact ⟨W, k, src, m', md', hW, hk, hsrc, hd, htm, hsame⟩

/-- **C77** If the transaction of `sync-metadata-to-spl-token` succeeds, the Metaplex account of the
wrapped SPL Token mint shows the converted metadata of the source given.  (With an owner program but
no source account the owner program would be taken for the source, so that case is excluded here; see
`cli_syncSpl_owner_only`.) -/
theorem cli_syncSpl_effect (hso : program.isSome → source.isSome)
    (h : cliSyncSpl env payer u source program = .ok tx)
    (hrun : tx.message.run env demoted L1 = .ok L2) :
    ∃ W A X src d md', wrappedMintAddress env.cr u splTokenId = some W ∧
      authorityAddress env.cr W = some A ∧ metaplexPda env.cr W = some X ∧
      MetadataSource env L1 u source program src ∧ IsConverted env src d ∧
      (L2 X).owner = metaplexId ∧ (L2 X).data = .metaplex md' ∧ ShowsData env md' d ∧
      md'.updateAuthority = A ∧ OnlyChanged [X, A] L1 L2 := by
  obtain ⟨W, A, X, hW, hA, hX, hpay, hins, _⟩ := cli_syncSpl_transaction h
  have hm : tx.message =
      ⟨payer.key, [.call (Build.syncMetadataToSplToken crateId X A W u source program)]⟩ := by
    rw [CliTx.message, hpay, hins]
  rw [hm] at hrun
  obtain ⟨f, hf, hrun⟩ := run_single_keys hrun
  obtain ⟨e1, e2⟩ := compiled_optional hf source program hso
  simp only [Build.syncMetadataToSplToken] at hrun
  rw [List.map_append, List.map_map] at hrun
  simp only [List.map_cons, List.map_nil] at hrun
  obtain ⟨X', A', W', u', mp, sys, rent, rest, src, d, md', hacc, _, _, _, hsrc, hconv, hown, hd,
    hshow, hor⟩ := syncSpl_writes hrun
  simp only [List.cons_append, List.nil_append, List.cons.injEq] at hacc
  obtain ⟨rfl, rfl, rfl, rfl, rfl, rfl, rfl, rfl⟩ := hacc
  simp only [hf, Meta.ro, Meta.rw] at hsrc hown hd hor
  rw [show ((source.toList ++ program.toList).map (f ∘ fun k => (⟨k, false, false⟩ : Meta)))[0]?.map
      (·.key) = source from e1,
    show ((source.toList ++ program.toList).map (f ∘ fun k => (⟨k, false, false⟩ : Meta)))[1]?.map
      (·.key) = program from e2] at hsrc
  refine ⟨W, A, X, src, d, md', hW, hA, hX, hsrc, hconv, hown, hd, hshow, ?_, ?_⟩
  · rcases hor with ⟨md, _, hsr, hua, _⟩ | ⟨_, hua, _⟩
    · exact hsr.updateAuthority.trans hua
    · exact hua
  · rcases hor with ⟨md, _, _, _, _, ho⟩ | ⟨_, _, _, _, _, ho, _⟩
    · intro k hk; exact ho k (by simp_all)
    · exact ho

/-- **C77** (boundary) `--owner-program` without `--source-metadata` is accepted by
`sync-metadata-to-spl-token` and sends the very transaction of `--source-metadata` with that address:
the program would read the owner program's own account as the source. -/
theorem cli_syncSpl_owner_only (p : Pubkey) :
    cliSyncSpl env payer u none (some p) = cliSyncSpl env payer u (some p) none := rfl

/-- **C77** (boundary) `sync-metadata-to-spl-token` resolves nothing: without arguments it can only
succeed for a Token-2022 mint that carries its metadata itself. -/
theorem cli_syncSpl_no_arguments (h : cliSyncSpl env payer u none none = .ok tx)
    (hrun : tx.message.run env demoted L1 = .ok L2) :
    HasPointer L1 u (some (some u)) := by
  obtain ⟨_, _, _, src, _, _, _, _, _, hsrc, _⟩ := cli_syncSpl_effect (by simp) h hrun
  cases hsrc with
  | self h _ _ => exact h

end

section
variable {env : Env} {L : Ledger} {payer : CliSigner} {u : Pubkey} {source program : Option Pubkey}
  {demoted : List Pubkey}

theorem run_unsigned_short {p : Pubkey} {ix : Instr} {L' : Ledger} (hlen : ix.accounts.length ≤ 9)
    (hw : ∀ m ∈ ix.accounts, m.writable = true → m.key ∉ demoted)
    (h : processInstruction env ix.accounts ix.data L = .ok L') :
    (⟨p, [.call ix]⟩ : Message).run env demoted L = .ok L' := by
  refine message_runs_instructions ?_ ?_ (runClient_call.2 h)
  · intro ix' hix
    simp only [List.mem_singleton, ClientIx.call.injEq] at hix
    subst hix; exact hw
  · intro ix' hix m hm
    simp only [List.mem_singleton, ClientIx.call.injEq] at hix
    subst hix
    rw [List.drop_eq_nil_of_le hlen] at hm
    cases hm

/-- **C77** With no arguments the transaction of `sync-metadata-to-token2022` succeeds whenever the
metadata is readable without a third-party program, and with the right arguments whenever it is
readable at all, on a wrapped mint as CreateMint and earlier syncs leave it. -/
theorem cli_sync22_message_succeeds {W A : Pubkey} {sk : Option Pubkey} {m : Mint} {src : TokenMetadata}
    (hid : env.programId = crateId) (hord : FairOrder env) (hacc : AcceptsMetadata env)
    (hW : wrappedMintAddress env.cr u token2022Id = some W)
    (hA : authorityAddress env.cr W = some A) (hpda : (metaplexPda env.cr u).isSome)
    (hul : (L u).lamports ≠ 0)
    (hsrc : MetadataSource env L u sk program src)
    (hargs : (source = none ∧ program = none) ∨ (source = sk ∧ sk.isSome))
    (ho : (L W).owner = token2022Id) (hd : (L W).data = .mint m)
    (hma : m.mintAuthority = some A) (hptr : m.metadataPointer?.isSome = true)
    (hmd : ∀ md, m.tokenMetadata? = some md →
      md.updateAuthority = some A ∧ (md.additional.map (·.1)).Nodup)
    (hdem : W ∉ demoted) :
    ∃ tx L', cliSync22 env payer u source program L = .ok tx ∧
      tx.message.run env demoted L = .ok L' := by
  have key : ∃ k, SourceUsed env u source L k ∧ MetadataSource env L u k program src ∧
      (program.isSome → source.isSome ∧ k.isSome) := by
    rcases hargs with ⟨rfl, rfl⟩ | ⟨rfl, hs⟩
    · obtain ⟨k, hk, h⟩ := cli_source_complete hul hpda hsrc
      exact ⟨k, .inr ⟨rfl, hk⟩, h, by simp⟩
    · exact ⟨source, .inl ⟨hs, rfl⟩, hsrc, fun _ => ⟨hs, hs⟩⟩
  obtain ⟨k, hk, hs, hpk⟩ := key
  obtain ⟨L', hL'⟩ := sync22_succeeds hid hord hacc (fun h => (hpk h).2) hW hA hs ho hd hma hptr hmd
  refine ⟨⟨payer.key, [.call (Build.syncMetadataToToken2022 crateId W A u k program)], [payer]⟩, L', ?_, ?_⟩
  · unfold cliSync22
    have hreq : (program.isNone || source.isSome) = true := by
      cases program with
      | none => rfl
      | some _ => simpa using (hpk rfl).1
    simp only [hreq, require_true, ok_bind, hW, okOr_some, hA]
    rcases hk with ⟨h1, h2⟩ | ⟨h1, h2⟩
    · cases source with
      | none => cases h1
      | some s =>
        subst h2
        exact partialSign_eq (by simp [requiredSigners])
    · subst h1
      rw [h2, ok_bind]
      exact partialSign_eq (by simp [requiredSigners])
  · refine run_unsigned_short ?_ ?_ hL'
    · cases k <;> cases program <;> simp [Build.syncMetadataToToken2022]
    · intro x hx hw
      simp only [Build.syncMetadataToToken2022, List.mem_append, List.mem_cons, List.not_mem_nil,
        or_false, List.mem_map] at hx
      rcases hx with (rfl | rfl | rfl | rfl) | ⟨_, _, rfl⟩
      · exact hdem
      all_goals simp [Meta.ro] at hw

/-- **C77** Given the right source (and owner program), the transaction of
`sync-metadata-to-spl-token` succeeds whenever the metadata converts, Metaplex accepts it, and its
account exists under the authority's control or the authority can pay for it. -/
theorem cli_syncSpl_succeeds {W A X : Pubkey} {m : Mint} {src : TokenMetadata} {d : DataV2}
    (hid : env.programId = crateId) (hso : program.isSome → source.isSome)
    (hW : wrappedMintAddress env.cr u splTokenId = some W)
    (hA : authorityAddress env.cr W = some A) (hX : metaplexPda env.cr W = some X)
    (hsrc : MetadataSource env L u source program src)
    (hap : AllParse env src.additional) (hc : IsConverted env src d)
    (hrej : ∀ s, env.mplReject s X d L = none)
    (ho : (L W).owner = splTokenId) (hd : (L W).data = .mint m) (hma : m.mintAuthority = some A)
    (hX' : ((L X).data = .bytes [] ∧ (L X).owner = systemId ∧ (L A).owner = systemId ∧
        env.mplCost (L X).lamports ≤ (L A).lamports) ∨
      ∃ md, (L X).data = .metaplex md ∧ (L X).owner = metaplexId ∧ md.updateAuthority = A ∧
        md.isMutable = true)
    (hdX : X ∉ demoted) (hdA : A ∉ demoted) :
    ∃ tx L', cliSyncSpl env payer u source program = .ok tx ∧
      tx.message.run env demoted L = .ok L' := by
  obtain ⟨L', hL'⟩ := syncSpl_succeeds hid hso hW hA hX hsrc hap hc hrej ho hd hma hX'
  refine ⟨⟨payer.key, [.call (Build.syncMetadataToSplToken crateId X A W u source program)], [payer]⟩,
    L', ?_, ?_⟩
  · unfold cliSyncSpl
    simp only [hW, okOr_some, ok_bind, hA, hX]
    exact partialSign_eq (by simp [requiredSigners])
  · refine run_unsigned_short ?_ ?_ hL'
    · cases source <;> cases program <;> simp [Build.syncMetadataToSplToken]
    · intro x hx hw
      simp only [Build.syncMetadataToSplToken, List.mem_append, List.mem_cons, List.not_mem_nil,
        or_false, List.mem_map] at hx
      rcases hx with (rfl | rfl | rfl | rfl | rfl | rfl | rfl) | ⟨_, _, rfl⟩
      · exact hdX
      · exact hdA
      all_goals simp [Meta.ro] at hw

end

/-! ## Concrete instances -/

namespace Example.CliSync

open TokenWrap.Example TokenWrap.Example.Msg

/-- Both commands with the fee payer `user`, on a mint that carries its own metadata. -/
example : (match cliSync22 env userS u none none (Lsync [.tokenMetadata oldMd]) with
    | .ok tx => ok (tx.message.run env demotedKeys (Lsync [.tokenMetadata oldMd]))
    | .error _ => false) = true := by decide +kernel
example : (match cliSyncSpl env userS u none none with
    | .ok tx => ok (tx.message.run env demotedKeys Lspl)
    | .error _ => false) = true := by decide +kernel
/-- A metadata program alone is refused by the one and misread by the other. -/
example : (match cliSync22 env userS u none (some src) (Lsync []) with
    | .error .argumentMismatch => true
    | _ => false) = true := by decide +kernel
example : (match cliSyncSpl env userS u none (some src) with
    | .ok tx => tx.instructions == [.call (Build.syncMetadataToSplToken crateId X A W u (some src) none)]
    | .error _ => false) = true := by decide +kernel
/-- The hypotheses of `cli_syncSpl_succeeds` are met. -/
example : MetadataSource env Lspl u none none someMd :=
  .self ⟨by decide +kernel, uMint [.metadataPointer none (some u), .tokenMetadata someMd],
    by decide +kernel, by decide +kernel⟩ (m := uMint [.metadataPointer none (some u), .tokenMetadata someMd])
    (by decide +kernel) (by decide +kernel)
example : X ∉ demotedKeys ∧ A ∉ demotedKeys ∧ Ws ∉ demotedKeys := by decide +kernel

end Example.CliSync

end TokenWrap
