import Verif.ProcessorLemmas
/-! # Effects of a successful CreateMint -/

set_option linter.unusedSimpArgs false

namespace TokenWrap

theorem cpiCheck_inv {caller : List Meta} {pdas borrowed : List Pubkey} {callee : Pubkey}
    {metas : List Meta} {x : Unit} (h : cpiCheck caller pdas borrowed callee metas = .ok x) :
    (∀ m ∈ metas, m.writable = true → m.key ∉ borrowed) ∧ (∃ c ∈ caller, c.key = callee) ∧
    (∀ m ∈ metas, metaAllowed caller pdas m = true) := by
  unfold cpiCheck at h
  simp only [bind_ok_iff, require_ok_iff] at h
  obtain ⟨_, h2, _, h3, h4⟩ := h
  simp at h2 h3 h4
  refine ⟨?_, h3, h4⟩
  intro m hm hw
  have := h2 m hm
  simp [hw] at this
  exact this

theorem invokeAllocate_inv {caller : List Meta} {pdas : List Pubkey} {key : Pubkey} {space : Nat}
    {L L' : Ledger} (h : invokeAllocate caller pdas key space L = .ok L') :
    metaAllowed caller pdas ⟨key, true, true⟩ = true ∧ (L key).data = .bytes [] ∧
    (L key).owner = systemId ∧ L' = L.setData key (.bytes (List.replicate space 0)) := by
  unfold invokeAllocate sysAllocate at h
  simp only [bind_ok_iff, require_ok_iff, pure_ok_iff, Bool.and_eq_true, decide_eq_true_eq] at h
  obtain ⟨_, hc, _, _, _, ⟨h1, h2⟩, h3⟩ := h
  exact ⟨(cpiCheck_inv hc).2.2 _ (by simp), h1, h2, h3.symm⟩

theorem invokeAssign_inv {caller : List Meta} {pdas : List Pubkey} {key owner : Pubkey}
    {L L' : Ledger} (h : invokeAssign caller pdas key owner L = .ok L') :
    metaAllowed caller pdas ⟨key, true, true⟩ = true ∧
    L' = L.set key { L key with owner := owner } := by
  unfold invokeAssign sysAssign at h
  simp only [bind_ok_iff] at h
  obtain ⟨_, hc, h⟩ := h
  refine ⟨(cpiCheck_inv hc).2.2 _ (by simp), ?_⟩
  split at h
  · rename_i he
    cases h
    rw [← he]
    exact (Ledger.set_self L key).symm
  · simp only [bind_ok_iff, require_ok_iff, pure_ok_iff] at h
    obtain ⟨_, _, _, _, h⟩ := h
    exact h.symm

theorem tokenExec_ok {env : Env} {prog : Pubkey} {ix : TokenIx}
    {signed : Pubkey → Bool} {L L' : Ledger} (h : tokenExec env prog ix signed L = .ok L') :
    env.reject prog ix signed L = none := tokenExec_not_rejected h

theorem initMintExtExec_inv {prog mint : Pubkey} {ext : MintExt} {L L' : Ledger}
    (h : initMintExtExec prog L mint ext = .ok L') :
    prog = token2022Id ∧ (L mint).owner = prog ∧
    ((∃ b, (L mint).data = .bytes b ∧ b.all (· = 0) = true ∧
        L' = L.setData mint (.preMint b.length [ext])) ∨
     (∃ space exts, (L mint).data = .preMint space exts ∧
        L' = L.setData mint (.preMint space (exts ++ [ext])))) := by
  unfold initMintExtExec at h
  simp only [bind_ok_iff, require_ok_iff, decide_eq_true_eq] at h
  obtain ⟨_, h1, _, h2, _, _, h⟩ := h
  refine ⟨h1, h2, ?_⟩
  split at h
  · rename_i b hb
    simp only [bind_ok_iff, require_ok_iff, pure_ok_iff] at h
    obtain ⟨_, h3, _, _, h⟩ := h
    exact .inl ⟨b, hb, h3, h.symm⟩
  · rename_i space exts hb
    simp only [bind_ok_iff, require_ok_iff, pure_ok_iff] at h
    obtain ⟨_, h3, _, _, h⟩ := h
    exact .inr ⟨space, exts, hb, h.symm⟩
  · cases h

theorem preMintExts_inv {d : Data} {exts : List MintExt} (h : preMintExts d = .ok exts) :
    (exts = [] ∧ ∃ b, d = .bytes b ∧ b.all (· = 0) = true ∧ b.length = 82) ∨
    (∃ space, d = .preMint space exts ∧ space = mintAccountLen (exts.map MintExt.valueLen)) := by
  unfold preMintExts at h
  split at h
  · rename_i b
    simp only [bind_ok_iff, require_ok_iff, pure_ok_iff, decide_eq_true_eq] at h
    obtain ⟨_, h1, _, h2, h3⟩ := h
    exact .inl ⟨h3.symm, b, rfl, h1, h2⟩
  · simp only [bind_ok_iff, require_ok_iff, pure_ok_iff, decide_eq_true_eq] at h
    obtain ⟨_, h1, h2⟩ := h
    subst h2
    exact .inr ⟨_, rfl, h1⟩
  · cases h

theorem initializeMint2Exec_inv {env : Env} {prog mint ma : Pubkey} {fa : Option Pubkey}
    {dec : UInt8} {L L' : Ledger} (h : initializeMint2Exec env prog L mint ma fa dec = .ok L') :
    (L mint).owner = prog ∧ ∃ exts, preMintExts (L mint).data = .ok exts ∧
    L' = L.setData mint (.mint
      { mintAuthority := some ma, supply := 0, decimals := dec, freezeAuthority := fa, exts }) := by
  unfold initializeMint2Exec at h
  simp only [bind_ok_iff, require_ok_iff, pure_ok_iff, decide_eq_true_eq] at h
  obtain ⟨_, h1, _, _, exts, h2, h3⟩ := h
  exact ⟨h1, exts, h2, h3.symm⟩

theorem initializeMint2Exec_rent {env : Env} {prog mint ma : Pubkey} {fa : Option Pubkey}
    {dec : UInt8} {L L' : Ledger} (h : initializeMint2Exec env prog L mint ma fa dec = .ok L') :
    env.rentMin (L mint).data.len ≤ (L mint).lamports := by
  unfold initializeMint2Exec at h
  simp only [bind_ok_iff, require_ok_iff, pure_ok_iff, decide_eq_true_eq] at h
  obtain ⟨_, _, _, h2, _⟩ := h
  exact h2

theorem parseCreateMint_ok_iff {accounts : List Meta} {a : CreateMintAccounts} :
    parseCreateMint accounts = .ok a ↔ ∃ rest,
      accounts = [a.wrappedMint, a.backpointer, a.unwrappedMint, a.systemProgram,
        a.wrappedTokenProgram] ++ rest := by
  unfold parseCreateMint
  split
  · rename_i a1 a2 a3 a4 a5 rest
    constructor
    · intro h; cases h; exact ⟨rest, rfl⟩
    · rintro ⟨r, h⟩; cases a; simp at h ⊢; obtain ⟨h1, h2, h3, h4, h5, h6⟩ := h
      exact ⟨h1, h2, h3, h4, h5⟩
  · rename_i hno
    constructor
    · intro h; cases h
    · rintro ⟨r, h⟩; exact absurd h (by simpa using hno _ _ _ _ _ _)

/-- What every successful CreateMint has validated. -/
structure CreateMintCtx (env : Env) (accounts : List Meta) (L : Ledger) (a : CreateMintAccounts) :
    Prop where
  accounts_eq : ∃ rest, accounts = [a.wrappedMint, a.backpointer, a.unwrappedMint, a.systemProgram,
        a.wrappedTokenProgram] ++ rest
  mint : wrappedMintAddress env.cr a.unwrappedMint.key a.wrappedTokenProgram.key =
    some a.wrappedMint.key
  bp : backpointerAddress env.cr a.wrappedMint.key = some a.backpointer.key
  uOwner : (L a.unwrappedMint.key).owner = splTokenId ∨ (L a.unwrappedMint.key).owner = token2022Id

/-- Either nothing was done (idempotent call on existing accounts) or both accounts were created. -/
theorem processCreateMint_inv {env : Env} {M : Customizer} {accounts : List Meta}
    {idempotent : Bool} {L L' : Ledger}
    (h : processCreateMint env M accounts idempotent L = .ok L') :
    ∃ a, CreateMintCtx env accounts L a ∧
      ((idempotent = true ∧ L' = L ∧
        (0 < (L a.wrappedMint.key).data.len ∨ 0 < (L a.backpointer.key).data.len) ∧
        (L a.wrappedMint.key).owner = a.wrappedTokenProgram.key ∧
        (L a.backpointer.key).owner = env.programId) ∨
       (∃ mb bb L1, (L a.wrappedMint.key).data.len = 0 ∧ (L a.backpointer.key).data.len = 0 ∧
        wrappedMintWithSeed env.cr a.unwrappedMint.key a.wrappedTokenProgram.key =
          some (a.wrappedMint.key, mb) ∧
        backpointerWithSeed env.cr a.wrappedMint.key = some (a.backpointer.key, bb) ∧
        createMintInit env M accounts a mb L = .ok L1 ∧
        createBackpointer env accounts a bb L1 = .ok L')) := by
  unfold processCreateMint at h
  inv_ok at h
  obtain ⟨a, ha, ⟨w, mb⟩, hw, ⟨b, bb⟩, hb, _, h1, _, h2, _, h3, h⟩ := h
  dsimp only at h1 h2 h
  subst h1; subst h2
  simp only [Bool.or_eq_true, decide_eq_true_eq] at h3
  refine ⟨a, ⟨parseCreateMint_ok_iff.1 ha, wrappedMintAddress_some.2 ⟨_, hw⟩,
    backpointerAddress_some.2 ⟨_, hb⟩, h3⟩, ?_⟩
  split at h
  · rename_i hc
    inv_ok at h
    obtain ⟨_, i1, _, i2, _, i3, i4⟩ := h
    exact .inl ⟨i1, i4.symm, hc, i2, i3⟩
  · rename_i hc
    inv_ok at h
    obtain ⟨L1, i1, i2⟩ := h
    right
    refine ⟨mb, bb, L1, ?_, ?_, hw, hb, i1, i2⟩ <;> omega

/-- Effect of creating the backpointer. -/
theorem createBackpointer_inv {env : Env} {accounts : List Meta} {a : CreateMintAccounts}
    {bump : UInt8} {L L' : Ledger} (h : createBackpointer env accounts a bump L = .ok L') :
    env.rentMin 32 ≤ (L a.backpointer.key).lamports ∧
    (L a.backpointer.key).data = .bytes [] ∧ (L a.backpointer.key).owner = systemId ∧
    L' = L.set a.backpointer.key
      ⟨(L a.backpointer.key).lamports, env.programId, .bytes a.unwrappedMint.key.bytes⟩ := by
  unfold createBackpointer at h
  inv_ok at h
  obtain ⟨_, h1, pda, _, L1, h2, L2, h3, _, _, h4⟩ := h
  obtain ⟨_, d1, d2, rfl⟩ := invokeAllocate_inv h2
  obtain ⟨_, rfl⟩ := invokeAssign_inv h3
  refine ⟨h1, d1, d2, ?_⟩
  unfold writeOwn at h4
  split at h4
  · rename_i he
    cases h4
    funext k
    simp only [Ledger.set_apply, Ledger.setData_apply, if_true] at he ⊢
    split
    · simp only [he]
    · rfl
  · simp only [bind_ok_iff, require_ok_iff, pure_ok_iff] at h4
    obtain ⟨_, _, _, _, rfl⟩ := h4
    funext k
    simp only [Ledger.set_apply, Ledger.setData_apply, if_true]
    split <;> rfl

/-- What a customizer does: which Token-2022 extensions it initialises (given authority and wrapped
mint), and which freeze authority it picks; decimals are copied from the unwrapped mint. -/
structure CustomizerSpec (M : Customizer) (exts : Pubkey → Pubkey → List MintExt)
    (freeze : Mint → Option Pubkey) : Prop where
  init : ∀ {env : Env} {accounts : List Meta} {w A : Pubkey} {L L' : Ledger} {b : Bytes},
    (L w).data = .bytes b → authorityAddress env.cr w = some A →
    M.initializeExtensions env accounts w token2022Id L = .ok L' →
    L' = L.setData w (if exts A w = [] then .bytes b else .preMint b.length (exts A w))
  params : ∀ {d : Data} {f : Option Pubkey} {dec : UInt8},
    M.freezeAuthAndDecimals d = .ok (f, dec) → ∃ m, d = .mint m ∧ f = freeze m ∧ dec = m.decimals

theorem invokeInitMintExt_inv {env : Env} {accounts : List Meta} {prog w : Pubkey} {ext : MintExt}
    {L L' : Ledger} (h : invokeToken env accounts [] [] prog (.initMintExt w ext) L = .ok L') :
    ((∃ b, (L w).data = .bytes b ∧ L' = L.setData w (.preMint b.length [ext])) ∨
     (∃ space exts, (L w).data = .preMint space exts ∧
        L' = L.setData w (.preMint space (exts ++ [ext])))) := by
  have h5 := (invokeToken_inv h).2.2.2.2
  have hrej := tokenExec_not_rejected h5
  unfold tokenExec at h5
  rw [hrej] at h5
  obtain ⟨_, _, h⟩ := initMintExtExec_inv h5
  rcases h with ⟨b, h1, _, h2⟩ | h
  · exact .inl ⟨b, h1, h2⟩
  · exact .inr h

theorem setData_setData (L : Ledger) (k : Pubkey) (d d' : Data) :
    (L.setData k d).setData k d' = L.setData k d' := by
  funext x; simp only [Ledger.setData_apply, if_true]; split <;> rfl

/-- Extensions of the default customizer. -/
def defaultExts (A w : Pubkey) : List MintExt :=
  [.confidentialTransferMint none true none, .metadataPointer (some A) (some w)]

theorem default_spec :
    CustomizerSpec defaultToken2022Customizer defaultExts (·.freezeAuthority) where
  init := by
    intro env accounts w A L L' b hd hA h
    simp only [defaultToken2022Customizer, bind_ok_iff, okOr_ok_iff] at h
    obtain ⟨L1, h1, A', hA', h2⟩ := h
    rw [hA] at hA'; cases hA'
    rcases invokeInitMintExt_inv h1 with ⟨b1, e1, rfl⟩ | ⟨_, _, e1, _⟩
    · rw [hd] at e1; cases e1
      rcases invokeInitMintExt_inv h2 with ⟨b1, e2, _⟩ | ⟨sp, ex, e2, rfl⟩
      · simp at e2
      · simp at e2
        obtain ⟨rfl, rfl⟩ := e2
        simp [setData_setData, defaultExts]
    · rw [hd] at e1; cases e1
  params := by
    intro d f dec h
    simp only [defaultToken2022Customizer, copyFreezeAndDecimals, bind_ok_iff, unpackMint_ok_iff,
      pure_ok_iff, Prod.mk.injEq] at h
    obtain ⟨m, hm, h1, h2⟩ := h
    exact ⟨m, hm, h1.symm, h2.symm⟩

theorem noExtension_spec :
    CustomizerSpec noExtensionCustomizer (fun _ _ => []) (·.freezeAuthority) where
  init := by
    intro env accounts w A L L' b hd hA h
    simp only [noExtensionCustomizer] at h
    cases h
    simp only [if_true]
    funext x
    simp only [Ledger.setData_apply]
    split
    · rename_i hx; rw [hx, ← hd]
    · rfl
  params := by
    intro d f dec h
    simp only [noExtensionCustomizer, copyFreezeAndDecimals, bind_ok_iff, unpackMint_ok_iff,
      pure_ok_iff, Prod.mk.injEq] at h
    obtain ⟨m, hm, h1, h2⟩ := h
    exact ⟨m, hm, h1.symm, h2.symm⟩

/-- Extensions of the compliance customizer. -/
def complianceExts (_ _ : Pubkey) : List MintExt :=
  [.permanentDelegate (some compliancePermanentDelegate),
   .confidentialTransferMint (some complianceConfidentialAuthority) true (some complianceAuditor),
   .defaultAccountState false, .pausable (some compliancePauseAuthority) false]

theorem compliance_spec :
    CustomizerSpec complianceCustomizer complianceExts (fun _ => some complianceFreezeAuthority) where
  init := by
    intro env accounts w A L L' b hd hA h
    simp only [complianceCustomizer, bind_ok_iff] at h
    obtain ⟨L1, h1, L2, h2, L3, h3, h4⟩ := h
    rcases invokeInitMintExt_inv h1 with ⟨b1, e1, rfl⟩ | ⟨_, _, e1, _⟩
    rotate_left
    · rw [hd] at e1; cases e1
    rw [hd] at e1; cases e1
    rcases invokeInitMintExt_inv h2 with ⟨b1, e2, _⟩ | ⟨sp, ex, e2, rfl⟩
    · simp at e2
    simp at e2; obtain ⟨rfl, rfl⟩ := e2
    rcases invokeInitMintExt_inv h3 with ⟨b1, e2, _⟩ | ⟨sp, ex, e2, rfl⟩
    · simp at e2
    simp at e2; obtain ⟨rfl, rfl⟩ := e2
    rcases invokeInitMintExt_inv h4 with ⟨b1, e2, _⟩ | ⟨sp, ex, e2, rfl⟩
    · simp at e2
    simp at e2; obtain ⟨rfl, rfl⟩ := e2
    simp [setData_setData, complianceExts]
  params := by
    intro d f dec h
    simp only [complianceCustomizer, bind_ok_iff, unpackMint_ok_iff,
      pure_ok_iff, Prod.mk.injEq] at h
    obtain ⟨m, hm, h1, h2⟩ := h
    exact ⟨m, hm, h1.symm, h2.symm⟩

/-- Effect of creating the wrapped mint. -/
theorem createMintInit_inv {env : Env} {M : Customizer} {exts : Pubkey → Pubkey → List MintExt}
    {freeze : Mint → Option Pubkey} (spec : CustomizerSpec M exts freeze) {accounts : List Meta}
    {a : CreateMintAccounts} {bump : UInt8} {L L' : Ledger}
    (h : createMintInit env M accounts a bump L = .ok L') :
    ∃ m A space, wrappedMintSpace M a.wrappedTokenProgram.key = .ok space ∧
      env.rentMin space ≤ (L a.wrappedMint.key).lamports ∧
      (L a.wrappedMint.key).data = .bytes [] ∧ (L a.wrappedMint.key).owner = systemId ∧
      (L a.unwrappedMint.key).data = .mint m ∧ a.wrappedMint.key ≠ a.unwrappedMint.key ∧
      authorityAddress env.cr a.wrappedMint.key = some A ∧
      (a.wrappedTokenProgram.key = splTokenId ∨ a.wrappedTokenProgram.key = token2022Id) ∧
      L' = L.set a.wrappedMint.key ⟨(L a.wrappedMint.key).lamports, a.wrappedTokenProgram.key,
        .mint { mintAuthority := some A, supply := 0, decimals := m.decimals,
                freezeAuthority := freeze m,
                exts := if a.wrappedTokenProgram.key = token2022Id then exts A a.wrappedMint.key
                  else [] }⟩ := by
  unfold createMintInit at h
  inv_ok at h
  obtain ⟨space, hsp, _, hrent, pda, _, L1, hal, L2, has, L3, hin, ⟨fz, dec⟩, hfd, A, hA, hinit⟩ := h
  obtain ⟨_, d1, d2, rfl⟩ := invokeAllocate_inv hal
  obtain ⟨_, rfl⟩ := invokeAssign_inv has
  obtain ⟨hprog, _, _, _, h5⟩ := invokeToken_inv hinit
  have hrej := tokenExec_not_rejected h5
  unfold tokenExec at h5
  rw [hrej] at h5
  obtain ⟨_, ex, hpre, rfl⟩ := initializeMint2Exec_inv h5
  clear h5 hrej hinit
  obtain ⟨m, hm, hf, hdec⟩ := spec.params hfd
  have hL3 : L3 = (L.set a.wrappedMint.key ⟨(L a.wrappedMint.key).lamports,
      a.wrappedTokenProgram.key, .bytes (List.replicate space 0)⟩).setData a.wrappedMint.key
      (if a.wrappedTokenProgram.key = token2022Id ∧ exts A a.wrappedMint.key ≠ [] then
        .preMint space (exts A a.wrappedMint.key) else .bytes (List.replicate space 0)) := by
    by_cases h22 : a.wrappedTokenProgram.key = token2022Id
    · rw [if_pos h22] at hin
      rw [h22] at hin
      have := spec.init (b := List.replicate space 0) (by simp) hA hin
      rw [this]
      simp only [h22, true_and, List.length_replicate]
      funext k
      simp only [Ledger.setData_apply, Ledger.set_apply, if_true]
      by_cases he : exts A a.wrappedMint.key = [] <;> by_cases hk : k = a.wrappedMint.key <;>
        simp [he, hk]
    · rw [if_neg h22] at hin
      cases hin
      funext k
      simp only [h22, false_and, if_false, Ledger.setData_apply, Ledger.set_apply, if_true]
      split <;> rfl
  have hne : a.wrappedMint.key ≠ a.unwrappedMint.key := by
    intro he
    rw [← he, hL3] at hm
    simp only [Ledger.setData_same] at hm
    split at hm <;> cases hm
  have hum : (L a.unwrappedMint.key).data = .mint m := by
    rw [hL3] at hm
    simpa [Ledger.setData_apply, Ledger.set_apply, Ne.symm hne] using hm
  have hex : ex = if a.wrappedTokenProgram.key = token2022Id then exts A a.wrappedMint.key
                  else [] := by
    rw [hL3] at hpre
    simp only [Ledger.setData_same] at hpre
    rcases preMintExts_inv hpre with ⟨rfl, b, hb, _⟩ | ⟨sp, hb, _⟩
    · split at hb
      · cases hb
      · rename_i hc
        split
        · rename_i h22
          by_cases he : exts A a.wrappedMint.key = []
          · exact he.symm
          · exact absurd ⟨h22, he⟩ hc
        · rfl
    · split at hb
      · rename_i hc
        cases hb
        rw [if_pos hc.1]
      · cases hb
  refine ⟨m, A, space, hsp, hrent, d1, d2, hum, hne, hA, hprog, ?_⟩
  rw [hL3, hex, hf, hdec]
  funext k
  simp only [Ledger.setData_apply, Ledger.set_apply, if_true]
  split <;> rfl

/-- Full effect of a CreateMint that creates. -/
theorem createMint_fresh {env : Env} {M : Customizer} {exts : Pubkey → Pubkey → List MintExt}
    {freeze : Mint → Option Pubkey} (spec : CustomizerSpec M exts freeze) {accounts : List Meta}
    {a : CreateMintAccounts} {mb bb : UInt8} {L L1 L' : Ledger}
    (h1 : createMintInit env M accounts a mb L = .ok L1)
    (h2 : createBackpointer env accounts a bb L1 = .ok L') :
    ∃ m A space, wrappedMintSpace M a.wrappedTokenProgram.key = .ok space ∧
      env.rentMin space ≤ (L a.wrappedMint.key).lamports ∧
      env.rentMin 32 ≤ (L a.backpointer.key).lamports ∧
      L a.wrappedMint.key = ⟨(L a.wrappedMint.key).lamports, systemId, .bytes []⟩ ∧
      L a.backpointer.key = ⟨(L a.backpointer.key).lamports, systemId, .bytes []⟩ ∧
      (L a.unwrappedMint.key).data = .mint m ∧ a.wrappedMint.key ≠ a.unwrappedMint.key ∧
      a.wrappedMint.key ≠ a.backpointer.key ∧
      authorityAddress env.cr a.wrappedMint.key = some A ∧
      (a.wrappedTokenProgram.key = splTokenId ∨ a.wrappedTokenProgram.key = token2022Id) ∧
      L' = (L.set a.wrappedMint.key ⟨(L a.wrappedMint.key).lamports, a.wrappedTokenProgram.key,
        .mint { mintAuthority := some A, supply := 0, decimals := m.decimals,
                freezeAuthority := freeze m,
                exts := if a.wrappedTokenProgram.key = token2022Id then exts A a.wrappedMint.key
                  else [] }⟩).set a.backpointer.key
        ⟨(L a.backpointer.key).lamports, env.programId, .bytes a.unwrappedMint.key.bytes⟩ := by
  obtain ⟨m, A, space, i1, i2, i3, i4, i5, i6, i7, i8, i9⟩ := createMintInit_inv spec h1
  obtain ⟨j1, j2, j3, j4⟩ := createBackpointer_inv h2
  have hne : a.wrappedMint.key ≠ a.backpointer.key := by
    intro he
    rw [← he, i9] at j2
    simp at j2
  have hb : L1 a.backpointer.key = L a.backpointer.key := by
    rw [i9]; exact Ledger.set_ne _ _ (Ne.symm hne)
  rw [hb] at j1 j2 j3 j4
  refine ⟨m, A, space, i1, i2, j1, ?_, ?_, i5, i6, hne, i7, i8, ?_⟩
  · rw [← i3, ← i4]
  · rw [← j2, ← j3]
  · rw [j4, i9]

end TokenWrap
