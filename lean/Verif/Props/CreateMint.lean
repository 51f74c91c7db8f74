import Verif.CreateMintLemmas
import Verif.CpiLemmas
import Verif.Examples
/-!
# C21–C24, C49: CreateMint
-/

set_option linter.unusedSimpArgs false

namespace TokenWrap

open TokenWrapInstruction

/-! ## CreateMint, with its documented account order

wrapped mint, backpointer, unwrapped mint, system program, wrapped token program. -/

section createMint

variable {env : Env} {L L' : Ledger} {idem : Bool} {wmint bp umint sys wprog : Meta}
  {rest : List Meta}

/-- The case split for an explicit account list. -/
theorem createMint_cases {M : Customizer}
    (h : processCreateMint env M ([wmint, bp, umint, sys, wprog] ++ rest) idem L = .ok L') :
    CreateMintCtx env ([wmint, bp, umint, sys, wprog] ++ rest) L ⟨wmint, bp, umint, sys, wprog⟩ ∧
      ((idem = true ∧ L' = L ∧ (0 < (L wmint.key).data.len ∨ 0 < (L bp.key).data.len) ∧
        (L wmint.key).owner = wprog.key ∧ (L bp.key).owner = env.programId) ∨
       (∃ mb bb L1, (L wmint.key).data.len = 0 ∧ (L bp.key).data.len = 0 ∧
        createMintInit env M ([wmint, bp, umint, sys, wprog] ++ rest)
          ⟨wmint, bp, umint, sys, wprog⟩ mb L = .ok L1 ∧
        createBackpointer env ([wmint, bp, umint, sys, wprog] ++ rest)
          ⟨wmint, bp, umint, sys, wprog⟩ bb L1 = .ok L')) := by
  obtain ⟨a, c, h⟩ := processCreateMint_inv h
  obtain ⟨r, ha⟩ := c.accounts_eq
  have : a = ⟨wmint, bp, umint, sys, wprog⟩ := by
    cases a
    simp only [List.cons_append, List.nil_append, List.cons.injEq] at ha
    obtain ⟨h1, h2, h3, h4, h5, _⟩ := ha
    subst_vars; rfl
  subst this
  refine ⟨c, ?_⟩
  rcases h with h | ⟨mb, bb, L1, h1, h2, _, _, h3, h4⟩
  · exact .inl h
  · exact .inr ⟨mb, bb, L1, h1, h2, h3, h4⟩

/-- **C21** A CreateMint that finds both accounts without data creates exactly the promised mint and
backpointer, leaves their lamports and changes nothing else. -/
theorem createMint_creates
    (h : processInstruction env ([wmint, bp, umint, sys, wprog] ++ rest) (createMint idem).pack L =
      .ok L')
    (h0 : (L wmint.key).data.len = 0) (h1 : (L bp.key).data.len = 0) :
    ∃ um A, (L umint.key).data = .mint um ∧ authorityAddress env.cr wmint.key = some A ∧
      (wprog.key = splTokenId ∨ wprog.key = token2022Id) ∧
      L' wmint.key = ⟨(L wmint.key).lamports, wprog.key, .mint
        { mintAuthority := some A
          supply := 0
          decimals := um.decimals
          freezeAuthority := um.freezeAuthority
          exts := if wprog.key = token2022Id then
              [.confidentialTransferMint none true none,
               .metadataPointer (some A) (some wmint.key)]
            else [] }⟩ ∧
      L' bp.key = ⟨(L bp.key).lamports, env.programId, .bytes umint.key.bytes⟩ ∧
      OnlyChanged [wmint.key, bp.key] L L' := by
  rw [processInstruction_pack] at h
  obtain ⟨c, h⟩ := createMint_cases h
  rcases h with ⟨_, _, h, _⟩ | ⟨mb, bb, L1, _, _, h2, h3⟩
  · omega
  · obtain ⟨m, A, space, i1, i2, i3, i4, i5, i6, i7, i8, i9, i10, i11⟩ :=
      createMint_fresh default_spec h2 h3
    dsimp only at i1 i2 i3 i4 i5 i6 i7 i8 i9 i10 i11
    refine ⟨m, A, i6, i9, i10, ?_, ?_, ?_⟩
    · rw [i11, Ledger.set_ne _ _ i8, Ledger.set_same]; rfl
    · rw [i11, Ledger.set_same]
    · intro k hk
      simp only [List.mem_cons, List.not_mem_nil, or_false, not_or] at hk
      rw [i11, Ledger.set_ne _ _ hk.2, Ledger.set_ne _ _ hk.1]

/-- **C22** If either account already has data, CreateMint changes nothing: it either fails or (only
when asked to be idempotent) succeeds without effect. -/
theorem createMint_never_overwrites
    (h : 0 < (L wmint.key).data.len ∨ 0 < (L bp.key).data.len) :
    let result := processInstruction env ([wmint, bp, umint, sys, wprog] ++ rest)
      (createMint idem).pack L
    (∃ e, result = .error e) ∨ (result = .ok L ∧ idem = true) := by
  dsimp only
  cases hr : processInstruction env ([wmint, bp, umint, sys, wprog] ++ rest)
      (createMint idem).pack L with
  | error e => exact .inl ⟨e, rfl⟩
  | ok L' =>
    right
    rw [processInstruction_pack] at hr
    obtain ⟨c, hr⟩ := createMint_cases hr
    rcases hr with ⟨h1, h2, _⟩ | ⟨_, _, _, h1, h2, _⟩
    · exact ⟨by rw [h2], h1⟩
    · omega

theorem mint_len_pos (m : Mint) : 0 < (Data.mint m).len := by
  simp only [Data.len, mintAccountLen]
  split
  · omega
  · split <;> omega

/-- What the idempotency check looks at holds after every successful CreateMint. -/
theorem createMint_after
    (h : processInstruction env ([wmint, bp, umint, sys, wprog] ++ rest) (createMint idem).pack L =
      .ok L') :
    (0 < (L' wmint.key).data.len ∨ 0 < (L' bp.key).data.len) ∧
    (L' wmint.key).owner = wprog.key ∧ (L' bp.key).owner = env.programId ∧
    (L' umint.key).owner = (L umint.key).owner := by
  have h' := h
  rw [processInstruction_pack] at h
  obtain ⟨c, hr⟩ := createMint_cases h
  rcases hr with ⟨h1, rfl, h2, h3, h4⟩ | ⟨_, _, _, h1, h2, _⟩
  · exact ⟨h2, h3, h4, rfl⟩
  · obtain ⟨um, A, e1, e2, e3, e4, e5, e6⟩ := createMint_creates h' h1 h2
    refine ⟨.inr ?_, by rw [e4], by rw [e5], ?_⟩
    · rw [e5]; simp [Data.len, Pubkey.len]
    · rw [e6]
      simp only [List.mem_cons, List.not_mem_nil, or_false, not_or]
      constructor
      · intro he; rw [← he, e1] at h1; exact absurd h1 (Nat.pos_iff_ne_zero.1 (mint_len_pos um))
      · intro he; rw [← he, e1] at h2; exact absurd h2 (Nat.pos_iff_ne_zero.1 (mint_len_pos um))

/-- **C23** After a successful CreateMint, asking again (with any flags and extra accounts) is a
successful no-op if idempotent and `AccountAlreadyInitialized` if not. -/
theorem createMint_again {wmint₂ bp₂ umint₂ sys₂ wprog₂ : Meta} {rest₂ : List Meta}
    (h : processInstruction env ([wmint, bp, umint, sys, wprog] ++ rest) (createMint idem).pack L =
      .ok L')
    (k1 : wmint₂.key = wmint.key) (k2 : bp₂.key = bp.key) (k3 : umint₂.key = umint.key)
    (k4 : wprog₂.key = wprog.key) :
    processInstruction env ([wmint₂, bp₂, umint₂, sys₂, wprog₂] ++ rest₂) (createMint true).pack L' =
      .ok L' ∧
    processInstruction env ([wmint₂, bp₂, umint₂, sys₂, wprog₂] ++ rest₂) (createMint false).pack L' =
      .error .accountAlreadyInitialized := by
  obtain ⟨a1, a2, a3, a4⟩ := createMint_after h
  rw [processInstruction_pack] at h
  obtain ⟨c, _⟩ := createMint_cases h
  obtain ⟨mb, hm⟩ := wrappedMintAddress_some.1 c.mint
  obtain ⟨bb, hb⟩ := backpointerAddress_some.1 c.bp
  have ho := c.uOwner
  dsimp only at hm hb ho
  rw [← a4] at ho
  rw [processInstruction_pack, processInstruction_pack]
  simp only [dispatch, processCreateMint, parseCreateMint, List.cons_append, List.nil_append, ok_bind,
    k1, k2, k3, k4, hm, hb, okOr_some, decide_true, require_true]
  have ho' : (decide ((L' umint.key).owner = splTokenId) ||
      decide ((L' umint.key).owner = token2022Id)) = true := by simpa using ho
  rw [ho']
  constructor
  · rw [if_pos a1]; simp [a2, a3]; rfl
  · rw [if_pos a1]; rfl

/-- **C24** A successful CreateMint was given the derived addresses and an unwrapped mint owned by one
of the token programs; if it created anything, both accounts held the rent-exempt minimum. -/
theorem createMint_validates
    (h : processInstruction env ([wmint, bp, umint, sys, wprog] ++ rest) (createMint idem).pack L =
      .ok L') :
    wrappedMintAddress env.cr umint.key wprog.key = some wmint.key ∧
    backpointerAddress env.cr wmint.key = some bp.key ∧
    ((L umint.key).owner = splTokenId ∨ (L umint.key).owner = token2022Id) ∧
    (L' ≠ L → env.rentMin 32 ≤ (L bp.key).lamports ∧
      env.rentMin (if wprog.key = token2022Id then mintAccountLen [65, 64] else 82) ≤
        (L wmint.key).lamports) := by
  rw [processInstruction_pack] at h
  obtain ⟨c, h⟩ := createMint_cases h
  refine ⟨c.mint, c.bp, c.uOwner, ?_⟩
  intro hne
  rcases h with ⟨_, h, _⟩ | ⟨mb, bb, L1, _, _, h2, h3⟩
  · exact absurd h hne
  · obtain ⟨m, A, space, i1, i2, i3, i4, i5, i6, i7, i8, i9, i10, i11⟩ :=
      createMint_fresh default_spec h2 h3
    refine ⟨i3, ?_⟩
    have : space = if wprog.key = token2022Id then mintAccountLen [65, 64] else 82 := by
      simp only [wrappedMintSpace, defaultToken2022Customizer] at i1
      split at i1 <;> rename_i hc <;> simp only [Except.ok.injEq] at i1 <;> simp [hc, i1.symm]
    rw [← this]; exact i2

/-- **C24** Anything else fails, with the error of the first wrong thing. -/
theorem createMint_errors {W B : Pubkey}
    (hW : wrappedMintAddress env.cr umint.key wprog.key = some W)
    (hB : backpointerAddress env.cr wmint.key = some B) :
    let result := processInstruction env ([wmint, bp, umint, sys, wprog] ++ rest)
      (createMint idem).pack L
    let owned := (L umint.key).owner = splTokenId ∨ (L umint.key).owner = token2022Id
    let empty := (L wmint.key).data.len = 0 ∧ (L bp.key).data.len = 0
    (wmint.key ≠ W → result = .error (wrapErr .wrappedMintMismatch)) ∧
    (wmint.key = W → bp.key ≠ B → result = .error (wrapErr .backpointerMismatch)) ∧
    (wmint.key = W → bp.key = B → ¬ owned → result = .error .invalidAccountOwner) ∧
    (wmint.key = W → bp.key = B → owned → ¬ empty → idem = false →
      result = .error .accountAlreadyInitialized) ∧
    (wmint.key = W → bp.key = B → owned → ¬ empty → idem = true → (L W).owner ≠ wprog.key →
      result = .error (wrapErr .invalidWrappedMintOwner)) ∧
    (wmint.key = W → bp.key = B → owned → ¬ empty → idem = true → (L W).owner = wprog.key →
      (L B).owner ≠ env.programId → result = .error (wrapErr .invalidBackpointerOwner)) ∧
    (wmint.key = W → bp.key = B → owned → empty →
      (L W).lamports < env.rentMin (if wprog.key = token2022Id then mintAccountLen [65, 64] else 82) →
      result = .error .accountNotRentExempt) := by
  obtain ⟨mb, hm⟩ := wrappedMintAddress_some.1 hW
  obtain ⟨bb, hb⟩ := backpointerAddress_some.1 hB
  dsimp only
  rw [processInstruction_pack]
  simp only [dispatch, processCreateMint, parseCreateMint, List.cons_append, List.nil_append, ok_bind,
    hm, hb, okOr_some, createMintInit, wrappedMintSpace, defaultToken2022Customizer]
  refine ⟨?_, ?_, ?_, ?_, ?_, ?_, ?_⟩
  · intro h; simp [h]
  · intro h h1; simp [h, h1]
  · intro h h1 h2
    rw [not_or] at h2
    simp [h, h1, h2]
  · intro h h1 h2 h3 h4
    have ho : (decide ((L umint.key).owner = splTokenId) ||
      decide ((L umint.key).owner = token2022Id)) = true := by simpa using h2
    have h3' : 0 < (L W).data.len ∨ 0 < (L B).data.len := by rw [h, h1] at h3; omega
    rw [h, h1, ho, if_pos h3']; simp [h4]
  · intro h h1 h2 h3 h4 h5
    have ho : (decide ((L umint.key).owner = splTokenId) ||
      decide ((L umint.key).owner = token2022Id)) = true := by simpa using h2
    have h3' : 0 < (L W).data.len ∨ 0 < (L B).data.len := by rw [h, h1] at h3; omega
    rw [h, h1, ho, if_pos h3']; simp [h4, h5]
  · intro h h1 h2 h3 h4 h5 h6
    have ho : (decide ((L umint.key).owner = splTokenId) ||
      decide ((L umint.key).owner = token2022Id)) = true := by simpa using h2
    have h3' : 0 < (L W).data.len ∨ 0 < (L B).data.len := by rw [h, h1] at h3; omega
    rw [h, h1, ho, if_pos h3']; simp [h4, h5, h6]; rfl
  · intro h h1 h2 h3 h4
    have ho : (decide ((L umint.key).owner = splTokenId) ||
      decide ((L umint.key).owner = token2022Id)) = true := by simpa using h2
    have h3' : ¬ (0 < (L W).data.len ∨ 0 < (L B).data.len) := by rw [h, h1] at h3; omega
    simp only [h, h1, ho, if_neg h3', decide_true, require_true, ok_bind]
    split at h4 <;> rename_i hc
    · simp only [if_pos hc, ok_bind]
      have : decide (env.rentMin (mintAccountLen [65, 64]) ≤ (L W).lamports) = false := by
        simpa using h4
      rw [this]; rfl
    · simp only [if_neg hc, ok_bind]
      have : decide (env.rentMin 82 ≤ (L W).lamports) = false := by
        simpa using h4
      rw [this]; rfl

end createMint

/-! ## C49: customizers -/

/-- The customizers shipped in /repo/program/src/mint_customizer. -/
inductive Shipped
  | default | noExtensions | compliance
deriving DecidableEq, Repr

/-- The model of the customizer. -/
def Shipped.model : Shipped → Customizer
  | default => defaultToken2022Customizer
  | noExtensions => noExtensionCustomizer
  | compliance => complianceCustomizer

/-- What each customizer promises for Token-2022: its extensions, in order. -/
def Shipped.exts (A W : Pubkey) : Shipped → List MintExt
  | default => [.confidentialTransferMint none true none, .metadataPointer (some A) (some W)]
  | noExtensions => []
  | compliance =>
    [.permanentDelegate (some compliancePermanentDelegate),
     .confidentialTransferMint (some complianceConfidentialAuthority) true (some complianceAuditor),
     .defaultAccountState false, .pausable (some compliancePauseAuthority) false]

/-- What each customizer promises as freeze authority. -/
def Shipped.freeze (m : Mint) : Shipped → Option Pubkey
  | compliance => some complianceFreezeAuthority
  | _ => m.freezeAuthority

theorem Shipped.spec (c : Shipped) : CustomizerSpec c.model (fun A W => c.exts A W) (fun m => c.freeze m) := by
  cases c
  · exact default_spec
  · exact noExtension_spec
  · exact compliance_spec

/-- **C49** Whichever shipped customizer is used, a CreateMint that creates leaves a mint with exactly
its extension set (Token-2022) or none (SPL Token), its freeze authority, and the unwrapped
decimals. -/
theorem customizer_mints (c : Shipped) {env : Env} {L L' : Ledger} {idem : Bool}
    {wmint bp umint sys wprog : Meta} {rest : List Meta}
    (h : processCreateMint env c.model ([wmint, bp, umint, sys, wprog] ++ rest) idem L = .ok L')
    (h0 : (L wmint.key).data.len = 0) (h1 : (L bp.key).data.len = 0) :
    ∃ um A, (L umint.key).data = .mint um ∧ authorityAddress env.cr wmint.key = some A ∧
      (wprog.key = splTokenId ∨ wprog.key = token2022Id) ∧
      L' wmint.key = ⟨(L wmint.key).lamports, wprog.key, .mint
        { mintAuthority := some A
          supply := 0
          decimals := um.decimals
          freezeAuthority := c.freeze um
          exts := if wprog.key = token2022Id then c.exts A wmint.key else [] }⟩ ∧
      L' bp.key = ⟨(L bp.key).lamports, env.programId, .bytes umint.key.bytes⟩ ∧
      OnlyChanged [wmint.key, bp.key] L L' := by
  obtain ⟨_, h⟩ := createMint_cases h
  rcases h with ⟨_, _, h, _⟩ | ⟨mb, bb, L1, _, _, h2, h3⟩
  · omega
  · obtain ⟨m, A, space, i1, i2, i3, i4, i5, i6, i7, i8, i9, i10, i11⟩ :=
      createMint_fresh c.spec h2 h3
    dsimp only at i1 i2 i3 i4 i5 i6 i7 i8 i9 i10 i11
    refine ⟨m, A, i6, i9, i10, ?_, ?_, ?_⟩
    · rw [i11, Ledger.set_ne _ _ i8, Ledger.set_same]
    · rw [i11, Ledger.set_same]
    · intro k hk
      simp only [List.mem_cons, List.not_mem_nil, or_false, not_or] at hk
      rw [i11, Ledger.set_ne _ _ hk.2, Ledger.set_ne _ _ hk.1]

/-- **C49** The space a customizer requests is exactly the size of the extensions it initialises. -/
theorem customizer_space (c : Shipped) (A W : Pubkey) :
    c.model.token2022MintSpace = .ok (mintAccountLen ((c.exts A W).map MintExt.valueLen)) := by
  cases c <;> rfl

/-! ### Liveness: with correct, funded accounts CreateMint succeeds -/

theorem initMintExtExec_first {L : Ledger} {w : Pubkey} {ext : MintExt} {n : Nat}
    (ho : (L w).owner = token2022Id) (hd : (L w).data = .bytes (List.replicate n 0))
    (hi : ext.initOk = true) (hn : mintAccountLen [ext.valueLen] ≤ n) :
    initMintExtExec token2022Id L w ext = .ok (L.setData w (.preMint n [ext])) := by
  have : ((List.replicate n (0 : UInt8)).all fun x => decide (x = 0)) = true := by simp
  simp only [initMintExtExec, ho, hd, hi, decide_true, require_true, ok_bind, this,
    List.length_replicate, hn]
  rfl

theorem initMintExtExec_next {L : Ledger} {w : Pubkey} {ext : MintExt} {n : Nat} {exts : List MintExt}
    (ho : (L w).owner = token2022Id) (hd : (L w).data = .preMint n exts)
    (hi : ext.initOk = true) (ht : (exts.all fun e => decide (e.tag ≠ ext.tag)) = true)
    (hn : mintAccountLen ((exts ++ [ext]).map MintExt.valueLen) ≤ n) :
    initMintExtExec token2022Id L w ext = .ok (L.setData w (.preMint n (exts ++ [ext]))) := by
  simp only [initMintExtExec, ho, hd, hi, decide_true, require_true, ok_bind, ht, hn]
  rfl

/-- A customizer's extension initialisation succeeds on a zeroed Token-2022 account of the requested
size. -/
theorem Shipped.init_ok (c : Shipped) {env : Env} {caller : List Meta} {w A : Pubkey} {L : Ledger}
    {m : Meta} (hrej : ∀ ix s L, env.reject token2022Id ix s L = none)
    (h1 : ∃ c ∈ caller, c.key = token2022Id) (hc : m ∈ caller) (hk : m.key = w)
    (hw : m.writable = true) (hA : authorityAddress env.cr w = some A)
    (ho : (L w).owner = token2022Id)
    (hd : (L w).data = .bytes (List.replicate (mintAccountLen ((c.exts A w).map MintExt.valueLen)) 0)) :
    ∃ L', c.model.initializeExtensions env caller w token2022Id L = .ok L' := by
  have step : ∀ (ext : MintExt) (L : Ledger),
      invokeToken env caller [] [] token2022Id (.initMintExt w ext) L =
        initMintExtExec token2022Id L w ext := by
    intro ext L
    rw [invokeToken_ok (.inr rfl) h1 hc hk hw rfl]
    unfold tokenExec
    rw [hrej]
  cases c with
  | default =>
    simp only [Shipped.model, defaultToken2022Customizer]
    simp only [Shipped.exts, List.map_cons, List.map_nil, MintExt.valueLen] at hd
    rw [step, initMintExtExec_first ho hd rfl (by decide), ok_bind, hA, okOr_some, ok_bind, step,
      initMintExtExec_next (by simp [ho]) (by simp; exact ⟨rfl, rfl⟩) rfl (by simp [MintExt.tag])
        (by simp [MintExt.valueLen])]
    exact ⟨_, rfl⟩
  | noExtensions => exact ⟨L, rfl⟩
  | compliance =>
    simp only [Shipped.model, complianceCustomizer]
    simp only [Shipped.exts, List.map_cons, List.map_nil, MintExt.valueLen] at hd
    rw [step, initMintExtExec_first ho hd rfl (by decide), ok_bind, step,
      initMintExtExec_next (by simp [ho]) (by simp; exact ⟨rfl, rfl⟩) rfl (by simp [MintExt.tag])
        (by simp [MintExt.valueLen, mintAccountLen]), ok_bind, step,
      initMintExtExec_next (by simp [ho]) (by simp; exact ⟨rfl, rfl⟩) rfl (by simp [MintExt.tag])
        (by simp [MintExt.valueLen, mintAccountLen]), ok_bind, step,
      initMintExtExec_next (by simp [ho]) (by simp; exact ⟨rfl, rfl⟩) rfl (by simp [MintExt.tag])
        (by simp [MintExt.valueLen, mintAccountLen])]
    exact ⟨_, rfl⟩

/-- **C49** With the derived accounts, empty and rent-exempt, an unwrapped mint of either token
program, and no veto by the token program, creation succeeds for every shipped customizer and both
token programs: in particular the requested size is never wrong. -/
theorem createMint_succeeds (c : Shipped) {env : Env} {L : Ledger} {idem : Bool}
    {wmint bp umint sys wprog : Meta} {rest : List Meta} {um : Mint} {A : Pubkey} {lw lb : Nat}
    (hid : env.programId = crateId)
    (hrej : ∀ ix s L, env.reject wprog.key ix s L = none)
    (hW : wrappedMintAddress env.cr umint.key wprog.key = some wmint.key)
    (hB : backpointerAddress env.cr wmint.key = some bp.key)
    (hA : authorityAddress env.cr wmint.key = some A)
    (hne : wmint.key ≠ bp.key)
    (hp : wprog.key = splTokenId ∨ wprog.key = token2022Id) (hs : sys.key = systemId)
    (ww : wmint.writable = true) (bw : bp.writable = true)
    (uo : (L umint.key).owner = splTokenId ∨ (L umint.key).owner = token2022Id)
    (ud : (L umint.key).data = .mint um)
    (we : L wmint.key = ⟨lw, systemId, .bytes []⟩) (be : L bp.key = ⟨lb, systemId, .bytes []⟩)
    (rw' : env.rentMin (if wprog.key = token2022Id then
        mintAccountLen ((c.exts A wmint.key).map MintExt.valueLen) else 82) ≤ lw)
    (rb : env.rentMin 32 ≤ lb) :
    ∃ L', processCreateMint env c.model ([wmint, bp, umint, sys, wprog] ++ rest) idem L = .ok L' := by
  obtain ⟨mb, hm⟩ := wrappedMintAddress_some.1 hW
  obtain ⟨bb, hb⟩ := backpointerAddress_some.1 hB
  generalize hacc : [wmint, bp, umint, sys, wprog] ++ rest = accounts
  have hpar : parseCreateMint accounts = .ok ⟨wmint, bp, umint, sys, wprog⟩ := by rw [← hacc]; rfl
  have mem1 : wmint ∈ accounts := by rw [← hacc]; simp
  have mem2 : bp ∈ accounts := by rw [← hacc]; simp
  have mem3 : ∃ c ∈ accounts, c.key = systemId := ⟨sys, by rw [← hacc]; simp, hs⟩
  have mem4 : ∃ c ∈ accounts, c.key = wprog.key := ⟨wprog, by rw [← hacc]; simp, rfl⟩
  have s1 : signerPda env (wrappedMintSignerSeeds umint.key wprog.key mb) = .ok wmint.key := by
    rw [signerPda_ok_iff, hid]
    exact findProgramAddress_spec hm
  have s2 : signerPda env (backpointerSignerSeeds wmint.key bb) = .ok bp.key := by
    rw [signerPda_ok_iff, hid]
    exact findProgramAddress_spec hb
  have huw : umint.key ≠ wmint.key := by
    intro e; rw [e, we] at ud; cases ud
  unfold processCreateMint
  have ho' : (decide ((L umint.key).owner = splTokenId) ||
      decide ((L umint.key).owner = token2022Id)) = true := by simpa using uo
  have hempty : ¬ (0 < (L wmint.key).data.len ∨ 0 < (L bp.key).data.len) := by
    rw [we, be]; simp [Data.len]
  simp only [hpar, ok_bind, hm, hb, okOr_some, decide_true, require_true, ho', if_neg hempty]
  -- the mint
  let space := if wprog.key = token2022Id then
        mintAccountLen ((c.exts A wmint.key).map MintExt.valueLen) else 82
  have hspace : wrappedMintSpace c.model wprog.key = .ok space := by
    unfold wrappedMintSpace
    by_cases h : wprog.key = token2022Id
    · simp only [if_pos h, space]; exact customizer_space c A wmint.key
    · simp only [if_neg h, space]
  let L2 := (L.setData wmint.key (.bytes (List.replicate space 0))).set wmint.key
    { (L.setData wmint.key (.bytes (List.replicate space 0))) wmint.key with owner := wprog.key }
  have L2w : L2 wmint.key = ⟨lw, wprog.key, .bytes (List.replicate space 0)⟩ := by
    simp [L2, we]
  have L2o : ∀ k, k ≠ wmint.key → L2 k = L k := by
    intro k hk; simp [L2, Ledger.set_apply, Ledger.setData_apply, hk]
  have ⟨L3, hL3, L3w, L3o⟩ : ∃ L3, (if wprog.key = token2022Id then
      c.model.initializeExtensions env accounts wmint.key wprog.key L2 else .ok L2) = .ok L3 ∧
      (L3 wmint.key = ⟨lw, wprog.key, if wprog.key = token2022Id ∧ c.exts A wmint.key ≠ [] then
        .preMint space (c.exts A wmint.key) else .bytes (List.replicate space 0)⟩) ∧
      ∀ k, k ≠ wmint.key → L3 k = L k := by
    by_cases h : wprog.key = token2022Id
    · have hd : (L2 wmint.key).data = .bytes
          (List.replicate (mintAccountLen ((c.exts A wmint.key).map MintExt.valueLen)) 0) := by
        rw [L2w]; simp only [space, if_pos h]
      obtain ⟨L3, h3⟩ := c.init_ok (L := L2) (by rw [← h]; exact hrej) (by rw [← h]; exact mem4) mem1
        rfl ww hA (by rw [L2w, h]) hd
      have := c.spec.init hd hA h3
      refine ⟨L3, by rw [if_pos h, h]; exact h3, ?_, ?_⟩
      · rw [this, Ledger.setData_same, L2w]
        simp only [List.length_replicate, h, true_and, space, if_true]
        by_cases he : c.exts A wmint.key = [] <;> simp [he]
      · intro k hk; rw [this, Ledger.setData_ne _ _ hk, L2o k hk]
    · refine ⟨L2, by rw [if_neg h], ?_, L2o⟩
      rw [L2w]; simp [h]
  have hfd : ∃ f, c.model.freezeAuthAndDecimals (L3 umint.key).data = .ok (f, um.decimals) := by
    rw [L3o _ huw, ud]
    cases c <;> exact ⟨_, rfl⟩
  obtain ⟨f, hfd⟩ := hfd
  have hlen : (L3 wmint.key).data.len = space := by
    rw [L3w]; split <;> simp [Data.len]
  have hpre : ∃ ex, preMintExts (L3 wmint.key).data = .ok ex := by
    rw [L3w]
    split
    · rename_i hc
      refine ⟨c.exts A wmint.key, ?_⟩
      simp only [preMintExts, space, if_pos hc.1, decide_true, require_true, ok_bind]
      rfl
    · rename_i hc
      refine ⟨[], ?_⟩
      have : space = 82 := by
        by_cases h : wprog.key = token2022Id
        · have he : c.exts A wmint.key = [] := Decidable.byContradiction fun h' => hc ⟨h, h'⟩
          simp [space, h, he, mintAccountLen]
        · simp [space, h]
      rw [this]; rfl
  obtain ⟨ex, hpre⟩ := hpre
  have hinit : ∃ L4, createMintInit env c.model accounts ⟨wmint, bp, umint, sys, wprog⟩ mb L =
      .ok L4 ∧ L4 bp.key = L bp.key := by
    unfold createMintInit
    have hr : decide (env.rentMin space ≤ (L wmint.key).lamports) = true := by
      rw [we]; simpa using rw'
    simp only [hspace, ok_bind, hr, require_true, s1]
    rw [invokeAllocate_ok mem3 mem1 rfl ww (by rw [we]) (by rw [we]), ok_bind,
      invokeAssign_ok mem3 mem1 rfl ww (by simp [we]), ok_bind]
    rw [show (if wprog.key = token2022Id then
      c.model.initializeExtensions env accounts wmint.key wprog.key L2 else .ok L2) = .ok L3 from hL3]
    simp only [ok_bind, hfd, hA, okOr_some]
    rw [invokeToken_ok hp mem4 mem1 rfl ww rfl]
    unfold tokenExec
    rw [hrej]
    simp only [initializeMint2Exec]
    have hr' : decide (env.rentMin (L3 wmint.key).data.len ≤ (L3 wmint.key).lamports) = true := by
      rw [hlen, L3w]; simpa using rw'
    rw [hr', hpre]
    rw [L3w]
    simp only [decide_true, require_true, ok_bind]
    refine ⟨_, rfl, ?_⟩
    rw [Ledger.setData_ne _ _ (Ne.symm hne), L3o _ (Ne.symm hne)]
  obtain ⟨L4, h4, h4b⟩ := hinit
  rw [h4, ok_bind]
  unfold createBackpointer
  have hr : decide (env.rentMin 32 ≤ (L4 bp.key).lamports) = true := by
    rw [h4b, be]; simpa using rb
  simp only [hr, require_true, ok_bind, s2]
  rw [invokeAllocate_ok mem3 mem2 rfl bw (by rw [h4b, be]) (by rw [h4b, be]), ok_bind,
      invokeAssign_ok mem3 mem2 rfl bw (by simp [h4b, be]), ok_bind]
  simp only [Ledger.set_same, Ledger.setData_same, has32, Data.len, List.length_replicate,
    decide_true, require_true, ok_bind, writeOwn, bw]
  split
  · exact ⟨_, rfl⟩
  · exact ⟨_, rfl⟩

/-! ## Concrete instances -/

namespace Example

/-- The world before CreateMint: funded but empty wrapped mint and backpointer. -/
def Lc (wprog : Pubkey) : Ledger := fun k =>
  if some k = wrappedMintAddress toyCrypto u wprog then ⟨150, systemId, .bytes []⟩
  else if k = u then ⟨200, token2022Id, .mint (uMint [.transferFeeConfig feeCfg])⟩
  else if some k = (wrappedMintAddress toyCrypto u wprog).bind (backpointerAddress toyCrypto) then
    ⟨160, systemId, .bytes []⟩
  else Account.empty

/-- wrapped mint on Token-2022, and its backpointer -/
def W22 : Pubkey := (wrappedMintAddress toyCrypto u token2022Id).getD default
def B22 : Pubkey := (backpointerAddress toyCrypto W22).getD default

def createAccounts : List Meta := (Build.createMint crateId W22 B22 u token2022Id false).accounts

-- CreateMint works on this world, then is idempotent exactly on request
example : ok (processInstruction env createAccounts (createMint false).pack (Lc token2022Id)) = true := by
  decide +kernel
example : decimalsOf (get (processInstruction env createAccounts (createMint false).pack
    (Lc token2022Id))) W22 = some 6 := by decide +kernel
example : processInstruction env createAccounts (createMint false).pack
    (get (processInstruction env createAccounts (createMint false).pack (Lc token2022Id))) =
    .error .accountAlreadyInitialized :=
  (createMint_again (env := env) (idem := false) (L := Lc token2022Id) (rest := []) (rest₂ := [])
    (get_eq (by decide +kernel)) rfl rfl rfl rfl).2

-- an error case: not rent exempt
example : processInstruction { env with rentMin := fun _ => 155 } createAccounts
    (createMint false).pack (Lc token2022Id) = .error .accountNotRentExempt :=
  (createMint_errors (env := { env with rentMin := fun _ => 155 }) (W := W22) (B := B22) (rest := [])
    (idem := false) (L := Lc token2022Id) (umint := .ro u false) (wprog := .ro token2022Id false)
    (wmint := .rw W22 false) (bp := .rw B22 false) (sys := .ro systemId false)
    (by decide +kernel) (by decide +kernel)).2.2.2.2.2.2 rfl rfl (by decide +kernel)
    (by decide +kernel) (by decide +kernel)

-- the liveness theorem applies here, for every customizer
example (c : Shipped) : ∃ L', processCreateMint env c.model
    ([.rw W22 false, .rw B22 false, .ro u false, .ro systemId false, .ro token2022Id false] ++ [])
    false (Lc token2022Id) = .ok L' :=
  createMint_succeeds c (A := (authorityAddress toyCrypto W22).getD default) (lw := 150) (lb := 160)
    (um := uMint [.transferFeeConfig feeCfg]) rfl (fun _ _ _ => rfl)
    (by decide +kernel) (by decide +kernel) (by decide +kernel) (by decide +kernel) (.inr rfl) rfl
    rfl rfl (by decide +kernel) (by decide +kernel) (by decide +kernel) (by decide +kernel)
    (by show 100 ≤ 150; decide) (by show 100 ≤ 160; decide)

end Example

end TokenWrap
