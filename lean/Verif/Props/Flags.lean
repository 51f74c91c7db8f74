import Verif.Props.Extra
/-!
# Privileges (C73)

A transaction message gives every key one signer flag and one writable flag, the union of what its
instructions ask for.  More privileges than an instruction needs do not change what it does.
-/

set_option linter.unusedSimpArgs false

namespace TokenWrap

open TokenWrapInstruction

/-- `m'` is the same account with at least the privileges of `m`. -/
structure MetaLe (m m' : Meta) : Prop where
  key : m'.key = m.key
  signer : m.signer = true → m'.signer = true
  writable : m.writable = true → m'.writable = true

/-- The same accounts in the same order, each with at least the same privileges. -/
inductive MoreFlags : List Meta → List Meta → Prop
  | nil : MoreFlags [] []
  | cons {m m' : Meta} {l l' : List Meta} (h : MetaLe m m') (hr : MoreFlags l l') :
      MoreFlags (m :: l) (m' :: l')

section
variable {accounts accounts' : List Meta} {env : Env} {L : Ledger}

theorem MoreFlags.any (hm : MoreFlags accounts accounts') {p : Meta → Bool}
    (hp : ∀ m m', MetaLe m m' → p m = true → p m' = true) (h : accounts.any p = true) :
    accounts'.any p = true := by
  induction hm with
  | nil => exact h
  | cons h1 _ ih =>
    simp only [List.any_cons, Bool.or_eq_true] at h ⊢
    exact h.imp (hp _ _ h1) ih

theorem MoreFlags.metaAllowed (hm : MoreFlags accounts accounts') {pdas : List Pubkey} {m : Meta}
    (h : metaAllowed accounts pdas m = true) : metaAllowed accounts' pdas m = true := by
  simp only [TokenWrap.metaAllowed, Bool.and_eq_true, Bool.or_eq_true] at h ⊢
  refine ⟨⟨hm.any ?_ h.1.1, h.1.2.imp id (hm.any ?_)⟩, h.2.imp (Or.imp id (hm.any ?_)) id⟩
  · intro a b hab h; simpa [hab.key] using h
  · intro a b hab h
    simp only [Bool.and_eq_true, decide_eq_true_eq] at h ⊢
    exact ⟨hab.key.trans h.1, hab.writable h.2⟩
  · intro a b hab h
    simp only [Bool.and_eq_true, decide_eq_true_eq] at h ⊢
    exact ⟨hab.key.trans h.1, hab.signer h.2⟩

theorem MoreFlags.cpiCheck (hm : MoreFlags accounts accounts') (pdas borrowed : List Pubkey)
    (callee : Pubkey) (metas : List Meta) :
    OkLe (cpiCheck accounts pdas borrowed callee metas)
      (TokenWrap.cpiCheck accounts' pdas borrowed callee metas) := by
  unfold TokenWrap.cpiCheck
  refine OkLe.bind (.refl _) fun _ => OkLe.bind ?_ fun _ => ?_
  · intro x h
    rw [require_ok_iff] at h ⊢
    exact hm.any (fun a b hab h => by simpa [hab.key] using h) h
  · intro x h
    rw [require_ok_iff] at h ⊢
    rw [List.all_eq_true] at h ⊢
    exact fun m hm' => hm.metaAllowed (h m hm')

theorem MoreFlags.invokeToken (hm : MoreFlags accounts accounts') (pdas borrowed : List Pubkey)
    (prog : Pubkey) (ix : TokenIx) (L : Ledger) :
    OkLe (TokenWrap.invokeToken env accounts pdas borrowed prog ix L)
      (TokenWrap.invokeToken env accounts' pdas borrowed prog ix L) := by
  unfold TokenWrap.invokeToken
  exact OkLe.bind (.refl _) fun _ => OkLe.bind (hm.cpiCheck _ _ _ _) fun _ => .refl _

theorem MoreFlags.invokeAllocate (hm : MoreFlags accounts accounts') (pdas : List Pubkey)
    (key : Pubkey) (space : Nat) (L : Ledger) :
    OkLe (TokenWrap.invokeAllocate accounts pdas key space L)
      (TokenWrap.invokeAllocate accounts' pdas key space L) := by
  unfold TokenWrap.invokeAllocate
  exact OkLe.bind (hm.cpiCheck _ _ _ _) fun _ => .refl _

theorem MoreFlags.invokeAssign (hm : MoreFlags accounts accounts') (pdas : List Pubkey)
    (key owner : Pubkey) (L : Ledger) :
    OkLe (TokenWrap.invokeAssign accounts pdas key owner L)
      (TokenWrap.invokeAssign accounts' pdas key owner L) := by
  unfold TokenWrap.invokeAssign
  exact OkLe.bind (hm.cpiCheck _ _ _ _) fun _ => .refl _

theorem MetaLe.writeOwn {m m' : Meta} (h : MetaLe m m') (b : Bytes) (L : Ledger) :
    OkLe (TokenWrap.writeOwn env m b L) (TokenWrap.writeOwn env m' b L) := by
  unfold TokenWrap.writeOwn
  rw [h.key]
  refine OkLe.ite (.refl _) (OkLe.bind ?_ fun _ => .refl _)
  intro x hx
  rw [require_ok_iff] at hx ⊢
  exact h.writable hx

/-- Same keys and same signatures: the same multisig members. -/
theorem extractMultisig_flags {additional additional' : List Meta} {k : Pubkey}
    (hm : MoreFlags additional additional')
    (hs : additional.map (·.signer) = additional'.map (·.signer)) :
    extractMultisig L k additional' = extractMultisig L k additional := by
  have : ∀ ms : Multisig,
      (additional'.filter fun m => m.signer && decide (m.key ∈ ms.signers)).map (·.key) =
      (additional.filter fun m => m.signer && decide (m.key ∈ ms.signers)).map (·.key) := by
    intro ms
    induction hm with
    | nil => rfl
    | @cons a b l l' hab _ ih =>
      simp only [List.map_cons, List.cons.injEq] at hs
      have ih := ih hs.2
      rw [List.filter_cons, List.filter_cons, hab.key, ← hs.1]
      split
      · rw [List.map_cons, List.map_cons, ih, hab.key]
      · exact ih
  unfold extractMultisig
  split
  · simp only [this]
  · rfl

theorem processWrap_flags (amount : UInt64) (hm : MoreFlags accounts accounts')
    (hs : (accounts.drop 9).map (·.signer) = (accounts'.drop 9).map (·.signer)) :
    OkLe (processWrap env accounts amount L) (processWrap env accounts' amount L) := by
  unfold processWrap
  refine OkLe.bind (.refl _) fun _ => ?_
  generalize hL : accounts = acc at hm hs ⊢
  generalize hL' : accounts' = acc' at hm hs ⊢
  have hm0 := hm
  rcases hm with _ | ⟨h1, _ | ⟨h2, _ | ⟨h3, _ | ⟨h4, _ | ⟨h5, _ | ⟨h6, _ | ⟨h7, _ | ⟨h8, _ | ⟨h9, hr⟩⟩⟩⟩⟩⟩⟩⟩⟩ <;>
    first
    | (intro x hx'
       simp [parseWrap] at hx')
      done
    | skip
  simp only [parseWrap, ok_bind]
  simp only [h1.key, h2.key, h3.key, h4.key, h5.key, h6.key, h7.key, h8.key, h9.key]
  refine OkLe.bind (.refl _) fun _ => OkLe.bind (.refl _) fun _ => OkLe.bind (.refl _) fun p => ?_
  refine OkLe.bind (.refl _) fun _ => OkLe.bind (.refl _) fun _ => OkLe.bind (.refl _) fun _ =>
    OkLe.bind (.refl _) fun _ => OkLe.bind (.refl _) fun _ => OkLe.bind (.refl _) fun m =>
    OkLe.bind (.refl _) fun _ => OkLe.bind ?_ fun L1 => OkLe.bind (.refl _) fun _ =>
    hm0.invokeToken _ _ _ _ _
  unfold wrapTransfer
  simp only [h1.key, h2.key, h3.key, h4.key, h5.key, h6.key, h7.key, h8.key, h9.key,
    extractMultisig_flags hr hs]
  exact OkLe.ite (hm0.invokeToken _ _ _ _ _) (hm0.invokeToken _ _ _ _ _)

theorem processUnwrap_flags (amount : UInt64) (hm : MoreFlags accounts accounts')
    (hs : (accounts.drop 9).map (·.signer) = (accounts'.drop 9).map (·.signer)) :
    OkLe (processUnwrap env accounts amount L) (processUnwrap env accounts' amount L) := by
  unfold processUnwrap
  refine OkLe.bind (.refl _) fun _ => ?_
  generalize hL : accounts = acc at hm hs ⊢
  generalize hL' : accounts' = acc' at hm hs ⊢
  have hm0 := hm
  rcases hm with _ | ⟨h1, _ | ⟨h2, _ | ⟨h3, _ | ⟨h4, _ | ⟨h5, _ | ⟨h6, _ | ⟨h7, _ | ⟨h8, _ | ⟨h9, hr⟩⟩⟩⟩⟩⟩⟩⟩⟩ <;>
    first
    | (intro x hx'
       simp [parseUnwrap] at hx')
      done
    | skip
  simp only [parseUnwrap, ok_bind]
  simp only [h1.key, h2.key, h3.key, h4.key, h5.key, h6.key, h7.key, h8.key, h9.key,
    extractMultisig_flags hr hs]
  exact OkLe.bind (.refl _) fun _ => OkLe.bind (.refl _) fun _ => OkLe.bind (.refl _) fun p =>
    OkLe.bind (.refl _) fun _ => OkLe.bind (.refl _) fun _ => OkLe.bind (.refl _) fun _ =>
    OkLe.bind (hm0.invokeToken _ _ _ _ _) fun L1 => OkLe.bind (.refl _) fun m =>
    OkLe.bind (.refl _) fun _ => hm0.invokeToken _ _ _ _ _

theorem processClose_flags (hm : MoreFlags accounts accounts') :
    OkLe (processCloseStuckEscrow env accounts L) (processCloseStuckEscrow env accounts' L) := by
  unfold processCloseStuckEscrow
  have hm0 := hm
  rcases hm with _ | ⟨h1, _ | ⟨h2, _ | ⟨h3, _ | ⟨h4, _ | ⟨h5, _ | ⟨h6, hr⟩⟩⟩⟩⟩⟩ <;>
    first
    | (intro x hx'
       simp [parseClose] at hx')
      done
    | skip
  simp only [parseClose, ok_bind]
  simp only [h1.key, h2.key, h3.key, h4.key, h5.key, h6.key]
  exact OkLe.bind (.refl _) fun _ => OkLe.bind (.refl _) fun _ => OkLe.bind (.refl _) fun _ =>
    OkLe.bind (.refl _) fun p => OkLe.bind (.refl _) fun _ => OkLe.bind (.refl _) fun _ =>
    OkLe.bind (.refl _) fun _ => OkLe.bind (.refl _) fun _ => OkLe.bind (.refl _) fun _ =>
    OkLe.bind (.refl _) fun _ => OkLe.bind (.refl _) fun _ => OkLe.bind (.refl _) fun m =>
    OkLe.bind (.refl _) fun _ => OkLe.bind (.refl _) fun _ => hm0.invokeToken _ _ _ _ _

theorem defaultInit_flags (hm : MoreFlags accounts accounts') (w p : Pubkey) (L : Ledger) :
    OkLe (defaultToken2022Customizer.initializeExtensions env accounts w p L)
      (defaultToken2022Customizer.initializeExtensions env accounts' w p L) := by
  simp only [defaultToken2022Customizer]
  exact OkLe.bind (hm.invokeToken _ _ _ _ _) fun _ => OkLe.bind (.refl _) fun _ =>
    hm.invokeToken _ _ _ _ _

theorem processCreateMint_flags (idem : Bool) (hm : MoreFlags accounts accounts') :
    OkLe (processCreateMint env defaultToken2022Customizer accounts idem L)
      (processCreateMint env defaultToken2022Customizer accounts' idem L) := by
  unfold processCreateMint
  have hm0 := hm
  rcases hm with _ | ⟨h1, _ | ⟨h2, _ | ⟨h3, _ | ⟨h4, _ | ⟨h5, hr⟩⟩⟩⟩⟩ <;>
    first
    | (intro x hx'
       simp [parseCreateMint] at hx')
      done
    | skip
  simp only [parseCreateMint, ok_bind]
  simp only [h1.key, h2.key, h3.key, h4.key, h5.key]
  refine OkLe.bind (.refl _) fun _ => OkLe.bind (.refl _) fun _ => OkLe.bind (.refl _) fun _ =>
    OkLe.bind (.refl _) fun _ => OkLe.bind (.refl _) fun _ =>
    OkLe.ite (.refl _) (OkLe.bind ?_ fun _ => ?_)
  · unfold createMintInit
    simp only [h1.key, h2.key, h3.key, h4.key, h5.key]
    exact OkLe.bind (.refl _) fun _ => OkLe.bind (.refl _) fun _ => OkLe.bind (.refl _) fun _ =>
      OkLe.bind (hm0.invokeAllocate _ _ _ _) fun _ => OkLe.bind (hm0.invokeAssign _ _ _ _) fun _ =>
      OkLe.bind (OkLe.ite (defaultInit_flags hm0 _ _ _) (.refl _)) fun _ => OkLe.bind (.refl _) fun p =>
      OkLe.bind (.refl _) fun _ => hm0.invokeToken _ _ _ _ _
  · unfold createBackpointer
    simp only [h1.key, h2.key, h3.key, h4.key, h5.key]
    exact OkLe.bind (.refl _) fun _ => OkLe.bind (.refl _) fun _ =>
      OkLe.bind (hm0.invokeAllocate _ _ _ _) fun _ => OkLe.bind (hm0.invokeAssign _ _ _ _) fun _ =>
      OkLe.bind (.refl _) fun _ => h2.writeOwn _ _

theorem processPointer_flags (new : Pubkey) (hm : MoreFlags accounts accounts') :
    OkLe (processSetCanonicalPointer env accounts new L)
      (processSetCanonicalPointer env accounts' new L) := by
  unfold processSetCanonicalPointer
  have hm0 := hm
  rcases hm with _ | ⟨h1, _ | ⟨h2, _ | ⟨h3, _ | ⟨h4, hr⟩⟩⟩⟩ <;>
    first
    | (intro x hx'
       simp [parsePointer] at hx')
      done
    | skip
  simp only [parsePointer, ok_bind]
  simp only [h1.key, h2.key, h3.key, h4.key]
  refine OkLe.bind ?_ fun _ => OkLe.bind (.refl _) fun _ => OkLe.bind (.refl _) fun _ =>
    OkLe.bind (.refl _) fun _ => OkLe.bind (.refl _) fun _ => OkLe.bind (.refl _) fun p =>
    OkLe.bind (.refl _) fun _ => OkLe.bind ?_ fun _ => OkLe.bind (.refl _) fun _ => h2.writeOwn _ _
  · intro x hx
    rw [require_ok_iff] at hx ⊢
    exact h1.signer hx
  unfold initPointer
  simp only [h1.key, h2.key, h3.key, h4.key]
  exact OkLe.ite (OkLe.bind (.refl _) fun _ => OkLe.bind (.refl _) fun _ =>
    OkLe.bind (hm0.invokeAllocate _ _ _ _) fun _ => hm0.invokeAssign _ _ _ _) (.refl _)

/-- The same optional account, up to privileges. -/
inductive OptRel : Option Meta → Option Meta → Prop
  | none : OptRel none none
  | some {m m' : Meta} (h : MetaLe m m') : OptRel (some m) (some m')

theorem MoreFlags.get (hm : MoreFlags accounts accounts') (i : Nat) :
    OptRel accounts[i]? accounts'[i]? := by
  induction hm generalizing i with
  | nil => exact .none
  | cons h _ ih =>
    cases i with
    | zero => exact .some h
    | succ i => simpa using ih i

theorem readMetaplex_flags {u : Pubkey} {s s' : Option Meta} (h : OptRel s s') :
    readMetaplexForMint env u s' L = readMetaplexForMint env u s L := by
  cases h with
  | none => rfl
  | some h => simp only [readMetaplexForMint, okOr_some, ok_bind, h.key]

theorem extract_flags {u : Pubkey} {s s' op op' : Option Meta} (hm : MoreFlags accounts accounts')
    (hs : OptRel s s') (ho : OptRel op op') :
    OkLe (extractTokenMetadata env accounts u s op L)
      (extractTokenMetadata env accounts' u s' op' L) := by
  unfold extractTokenMetadata
  rw [readMetaplex_flags hs]
  refine OkLe.ite ?_ (.refl _)
  unfold resolveToken2022Source
  refine OkLe.bind (.refl _) fun m => ?_
  rw [readMetaplex_flags hs]
  split
  · exact .refl _
  · exact .refl _
  · refine OkLe.ite (.refl _) ?_
    cases hs with
    | none => intro x h; simp at h
    | some hs =>
      simp only [okOr_some, ok_bind, hs.key]
      refine OkLe.bind (.refl _) fun _ => OkLe.ite (.refl _) (OkLe.ite (.refl _) ?_)
      cases ho with
      | none => intro x h; simp at h
      | some ho =>
        simp only [okOr_some, ok_bind, ho.key]
        refine OkLe.bind (.refl _) fun _ => ?_
        unfold cpiEmitAndDecode
        exact OkLe.bind (hm.cpiCheck _ _ _ _) fun _ => .refl _

theorem updateFields_flags (hm : MoreFlags accounts accounts') {pda prog mint auth : Pubkey}
    {w s : TokenMetadata} (fs : List (Field × (TokenMetadata → String))) (L : Ledger) :
    OkLe (updateFieldsIfChanged env accounts pda prog mint auth w s fs L)
      (updateFieldsIfChanged env accounts' pda prog mint auth w s fs L) := by
  induction fs generalizing L with
  | nil => exact .refl _
  | cons f rest ih =>
    exact OkLe.bind (OkLe.ite (hm.invokeToken _ _ _ _ _) (.refl _)) fun L1 => ih L1

theorem syncAdditional_flags (hm : MoreFlags accounts accounts') {pda prog mint auth : Pubkey}
    (l : List (String × String)) (map : StrMap) (L : Ledger) :
    OkLe (syncAdditional env accounts pda prog mint auth l map L)
      (syncAdditional env accounts' pda prog mint auth l map L) := by
  induction l generalizing map L with
  | nil => exact .refl _
  | cons f rest ih =>
    exact OkLe.bind (OkLe.ite (hm.invokeToken _ _ _ _ _) (.refl _)) fun L1 => ih _ L1

theorem removeStale_flags (hm : MoreFlags accounts accounts') {pda prog mint auth : Pubkey}
    (l : List String) (L : Ledger) :
    OkLe (removeStale env accounts pda prog mint auth l L)
      (removeStale env accounts' pda prog mint auth l L) := by
  induction l generalizing L with
  | nil => exact .refl _
  | cons f rest ih => exact OkLe.bind (hm.invokeToken _ _ _ _ _) fun L1 => ih L1

theorem addFields_flags (hm : MoreFlags accounts accounts') {pda prog mint auth : Pubkey}
    (l : List (String × String)) (L : Ledger) :
    OkLe (addFields env accounts pda prog mint auth l L)
      (addFields env accounts' pda prog mint auth l L) := by
  induction l generalizing L with
  | nil => exact .refl _
  | cons f rest ih => exact OkLe.bind (hm.invokeToken _ _ _ _ _) fun L1 => ih L1

theorem processSync22_flags (hm : MoreFlags accounts accounts') :
    OkLe (processSyncToToken2022 env accounts L) (processSyncToToken2022 env accounts' L) := by
  unfold processSyncToToken2022
  have hm0 := hm
  rcases hm with _ | ⟨h1, _ | ⟨h2, _ | ⟨h3, _ | ⟨h4, hr⟩⟩⟩⟩ <;>
    first
    | (intro x hx'
       simp [parseSync22] at hx')
      done
    | skip
  simp only [parseSync22, ok_bind]
  simp only [h1.key, h2.key, h3.key, h4.key]
  refine OkLe.bind (.refl _) fun _ => OkLe.bind (.refl _) fun _ => OkLe.bind (.refl _) fun _ =>
    OkLe.bind (.refl _) fun _ => OkLe.bind (.refl _) fun p => OkLe.bind (.refl _) fun _ =>
    OkLe.bind (extract_flags hm0 (hr.get 0) (hr.get 1)) fun src =>
    OkLe.bind (.refl _) fun m => OkLe.bind (.refl _) fun pda => ?_
  split
  · exact OkLe.bind (updateFields_flags hm0 _ _) fun L1 =>
      OkLe.bind (syncAdditional_flags hm0 _ _ _) fun q => removeStale_flags hm0 _ _
  · exact OkLe.bind (hm0.invokeToken _ _ _ _ _) fun L1 => addFields_flags hm0 _ _

theorem processSyncSpl_flags (hm : MoreFlags accounts accounts') :
    OkLe (processSyncToSplToken env accounts L) (processSyncToSplToken env accounts' L) := by
  unfold processSyncToSplToken
  have hm0 := hm
  rcases hm with _ | ⟨h1, _ | ⟨h2, _ | ⟨h3, _ | ⟨h4, _ | ⟨h5, _ | ⟨h6, _ | ⟨h7, hr⟩⟩⟩⟩⟩⟩⟩ <;>
    first
    | (intro x hx'
       simp [parseSyncSpl] at hx')
      done
    | skip
  simp only [parseSyncSpl, ok_bind]
  simp only [h1.key, h2.key, h3.key, h4.key, h5.key, h6.key, h7.key, mplCreateMetas, mplUpdateMetas]
  exact OkLe.bind (.refl _) fun _ => OkLe.bind (.refl _) fun _ => OkLe.bind (.refl _) fun _ =>
    OkLe.bind (.refl _) fun p => OkLe.bind (.refl _) fun _ => OkLe.bind (.refl _) fun _ =>
    OkLe.bind (.refl _) fun _ => OkLe.bind (.refl _) fun _ =>
    OkLe.bind (extract_flags hm0 (hr.get 0) (hr.get 1)) fun src =>
    OkLe.bind (.refl _) fun m => OkLe.bind (.refl _) fun pda =>
    OkLe.ite (OkLe.bind (hm0.cpiCheck _ _ _ _) fun _ => .refl _)
      (OkLe.bind (hm0.cpiCheck _ _ _ _) fun _ => .refl _)

end

/-- **C73** An instruction that succeeds, succeeds with the same resulting ledger when its accounts
come with more privileges (the signatures after the ninth account, where Wrap and Unwrap look for
multisig members, being the same). -/
theorem more_privileges_change_nothing {env : Env} {accounts accounts' : List Meta} {data : Bytes}
    {L L' : Ledger} (hm : MoreFlags accounts accounts')
    (hs : (accounts.drop 9).map (·.signer) = (accounts'.drop 9).map (·.signer))
    (h : processInstruction env accounts data L = .ok L') :
    processInstruction env accounts' data L = .ok L' := by
  unfold processInstruction at h ⊢
  obtain ⟨ix, hix, h⟩ := bind_ok_iff.1 h
  rw [hix, ok_bind]
  cases ix with
  | createMint i => exact processCreateMint_flags i hm _ h
  | wrap n => exact processWrap_flags n hm hs _ h
  | unwrap n => exact processUnwrap_flags n hm hs _ h
  | closeStuckEscrow => exact processClose_flags hm _ h
  | syncMetadataToToken2022 => exact processSync22_flags hm _ h
  | syncMetadataToSplToken => exact processSyncSpl_flags hm _ h
  | setCanonicalPointer n => exact processPointer_flags n hm _ h

/-- The hypotheses are met: the wrap of the examples, with the payer's account writable and the
recipient signing. -/
example : MoreFlags Example.wrapAccounts
      (Example.wrapAccounts.map fun m => { m with signer := m.signer || m.key = Example.rcp, writable := true }) ∧
    (Example.wrapAccounts.drop 9).map (·.signer) = ((Example.wrapAccounts.map fun m =>
      { m with signer := m.signer || m.key = Example.rcp, writable := true }).drop 9).map (·.signer) ∧
    Example.ok (processInstruction Example.env Example.wrapAccounts (wrap 1000).pack Example.L0) = true := by
  have hm : ∀ l : List Meta, MoreFlags l
      (l.map fun m => { m with signer := m.signer || m.key = Example.rcp, writable := true }) := by
    intro l
    induction l with
    | nil => exact .nil
    | cons a l ih => exact .cons ⟨rfl, fun h => by simp [h], fun _ => rfl⟩ ih
  exact ⟨hm _, by decide +kernel, by decide +kernel⟩

end TokenWrap
