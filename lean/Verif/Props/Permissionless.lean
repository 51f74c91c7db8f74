import Verif.CloseLemmas
import Verif.Sync22Lemmas
import Verif.SyncSplLemmas
import Verif.Examples
/-! # C44: CreateMint, CloseStuckEscrow and the two syncs need no signature -/

set_option linter.unusedSimpArgs false

namespace TokenWrap

open TokenWrapInstruction

/-- Specification: the same accounts with the same write access, whoever signed. -/
def SameButSigners (a b : List Meta) : Prop :=
  a.map (fun m => (m.key, m.writable)) = b.map (fun m => (m.key, m.writable))

/-- The account without its signature. -/
def unsign (m : Meta) : Meta := { m with signer := false }

@[simp] theorem unsign_key (m : Meta) : (unsign m).key = m.key := rfl
@[simp] theorem unsign_writable (m : Meta) : (unsign m).writable = m.writable := rfl
@[simp] theorem unsign_signer (m : Meta) : (unsign m).signer = false := rfl

theorem writeOwn_unsign {env : Env} {m : Meta} {b : Bytes} {L : Ledger} :
    writeOwn env (unsign m) b L = writeOwn env m b L := rfl

theorem unsign_map_eq {a b : List Meta} (h : SameButSigners a b) : a.map unsign = b.map unsign := by
  unfold SameButSigners at h
  have e : ∀ l : List Meta, l.map unsign =
      (l.map (fun m => (m.key, m.writable))).map (fun p => (⟨p.1, false, p.2⟩ : Meta)) := by
    intro l; simp [List.map_map, Function.comp_def, unsign]
  rw [e, e, h]

theorem bind_congr_ok {ε α β : Type} {x : Except ε α} {f g : α → Except ε β}
    (h : ∀ a, x = .ok a → f a = g a) : (x >>= f) = (x >>= g) := by
  cases x with
  | ok a => exact h a rfl
  | error e => rfl

theorem ite_both {α : Type} {c : Prop} [Decidable c] {a b a' b' : α} (h1 : c → a = a')
    (h2 : ¬c → b = b') : (if c then a else b) = if c then a' else b' := by
  by_cases h : c
  · rw [if_pos h, if_pos h, h1 h]
  · rw [if_neg h, if_neg h, h2 h]

section
variable {caller : List Meta} {pdas borrowed : List Pubkey}

theorem metaAllowed_unsign {m : Meta} (h : m.signer = true → m.key ∈ pdas) :
    metaAllowed (caller.map unsign) pdas m = metaAllowed caller pdas m := by
  unfold metaAllowed
  have e1 : ((caller.map unsign).any fun c => decide (c.key = m.key)) =
      caller.any fun c => decide (c.key = m.key) := by rw [List.any_map]; rfl
  have e2 : ((caller.map unsign).any fun c => decide (c.key = m.key) && c.writable) =
      caller.any fun c => decide (c.key = m.key) && c.writable := by
    rw [List.any_map]; rfl
  rw [e1, e2]
  congr 1
  cases hs : m.signer with
  | false => rfl
  | true => simp [h hs]

theorem cpiCheck_unsign {callee : Pubkey} {metas : List Meta}
    (h : ∀ m ∈ metas, m.signer = true → m.key ∈ pdas) :
    cpiCheck (caller.map unsign) pdas borrowed callee metas =
      cpiCheck caller pdas borrowed callee metas := by
  unfold cpiCheck
  have e1 : ((caller.map unsign).any fun c => decide (c.key = callee)) =
      caller.any fun c => decide (c.key = callee) := by
    rw [List.any_map]; rfl
  have e2 : metas.all (metaAllowed (caller.map unsign) pdas) =
      metas.all (metaAllowed caller pdas) := by
    rw [Bool.eq_iff_iff, List.all_eq_true, List.all_eq_true]
    constructor
    · intro hh m hm; rw [← metaAllowed_unsign (h m hm)]; exact hh m hm
    · intro hh m hm; rw [metaAllowed_unsign (h m hm)]; exact hh m hm
  rw [e1, e2]

theorem invokeToken_unsign {env : Env} {prog : Pubkey} {ix : TokenIx} {L : Ledger}
    (h : ∀ m ∈ ix.metas, m.signer = true → m.key ∈ pdas) :
    invokeToken env (caller.map unsign) pdas borrowed prog ix L =
      invokeToken env caller pdas borrowed prog ix L := by
  unfold invokeToken
  rw [cpiCheck_unsign h]

theorem invokeAllocate_unsign {k : Pubkey} {n : Nat} {L : Ledger} :
    invokeAllocate (caller.map unsign) [k] k n L = invokeAllocate caller [k] k n L := by
  unfold invokeAllocate
  rw [cpiCheck_unsign (by simp)]

theorem invokeAssign_unsign {k o : Pubkey} {L : Ledger} :
    invokeAssign (caller.map unsign) [k] k o L = invokeAssign caller [k] k o L := by
  unfold invokeAssign
  rw [cpiCheck_unsign (by simp)]

end

section
variable {env : Env} {accounts : List Meta} {L : Ledger}

theorem signerPda_eq (hid : env.programId = crateId) {seeds : List Bytes} {k : Pubkey} {b : UInt8}
    (h : findProgramAddress env.cr seeds crateId = some (k, b)) {p : Pubkey}
    (hp : signerPda env (seeds ++ [[b]]) = .ok p) : p = k := by
  rw [signerPda_ok_iff, hid] at hp
  have := findProgramAddress_spec h
  rw [this] at hp
  cases hp
  rfl

theorem createMint_unsigned (hid : env.programId = crateId) (idem : Bool) :
    processCreateMint env defaultToken2022Customizer (accounts.map unsign) idem L =
      processCreateMint env defaultToken2022Customizer accounts idem L := by
  rcases accounts with _ | ⟨a, _ | ⟨b, _ | ⟨c, _ | ⟨d, _ | ⟨e, rest⟩⟩⟩⟩⟩
  iterate 5 (simp only [List.map, processCreateMint, parseCreateMint, error_bind])
  generalize hacc : a :: b :: c :: d :: e :: rest = accounts
  have hp1 : parseCreateMint (accounts.map unsign) =
      .ok ⟨unsign a, unsign b, unsign c, unsign d, unsign e⟩ := by rw [← hacc]; rfl
  have hp2 : parseCreateMint accounts = .ok ⟨a, b, c, d, e⟩ := by rw [← hacc]; rfl
  unfold processCreateMint
  rw [hp1, hp2, ok_bind, ok_bind]
  simp only [unsign_key]
  refine bind_congr_ok fun ⟨W, wb⟩ hW => ?_
  refine bind_congr_ok fun ⟨B, bb⟩ hB => ?_
  dsimp only
  refine bind_congr_ok fun _ h1 => ?_
  refine bind_congr_ok fun _ h2 => ?_
  refine bind_congr_ok fun _ h3 => ?_
  simp only [require_ok_iff, okOr_ok_iff] at h1 h2 hW hB
  have h1 := of_decide_eq_true h1
  have h2 := of_decide_eq_true h2
  subst h1; subst h2
  refine ite_both (fun _ => rfl) fun _ => ?_
  · have hi : ∀ L, createMintInit env defaultToken2022Customizer (accounts.map unsign)
        ⟨unsign a, unsign b, unsign c, unsign d, unsign e⟩ wb L =
        createMintInit env defaultToken2022Customizer accounts ⟨a, b, c, d, e⟩ wb L := by
      intro L
      unfold createMintInit
      refine bind_congr_ok fun space _ => ?_
      refine bind_congr_ok fun _ _ => ?_
      refine bind_congr_ok fun p hp => ?_
      have : p = a.key := signerPda_eq hid hW hp
      subst this
      simp only [unsign, invokeAllocate_unsign, invokeAssign_unsign]
      refine bind_congr_ok fun L1 _ => ?_
      refine bind_congr_ok fun L2 _ => ?_
      have hext : ∀ L, defaultToken2022Customizer.initializeExtensions env (accounts.map unsign)
          a.key e.key L = defaultToken2022Customizer.initializeExtensions env accounts a.key e.key L := by
        intro L
        simp only [defaultToken2022Customizer]
        rw [invokeToken_unsign (by simp [TokenIx.metas, Meta.rw])]
        refine bind_congr_ok fun L1 _ => ?_
        refine bind_congr_ok fun A _ => ?_
        rw [invokeToken_unsign (by simp [TokenIx.metas, Meta.rw])]
      show ((if e.key = token2022Id then defaultToken2022Customizer.initializeExtensions env
        (accounts.map unsign) a.key e.key L2 else .ok L2) >>= _) = _
      rw [hext]
      refine bind_congr_ok fun L3 _ => ?_
      refine bind_congr_ok fun ⟨f, dec⟩ _ => ?_
      refine bind_congr_ok fun A _ => ?_
      exact invokeToken_unsign (by simp [TokenIx.metas, Meta.rw])
    rw [hi]
    refine bind_congr_ok fun L1 _ => ?_
    unfold createBackpointer
    refine bind_congr_ok fun _ _ => ?_
    refine bind_congr_ok fun p hp => ?_
    have : p = b.key := signerPda_eq hid hB hp
    subst this
    show ((invokeAllocate (accounts.map unsign) [b.key] b.key 32 L1) >>= _) = _
    rw [invokeAllocate_unsign]
    refine bind_congr_ok fun L2 _ => ?_
    show ((invokeAssign (accounts.map unsign) [b.key] b.key env.programId L2) >>= _) = _
    rw [invokeAssign_unsign]
    rfl

theorem close_unsigned (hid : env.programId = crateId) :
    processCloseStuckEscrow env (accounts.map unsign) L = processCloseStuckEscrow env accounts L := by
  rcases accounts with _ | ⟨a, _ | ⟨b, _ | ⟨c, _ | ⟨d, _ | ⟨e, _ | ⟨f, rest⟩⟩⟩⟩⟩⟩
  iterate 6 (simp only [List.map, processCloseStuckEscrow, parseClose, error_bind])
  generalize hacc : a :: b :: c :: d :: e :: f :: rest = accounts
  have hp1 : parseClose (accounts.map unsign) =
      .ok ⟨unsign a, unsign b, unsign c, unsign d, unsign e, unsign f⟩ := by rw [← hacc]; rfl
  have hp2 : parseClose accounts = .ok ⟨a, b, c, d, e, f⟩ := by rw [← hacc]; rfl
  unfold processCloseStuckEscrow
  rw [hp1, hp2, ok_bind, ok_bind]
  simp only [unsign_key]
  refine bind_congr_ok fun _ _ => ?_
  refine bind_congr_ok fun _ _ => ?_
  refine bind_congr_ok fun _ _ => ?_
  refine bind_congr_ok fun ⟨A, bump⟩ hA => ?_
  dsimp only
  refine bind_congr_ok fun _ h1 => ?_
  refine bind_congr_ok fun _ _ => ?_
  refine bind_congr_ok fun _ _ => ?_
  refine bind_congr_ok fun _ _ => ?_
  refine bind_congr_ok fun _ _ => ?_
  refine bind_congr_ok fun _ _ => ?_
  refine bind_congr_ok fun _ _ => ?_
  refine bind_congr_ok fun _ _ => ?_
  refine bind_congr_ok fun _ _ => ?_
  refine bind_congr_ok fun p hp => ?_
  simp only [require_ok_iff, okOr_ok_iff] at h1 hA
  have h1 := of_decide_eq_true h1
  subst h1
  have : p = e.key := signerPda_eq hid hA hp
  subst this
  refine invokeToken_unsign ?_
  simp [TokenIx.metas, authMetas, Meta.rw, Meta.ro, unsign]

theorem extract_unsigned {u : Pubkey} {source op : Option Meta} :
    extractTokenMetadata env (accounts.map unsign) u (source.map unsign) (op.map unsign) L =
      extractTokenMetadata env accounts u source op L := by
  have hread : readMetaplexForMint env u (source.map unsign) L = readMetaplexForMint env u source L := by
    cases source <;> rfl
  have hemit : ∀ q k, cpiEmitAndDecode env (accounts.map unsign) q k L =
      cpiEmitAndDecode env accounts q k L := by
    intro q k
    unfold cpiEmitAndDecode
    rw [cpiCheck_unsign (by simp [Meta.ro])]
  unfold extractTokenMetadata resolveToken2022Source
  rw [hread]
  split
  · refine bind_congr_ok fun m _ => ?_
    cases m.metadataPointer? with
    | none => rfl
    | some p =>
      obtain ⟨_, _ | addr⟩ := p
      · rfl
      · dsimp only
        split
        · rfl
        · cases source with
          | none => rfl
          | some s =>
            simp only [Option.map_some, okOr_some, ok_bind, unsign_key]
            refine bind_congr_ok fun _ _ => ?_
            refine ite_both (fun _ => rfl) fun _ => ite_both (fun _ => rfl) fun _ => ?_
            cases op with
            | none => rfl
            | some o =>
              simp only [Option.map_some, okOr_some, ok_bind, unsign_key]
              refine bind_congr_ok fun _ _ => ?_
              exact hemit _ _
  · rfl

theorem metaCpi_unsigned {A prog : Pubkey} {ix : TokenIx}
    (h : ∀ m ∈ ix.metas, m.signer = true → m.key = A) :
    metaCpi env (accounts.map unsign) A prog ix L = metaCpi env accounts A prog ix L :=
  invokeToken_unsign fun m hm hs => by rw [h m hm hs]; simp

theorem updateField_unsigned {A prog W : Pubkey} {f : Field} {v : String} {L : Ledger} :
    metaCpi env (accounts.map unsign) A prog (.updateField W A f v) L =
      metaCpi env accounts A prog (.updateField W A f v) L :=
  metaCpi_unsigned (by simp [TokenIx.metas, Meta.rw, Meta.ro])

theorem sync22_unsigned (hid : env.programId = crateId) :
    processSyncToToken2022 env (accounts.map unsign) L = processSyncToToken2022 env accounts L := by
  rcases accounts with _ | ⟨a, _ | ⟨b, _ | ⟨c, _ | ⟨d, rest⟩⟩⟩⟩
  iterate 4 (simp only [List.map, processSyncToToken2022, parseSync22, error_bind])
  generalize hacc : a :: b :: c :: d :: rest = accounts
  have hp1 : parseSync22 (accounts.map unsign) =
      .ok ⟨unsign a, unsign b, unsign c, unsign d, rest[0]?.map unsign, rest[1]?.map unsign⟩ := by
    rw [← hacc]; simp [parseSync22]
  have hp2 : parseSync22 accounts = .ok ⟨a, b, c, d, rest[0]?, rest[1]?⟩ := by rw [← hacc]; rfl
  have hf : ∀ W A prog w s fs L, updateFieldsIfChanged env (accounts.map unsign) A prog W A w s fs L =
      updateFieldsIfChanged env accounts A prog W A w s fs L := by
    intro W A prog w s fs
    induction fs with
    | nil => intro L; rfl
    | cons p rest ih => intro L; simp only [updateFieldsIfChanged, updateField_unsigned, ih]
  have hs : ∀ W A prog src map L, syncAdditional env (accounts.map unsign) A prog W A src map L =
      syncAdditional env accounts A prog W A src map L := by
    intro W A prog src
    induction src with
    | nil => intro map L; rfl
    | cons p rest ih => intro map L; simp only [syncAdditional, updateField_unsigned, ih]
  have ha : ∀ W A prog src L, addFields env (accounts.map unsign) A prog W A src L =
      addFields env accounts A prog W A src L := by
    intro W A prog src
    induction src with
    | nil => intro L; rfl
    | cons p rest ih => intro L; simp only [addFields, updateField_unsigned, ih]
  have hr : ∀ W A prog ks L, removeStale env (accounts.map unsign) A prog W A ks L =
      removeStale env accounts A prog W A ks L := by
    intro W A prog ks
    induction ks with
    | nil => intro L; rfl
    | cons p rest ih =>
      intro L
      simp only [removeStale, ih]
      rw [metaCpi_unsigned (by simp [TokenIx.metas, Meta.rw, Meta.ro])]
  unfold processSyncToToken2022
  rw [hp1, hp2, ok_bind, ok_bind]
  simp only [unsign_key]
  refine bind_congr_ok fun _ _ => ?_
  refine bind_congr_ok fun _ _ => ?_
  refine bind_congr_ok fun _ _ => ?_
  refine bind_congr_ok fun _ _ => ?_
  refine bind_congr_ok fun ⟨A, bump⟩ hA => ?_
  dsimp only
  refine bind_congr_ok fun _ h1 => ?_
  simp only [require_ok_iff, okOr_ok_iff] at h1 hA
  have h1 := of_decide_eq_true h1
  subst h1
  rw [extract_unsigned]
  refine bind_congr_ok fun src _ => ?_
  refine bind_congr_ok fun m _ => ?_
  refine bind_congr_ok fun p hp => ?_
  have : p = b.key := signerPda_eq hid hA hp
  subst this
  cases m.tokenMetadata? with
  | some w =>
    dsimp only [unsign]
    simp only [hf]
    refine bind_congr_ok fun L1 _ => ?_
    simp only [hs]
    refine bind_congr_ok fun ⟨r, L2⟩ _ => ?_
    simp only [hr]
  | none =>
    dsimp only [unsign]
    rw [metaCpi_unsigned (by simp [TokenIx.metas, Meta.rw, Meta.ro])]
    refine bind_congr_ok fun L1 _ => ?_
    exact ha _ _ _ _ _

theorem syncSpl_unsigned (hid : env.programId = crateId) :
    processSyncToSplToken env (accounts.map unsign) L = processSyncToSplToken env accounts L := by
  rcases accounts with _ | ⟨a, _ | ⟨b, _ | ⟨c, _ | ⟨d, _ | ⟨e, _ | ⟨f, _ | ⟨g, rest⟩⟩⟩⟩⟩⟩⟩
  iterate 7 (simp only [List.map, processSyncToSplToken, parseSyncSpl, error_bind])
  generalize hacc : a :: b :: c :: d :: e :: f :: g :: rest = accounts
  have hp1 : parseSyncSpl (accounts.map unsign) =
      .ok ⟨unsign a, unsign b, unsign c, unsign d, unsign e, unsign f, unsign g,
        rest[0]?.map unsign, rest[1]?.map unsign⟩ := by
    rw [← hacc]; simp [parseSyncSpl]
  have hp2 : parseSyncSpl accounts = .ok ⟨a, b, c, d, e, f, g, rest[0]?, rest[1]?⟩ := by
    rw [← hacc]; rfl
  unfold processSyncToSplToken
  rw [hp1, hp2, ok_bind, ok_bind]
  simp only [unsign_key]
  refine bind_congr_ok fun _ _ => ?_
  refine bind_congr_ok fun _ _ => ?_
  refine bind_congr_ok fun _ _ => ?_
  refine bind_congr_ok fun ⟨A, bump⟩ hA => ?_
  dsimp only
  refine bind_congr_ok fun _ h1 => ?_
  simp only [require_ok_iff, okOr_ok_iff] at h1 hA
  have h1 := of_decide_eq_true h1
  subst h1
  refine bind_congr_ok fun _ _ => ?_
  refine bind_congr_ok fun _ _ => ?_
  refine bind_congr_ok fun _ _ => ?_
  rw [extract_unsigned]
  refine bind_congr_ok fun src _ => ?_
  refine bind_congr_ok fun data _ => ?_
  refine bind_congr_ok fun p hp => ?_
  have : p = b.key := signerPda_eq hid hA hp
  subst this
  refine ite_both (fun _ => ?_) fun _ => ?_
  · rw [cpiCheck_unsign (by simp [mplCreateMetas, Meta.rw, Meta.ro, unsign])]
    rfl
  · rw [cpiCheck_unsign (by simp [mplUpdateMetas, Meta.rw, Meta.ro, unsign])]
    rfl

/-- **C44** CreateMint, CloseStuckEscrow and both syncs are permissionless: two account lists that
differ only in who signed give exactly the same outcome, whether success (with the same ledger) or
failure (with the same error). -/
theorem permissionless (hid : env.programId = crateId) {accounts' : List Meta}
    (h : SameButSigners accounts accounts') {ix : TokenWrapInstruction}
    (hix : (∃ i, ix = .createMint i) ∨ ix = .closeStuckEscrow ∨ ix = .syncMetadataToToken2022 ∨
      ix = .syncMetadataToSplToken) :
    processInstruction env accounts ix.pack L = processInstruction env accounts' ix.pack L := by
  rw [processInstruction_pack, processInstruction_pack]
  have hm := unsign_map_eq h
  rcases hix with ⟨i, rfl⟩ | rfl | rfl | rfl
  · simp only [dispatch]
    rw [← createMint_unsigned hid, hm, createMint_unsigned hid]
  · simp only [dispatch]
    rw [← close_unsigned hid, hm, close_unsigned hid]
  · simp only [dispatch]
    rw [← sync22_unsigned hid, hm, sync22_unsigned hid]
  · simp only [dispatch]
    rw [← syncSpl_unsigned hid, hm, syncSpl_unsigned hid]

end

/-! ### Non-vacuity: a CreateMint nobody signed succeeds; a Wrap is not permissionless -/
namespace Example

/-- The unwrapped mint exists; the wrapped mint's and backpointer's addresses are only funded. -/
def fundedWorld : Ledger := fun k =>
  if k = u then ⟨200, token2022Id, .mint (uMint [])⟩
  else if k = W ∨ k = B then ⟨200, systemId, .bytes []⟩ else Account.empty

def createAccounts44 : List Meta := (Build.createMint crateId W B u splTokenId false).accounts

example : ok (processInstruction env createAccounts44 (TokenWrapInstruction.createMint false).pack
    fundedWorld) = true ∧ ¬ ∃ k, Signs createAccounts44 k := by
  refine ⟨by decide +kernel, ?_⟩
  rintro ⟨k, m, hm, -, hs⟩
  revert m
  decide +kernel

/-- By contrast, the outcome of Wrap does depend on who signed. -/
example : fails (processInstruction env (wrapAccounts.map unsign)
    (TokenWrapInstruction.wrap 1000).pack L0) .privilegeEscalation = true := by decide +kernel

end Example

end TokenWrap
