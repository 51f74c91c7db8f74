import Verif.CpiLemmas
import Verif.Props.Permissionless
/-! # C47: only the matching PDA ever signs

A token program (resp. Metaplex) sees, with each call, the set of signers.  `Env.reject` and
`Env.mplReject` are arbitrary functions of that call.  If the outcome of every instruction is the
same for any two such functions that agree on the calls *allowed* by the specification below, then
no other call is ever made. -/

set_option linter.unusedSimpArgs false

namespace TokenWrap

open TokenWrapInstruction

/-! ## Specification -/

/-- `k` is the authority of the wrapped mint `w`, which is the wrapped mint of `u` for some token
program. -/
def IsAuthorityFor (cr : Crypto) (u w k : Pubkey) : Prop :=
  (∃ p, wrappedMintAddress cr u p = some w) ∧ authorityAddress cr w = some k

/-- The PDA `k` may sign the token-program call `ix` to `prog` during a Token Wrap instruction of the
given kind: during Wrap only the authority, to mint its own wrapped mint; during Unwrap only the
authority, to pay out of its own escrow; during CloseStuckEscrow only the authority, to close its own
escrow; during SyncMetadataToToken2022 only the authority, to edit its own wrapped mint's metadata;
otherwise none. -/
def PdaMaySign (cr : Crypto) (instr : TokenWrapInstruction) (prog : Pubkey) (ix : TokenIx)
    (k : Pubkey) : Prop :=
  match instr, ix with
  | .wrap _, .mintTo w _ auth _ _ => auth = k ∧ ∃ u, IsAuthorityFor cr u w k
  | .unwrap _, .transferChecked src u _ auth _ _ _ =>
    auth = k ∧ associatedTokenAddress cr k u prog = some src ∧ ∃ w, IsAuthorityFor cr u w k
  | .closeStuckEscrow, .closeAccount acct _ auth _ =>
    auth = k ∧ ∃ u w, associatedTokenAddress cr k u prog = some acct ∧ IsAuthorityFor cr u w k
  | .syncMetadataToToken2022, .initializeMetadata w _ _ _ _ _ => ∃ u, IsAuthorityFor cr u w k
  | .syncMetadataToToken2022, .updateField w _ _ _ => ∃ u, IsAuthorityFor cr u w k
  | .syncMetadataToToken2022, .removeKey w _ _ _ => ∃ u, IsAuthorityFor cr u w k
  | _, _ => False

/-- A token-program call allowed during the instruction: every signer either signed the Token Wrap
instruction itself or is the matching PDA. -/
def CallAllowed (cr : Crypto) (accounts : List Meta) (instr : TokenWrapInstruction) (prog : Pubkey)
    (ix : TokenIx) (signed : Pubkey → Bool) : Prop :=
  ∀ k, signed k = true → Signs accounts k ∨ PdaMaySign cr instr prog ix k

/-- A Metaplex call allowed during the instruction: only in SyncMetadataToSplToken, and every signer
signed the instruction or is the authority of the wrapped mint whose metadata account is written. -/
def MplCallAllowed (cr : Crypto) (accounts : List Meta) (instr : TokenWrapInstruction)
    (metadata : Pubkey) (signed : Pubkey → Bool) : Prop :=
  instr = .syncMetadataToSplToken ∧ ∀ k, signed k = true → Signs accounts k ∨
    ∃ u w, metaplexPda cr w = some metadata ∧ IsAuthorityFor cr u w k

/-- The same environment with other callees. -/
def Env.withCallees (env : Env) (r : Pubkey → TokenIx → (Pubkey → Bool) → Ledger → Option TokenErr)
    (mr : (Pubkey → Bool) → Pubkey → DataV2 → Ledger → Option Nat) : Env :=
  { env with reject := r, mplReject := mr }

/-! ## Proof -/

section
variable {env : Env} {r : Pubkey → TokenIx → (Pubkey → Bool) → Ledger → Option TokenErr}
  {mr : (Pubkey → Bool) → Pubkey → DataV2 → Ledger → Option Nat} {accounts : List Meta}
  {instr : TokenWrapInstruction} {L : Ledger}

/-- `r` agrees with the environment's own token programs on every allowed call. -/
def AgreeTok (env : Env) (r : Pubkey → TokenIx → (Pubkey → Bool) → Ledger → Option TokenErr)
    (accounts : List Meta) (instr : TokenWrapInstruction) : Prop :=
  ∀ prog ix signed L, CallAllowed env.cr accounts instr prog ix signed →
    r prog ix signed L = env.reject prog ix signed L

/-- `mr` agrees with the environment's own Metaplex on every allowed call. -/
def AgreeMpl (env : Env) (mr : (Pubkey → Bool) → Pubkey → DataV2 → Ledger → Option Nat)
    (accounts : List Meta) (instr : TokenWrapInstruction) : Prop :=
  ∀ signed metadata data L, MplCallAllowed env.cr accounts instr metadata signed →
    mr signed metadata data L = env.mplReject signed metadata data L

theorem tokenExec_callees {prog : Pubkey} {ix : TokenIx} {signed : Pubkey → Bool}
    (h : r prog ix signed L = env.reject prog ix signed L) :
    tokenExec (env.withCallees r mr) prog ix signed L = tokenExec env prog ix signed L := by
  unfold tokenExec
  rw [show (env.withCallees r mr).reject prog ix signed L = env.reject prog ix signed L from h]
  split
  · rfl
  · cases ix <;> rfl

theorem cpiCheck_metas {caller : List Meta} {pdas borrowed : List Pubkey} {callee : Pubkey}
    {metas : List Meta} {x : Unit} (h : cpiCheck caller pdas borrowed callee metas = .ok x) :
    ∀ m ∈ metas, metaAllowed caller pdas m = true := by
  unfold cpiCheck at h
  simp only [bind_ok_iff, require_ok_iff] at h
  obtain ⟨_, _, _, _, h⟩ := h
  exact List.all_eq_true.1 h

theorem invokeToken_callees (h : AgreeTok env r accounts instr) {pdas borrowed : List Pubkey}
    {prog : Pubkey} {ix : TokenIx}
    (hp : ∀ k ∈ pdas, signedBy ix.metas k = true → PdaMaySign env.cr instr prog ix k) :
    invokeToken (env.withCallees r mr) accounts pdas borrowed prog ix L =
      invokeToken env accounts pdas borrowed prog ix L := by
  unfold invokeToken
  refine bind_congr_ok fun _ _ => bind_congr_ok fun _ hc => tokenExec_callees (h _ _ _ _ ?_)
  intro k hk
  rcases signedBy_caller (cpiCheck_metas hc) hk with hs | hs
  · exact .inl hs
  · exact .inr (hp k hs hk)

theorem invokeToken_callees_nopda (h : AgreeTok env r accounts instr) {borrowed : List Pubkey}
    {prog : Pubkey} {ix : TokenIx} :
    invokeToken (env.withCallees r mr) accounts [] borrowed prog ix L =
      invokeToken env accounts [] borrowed prog ix L :=
  invokeToken_callees h (fun _ h => by cases h)

theorem signerPda_callees {seeds : List Bytes} :
    signerPda (env.withCallees r mr) seeds = signerPda env seeds := rfl

theorem createMint_callees {i : Bool} (h : AgreeTok env r accounts (.createMint i)) :
    processCreateMint (env.withCallees r mr) defaultToken2022Customizer accounts i L =
      processCreateMint env defaultToken2022Customizer accounts i L := by
  unfold processCreateMint
  refine bind_congr_ok fun a _ => bind_congr_ok fun ⟨W, wb⟩ _ => bind_congr_ok fun ⟨B, bb⟩ _ => ?_
  dsimp only
  refine bind_congr_ok fun _ _ => bind_congr_ok fun _ _ => bind_congr_ok fun _ _ =>
    ite_both (fun _ => rfl) fun _ => ?_
  have hi : createMintInit (env.withCallees r mr) defaultToken2022Customizer accounts a wb L =
      createMintInit env defaultToken2022Customizer accounts a wb L := by
    unfold createMintInit
    refine bind_congr_ok fun _ _ => bind_congr_ok fun _ _ => bind_congr_ok fun _ _ =>
      bind_congr_ok fun _ _ => bind_congr_ok fun L2 _ => ?_
    have hext : defaultToken2022Customizer.initializeExtensions (env.withCallees r mr) accounts
        a.wrappedMint.key a.wrappedTokenProgram.key L2 =
        defaultToken2022Customizer.initializeExtensions env accounts
        a.wrappedMint.key a.wrappedTokenProgram.key L2 := by
      simp only [defaultToken2022Customizer, invokeToken_callees_nopda h]
      rfl
    rw [hext]
    refine bind_congr_ok fun _ _ => bind_congr_ok fun ⟨_, _⟩ _ => bind_congr_ok fun _ _ => ?_
    exact invokeToken_callees_nopda h
  rw [hi]
  rfl

theorem isAuthority_of {u p W A : Pubkey} {bump : UInt8} (h1 : wrappedMintAddress env.cr u p = some W)
    (h2 : authorityWithSeed env.cr W = some (A, bump)) : IsAuthorityFor env.cr u W A :=
  ⟨⟨p, h1⟩, authorityAddress_some.2 ⟨bump, h2⟩⟩

theorem wrap_callees (hid : env.programId = crateId) {n : UInt64}
    (h : AgreeTok env r accounts (.wrap n)) :
    processWrap (env.withCallees r mr) accounts n L = processWrap env accounts n L := by
  unfold processWrap
  refine bind_congr_ok fun _ _ => bind_congr_ok fun a _ => bind_congr_ok fun W hW =>
    bind_congr_ok fun _ h1 => bind_congr_ok fun ⟨A, bump⟩ hA => ?_
  dsimp only
  refine bind_congr_ok fun _ h2 => bind_congr_ok fun _ _ => bind_congr_ok fun _ _ =>
    bind_congr_ok fun _ _ => bind_congr_ok fun _ _ => bind_congr_ok fun m _ =>
    bind_congr_ok fun _ _ => ?_
  simp only [require_ok_iff, decide_eq_true_eq, okOr_ok_iff] at h1 h2 hW hA
  subst h1; subst h2
  have ht : wrapTransfer (env.withCallees r mr) accounts a m n.toNat
      (wrapFee (env.withCallees r mr) m n.toNat) L =
      wrapTransfer env accounts a m n.toNat (wrapFee env m n.toNat) L := by
    unfold wrapTransfer
    exact ite_both (fun _ => invokeToken_callees_nopda h) fun _ => invokeToken_callees_nopda h
  rw [ht]
  refine bind_congr_ok fun _ _ => bind_congr_ok fun p hp => ?_
  have : p = a.authority.key := signerPda_eq hid hA hp
  subst this
  refine invokeToken_callees h fun k hk _ => ?_
  simp only [List.mem_singleton] at hk
  subst hk
  exact ⟨rfl, _, isAuthority_of hW hA⟩

theorem unwrap_callees (hid : env.programId = crateId) {n : UInt64}
    (h : AgreeTok env r accounts (.unwrap n)) :
    processUnwrap (env.withCallees r mr) accounts n L = processUnwrap env accounts n L := by
  unfold processUnwrap
  refine bind_congr_ok fun _ _ => bind_congr_ok fun a _ => bind_congr_ok fun W hW =>
    bind_congr_ok fun _ h1 => bind_congr_ok fun ⟨A, bump⟩ hA => ?_
  dsimp only
  refine bind_congr_ok fun _ h2 => bind_congr_ok fun E hE => bind_congr_ok fun _ h3 => ?_
  simp only [require_ok_iff, decide_eq_true_eq, okOr_ok_iff] at h1 h2 h3 hW hA hE
  subst h1; subst h2; subst h3
  rw [invokeToken_callees_nopda h]
  refine bind_congr_ok fun _ _ => bind_congr_ok fun _ _ => bind_congr_ok fun p hp => ?_
  have : p = a.authority.key := signerPda_eq hid hA hp
  subst this
  refine invokeToken_callees h fun k hk _ => ?_
  simp only [List.mem_singleton] at hk
  subst hk
  exact ⟨rfl, hE, _, isAuthority_of hW hA⟩

theorem close_callees (hid : env.programId = crateId)
    (h : AgreeTok env r accounts .closeStuckEscrow) :
    processCloseStuckEscrow (env.withCallees r mr) accounts L = processCloseStuckEscrow env accounts L := by
  unfold processCloseStuckEscrow
  refine bind_congr_ok fun a _ => bind_congr_ok fun _ h0 => bind_congr_ok fun W hW =>
    bind_congr_ok fun _ h1 => bind_congr_ok fun ⟨A, bump⟩ hA => ?_
  dsimp only
  refine bind_congr_ok fun _ h2 => bind_congr_ok fun E hE => bind_congr_ok fun _ h3 =>
    bind_congr_ok fun _ _ => bind_congr_ok fun _ _ => bind_congr_ok fun _ _ =>
    bind_congr_ok fun _ _ => bind_congr_ok fun _ _ => bind_congr_ok fun _ _ =>
    bind_congr_ok fun p hp => ?_
  simp only [require_ok_iff, decide_eq_true_eq, okOr_ok_iff, Bool.and_eq_true] at h0 h1 h2 h3 hW hA hE
  subst h1; subst h2; subst h3
  have : p = a.authority.key := signerPda_eq hid hA hp
  subst this
  refine invokeToken_callees h fun k hk _ => ?_
  simp only [List.mem_singleton] at hk
  subst hk
  rw [h0.2] at hE
  rw [h0.1]
  exact ⟨rfl, _, _, hE, isAuthority_of hW hA⟩

theorem extract_callees {u : Pubkey} {source op : Option Meta} :
    extractTokenMetadata (env.withCallees r mr) accounts u source op L =
      extractTokenMetadata env accounts u source op L := rfl

theorem sync22_callees (hid : env.programId = crateId)
    (h : AgreeTok env r accounts .syncMetadataToToken2022) :
    processSyncToToken2022 (env.withCallees r mr) accounts L = processSyncToToken2022 env accounts L := by
  unfold processSyncToToken2022
  refine bind_congr_ok fun a _ => bind_congr_ok fun _ _ => bind_congr_ok fun _ _ =>
    bind_congr_ok fun W hW => bind_congr_ok fun _ h1 => bind_congr_ok fun ⟨A, bump⟩ hA => ?_
  dsimp only
  refine bind_congr_ok fun _ h2 => bind_congr_ok fun src _ => bind_congr_ok fun m _ =>
    bind_congr_ok fun p hp => ?_
  simp only [require_ok_iff, decide_eq_true_eq, okOr_ok_iff] at h1 h2 hW hA
  subst h1; subst h2
  have : p = a.authority.key := signerPda_eq hid hA hp
  subst this
  have hauth := isAuthority_of hW hA
  generalize a.wrappedMint.key = W at *
  generalize a.authority.key = A at *
  generalize a.tokenProgram.key = prog at *
  have hcpi : ∀ {ix : TokenIx} {L : Ledger}, PdaMaySign env.cr .syncMetadataToToken2022 prog ix A →
      metaCpi (env.withCallees r mr) accounts A prog ix L = metaCpi env accounts A prog ix L := by
    intro ix L hix
    refine invokeToken_callees h fun k hk _ => ?_
    simp only [List.mem_singleton] at hk
    subst hk
    exact hix
  have hupd : ∀ {f v} {L : Ledger},
      metaCpi (env.withCallees r mr) accounts A prog (.updateField W A f v) L =
      metaCpi env accounts A prog (.updateField W A f v) L := hcpi ⟨_, hauth⟩
  have hf : ∀ w s fs L, updateFieldsIfChanged (env.withCallees r mr) accounts A prog W A w s fs L =
      updateFieldsIfChanged env accounts A prog W A w s fs L := by
    intro w s fs
    induction fs with
    | nil => intro L; rfl
    | cons p rest ih => intro L; simp only [updateFieldsIfChanged, hupd, ih]
  have hs : ∀ src map L, syncAdditional (env.withCallees r mr) accounts A prog W A src map L =
      syncAdditional env accounts A prog W A src map L := by
    intro src
    induction src with
    | nil => intro map L; rfl
    | cons p rest ih => intro map L; simp only [syncAdditional, hupd, ih]
  have ha : ∀ src L, addFields (env.withCallees r mr) accounts A prog W A src L =
      addFields env accounts A prog W A src L := by
    intro src
    induction src with
    | nil => intro L; rfl
    | cons p rest ih => intro L; simp only [addFields, hupd, ih]
  have hr : ∀ ks L, removeStale (env.withCallees r mr) accounts A prog W A ks L =
      removeStale env accounts A prog W A ks L := by
    intro ks
    induction ks with
    | nil => intro L; rfl
    | cons p rest ih =>
      intro L
      simp only [removeStale, ih]
      rw [hcpi (ix := .removeKey W A p false) ⟨_, hauth⟩]
  cases m.tokenMetadata? with
  | some w =>
    simp only [hf, hs, hr]
    rfl
  | none =>
    simp only [ha]
    rw [hcpi (ix := .initializeMetadata W A A src.name src.symbol src.uri) ⟨_, hauth⟩]

theorem syncSpl_callees (hid : env.programId = crateId)
    (h : AgreeMpl env mr accounts .syncMetadataToSplToken) :
    processSyncToSplToken (env.withCallees r mr) accounts L = processSyncToSplToken env accounts L := by
  unfold processSyncToSplToken
  refine bind_congr_ok fun a _ => bind_congr_ok fun _ _ => bind_congr_ok fun W hW =>
    bind_congr_ok fun _ h1 => bind_congr_ok fun ⟨A, bump⟩ hA => ?_
  dsimp only
  refine bind_congr_ok fun _ h2 => bind_congr_ok fun M hM => bind_congr_ok fun _ h3 =>
    bind_congr_ok fun _ _ => bind_congr_ok fun src _ => ?_
  rw [show token2022ToMetaplex (env.withCallees r mr) src = token2022ToMetaplex env src from by
    have : ∀ l acc, convLoop (env.withCallees r mr) l acc = convLoop env l acc := by
      intro l
      induction l with
      | nil => intro acc; rfl
      | cons kv rest ih => intro acc; simp only [convLoop, ih]; rfl
    unfold token2022ToMetaplex
    rw [this]]
  refine bind_congr_ok fun data _ => bind_congr_ok fun p hp => ?_
  simp only [require_ok_iff, decide_eq_true_eq, okOr_ok_iff] at h1 h2 h3 hW hA hM
  subst h1; subst h2; subst h3
  have : p = a.authority.key := signerPda_eq hid hA hp
  subst this
  have hauth := isAuthority_of hW hA
  have key : ∀ metas : List Meta, (∀ m ∈ metas, metaAllowed accounts [a.authority.key] m = true) →
      ∀ data L, mr (signedBy metas) a.metaplexMetadata.key data L =
        env.mplReject (signedBy metas) a.metaplexMetadata.key data L := by
    intro metas hm data L
    refine h _ _ _ _ ⟨rfl, fun k hk => ?_⟩
    rcases signedBy_caller hm hk with hs | hs
    · exact .inl hs
    · simp only [List.mem_singleton] at hs
      subst hs
      exact .inr ⟨_, _, hM, hauth⟩
  refine ite_both (fun _ => bind_congr_ok fun _ hc => ?_) fun _ => bind_congr_ok fun _ hc => ?_
  · unfold mplCreate
    rw [show ∀ data L, (env.withCallees r mr).mplReject (signedBy (mplCreateMetas a))
      a.metaplexMetadata.key data L = _ from key _ (cpiCheck_metas hc)]
    rfl
  · unfold mplUpdate
    rw [show ∀ data L, (env.withCallees r mr).mplReject (signedBy (mplUpdateMetas a))
      a.metaplexMetadata.key data L = _ from key _ (cpiCheck_metas hc)]
    rfl

/-- **C47** The outcome of an instruction does not depend on how the token programs and Metaplex
treat calls outside the specification: hence no call is ever made in which an address signs that
neither signed the Token Wrap instruction itself nor is the PDA matching that very call.  In
particular the user's transfer in Wrap and the burn in Unwrap are never signed by a PDA. -/
theorem only_matching_pda_signs (hid : env.programId = crateId) (ix : TokenWrapInstruction)
    (hr : ∀ prog call signed L, CallAllowed env.cr accounts ix prog call signed →
      r prog call signed L = env.reject prog call signed L)
    (hmr : ∀ signed metadata data L, MplCallAllowed env.cr accounts ix metadata signed →
      mr signed metadata data L = env.mplReject signed metadata data L) :
    processInstruction (env.withCallees r mr) accounts ix.pack L =
      processInstruction env accounts ix.pack L := by
  rw [processInstruction_pack, processInstruction_pack]
  cases ix with
  | createMint i => exact createMint_callees hr
  | wrap n => exact wrap_callees hid hr
  | unwrap n => exact unwrap_callees hid hr
  | closeStuckEscrow => exact close_callees hid hr
  | syncMetadataToToken2022 => exact sync22_callees hid hr
  | syncMetadataToSplToken => exact syncSpl_callees hid hmr
  | setCanonicalPointer k => rfl

end

/-! ### Non-vacuity -/
namespace Example

/-- Token programs that refuse a fee transfer, or any burn, as soon as the authority PDA signs it. -/
def suspicious : Pubkey → TokenIx → (Pubkey → Bool) → Ledger → Option TokenErr :=
  fun _ ix signed _ => match ix with
    | .transferCheckedWithFee .. => if signed A then some .ownerMismatch else none
    | .burn .. => if signed A then some .ownerMismatch else none
    | _ => none

theorem not_signs_A (m : Meta) (hm : m ∈ wrapAccounts) : ¬ (m.key = A ∧ m.signer = true) := by
  revert m
  decide +kernel

/-- The theorem applies to them: Wrap behaves the same. -/
example : processInstruction (env.withCallees suspicious env.mplReject) wrapAccounts
    (TokenWrapInstruction.wrap 1000).pack L0 =
    processInstruction env wrapAccounts (TokenWrapInstruction.wrap 1000).pack L0 := by
  refine only_matching_pda_signs rfl _ ?_ (fun _ _ _ _ _ => rfl)
  intro prog call signed L h
  have hA : ∀ (src mint dst auth : Pubkey) ms n d f, call =
      .transferCheckedWithFee src mint dst auth ms n d f → signed A = false := by
    rintro src mint dst auth ms n d f rfl
    cases hs : signed A with
    | false => rfl
    | true =>
      rcases h A hs with ⟨m, hm, h1⟩ | h
      · exact absurd h1 (not_signs_A m hm)
      · exact h.elim
  have hB : ∀ (acct mint auth : Pubkey) ms n, call = .burn acct mint auth ms n → signed A = false := by
    rintro acct mint auth ms n rfl
    cases hs : signed A with
    | false => rfl
    | true =>
      rcases h A hs with ⟨m, hm, h1⟩ | h
      · exact absurd h1 (not_signs_A m hm)
      · exact h.elim
  show suspicious prog call signed L = none
  unfold suspicious
  split
  · rw [hA _ _ _ _ _ _ _ _ rfl]; rfl
  · rw [hB _ _ _ _ _ rfl]; rfl
  · rfl

/-- The hypothesis is not idle: refusing the allowed PDA-signed MintTo does change the outcome. -/
example : fails (processInstruction (env.withCallees (fun _ ix signed _ => match ix with
      | .mintTo .. => if signed A then some .ownerMismatch else none
      | _ => none) env.mplReject) wrapAccounts (TokenWrapInstruction.wrap 1000).pack L0)
    (.token .ownerMismatch) = true := by decide +kernel

end Example

end TokenWrap
