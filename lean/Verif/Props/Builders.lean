import Verif.CpiLemmas
import Verif.Examples
/-! # C06: instruction builders and processors agree -/

set_option linter.unusedSimpArgs false

namespace TokenWrap

open TokenWrapInstruction

/-! ## Specification -/

/-- Failures that mean "the transaction did not grant a needed privilege": a CPI needs a signature
or write access the caller's account list does not give, names an account or program that is not in
the list, or the program writes an account passed read-only. -/
def PrivilegeError (e : Err) : Prop :=
  e = .privilegeEscalation ∨ e = .missingAccount ∨ e = .readonlyDataModified

/-- The outcome is not a privilege failure. -/
def NoPrivilegeError {α : Type} (r : Res α) : Prop := ∀ e, r = .error e → ¬ PrivilegeError e

/-! ## Roles and data -/

/-- **C06** (roles) For each builder the processor's account parser gives every account back in the
role under which the caller passed it to the builder, and the data decodes to the instruction
meant. -/
theorem builders_roles :
    (∀ pid w b u wp i, parseCreateMint (Build.createMint pid w b u wp i).accounts = .ok
        { wrappedMint := .rw w false, backpointer := .rw b false, unwrappedMint := .ro u false
          systemProgram := .ro systemId false, wrappedTokenProgram := .ro wp false } ∧
      unpack (Build.createMint pid w b u wp i).data = .ok (.createMint i)) ∧
    (∀ pid r w a up wp src u e ta ms n,
      parseWrap (Build.wrap pid r w a up wp src u e ta ms n).accounts = .ok
        { recipient := .rw r false, wrappedMint := .rw w false, authority := .ro a false
          unwrappedTokenProgram := .ro up false, wrappedTokenProgram := .ro wp false
          unwrappedTokenAccount := .rw src false, unwrappedMint := .ro u false
          escrow := .rw e false, transferAuthority := .ro ta ms.isEmpty
          additional := ms.map (.ro · true) } ∧
      unpack (Build.wrap pid r w a up wp src u e ta ms n).data = .ok (.wrap n)) ∧
    (∀ pid e r a u wp up wa w ta ms n,
      parseUnwrap (Build.unwrap pid e r a u wp up wa w ta ms n).accounts = .ok
        { escrow := .rw e false, recipient := .rw r false, authority := .ro a false
          unwrappedMint := .ro u false, wrappedTokenProgram := .ro wp false
          unwrappedTokenProgram := .ro up false, wrappedTokenAccount := .rw wa false
          wrappedMint := .rw w false, transferAuthority := .ro ta ms.isEmpty
          additional := ms.map (.ro · true) } ∧
      unpack (Build.unwrap pid e r a u wp up wa w ta ms n).data = .ok (.unwrap n)) ∧
    (∀ pid e d u w a, parseClose (Build.closeStuckEscrow pid e d u w a).accounts = .ok
        { escrow := .rw e false, destination := .rw d false, unwrappedMint := .ro u false
          wrappedMint := .ro w false, authority := .ro a false
          token2022Program := .ro token2022Id false } ∧
      unpack (Build.closeStuckEscrow pid e d u w a).data = .ok .closeStuckEscrow) ∧
    (∀ pid ma p u n, parsePointer (Build.setCanonicalPointer pid ma p u n).accounts = .ok
        { mintAuthority := .ro ma true, pointer := .rw p false, unwrappedMint := .ro u false
          systemProgram := .ro systemId false } ∧
      unpack (Build.setCanonicalPointer pid ma p u n).data = .ok (.setCanonicalPointer n)) := by
  refine ⟨fun _ _ _ _ _ _ => ⟨rfl, unpack_pack (.createMint _)⟩,
    fun _ _ _ _ _ _ _ _ _ _ _ _ => ⟨rfl, unpack_pack (.wrap _)⟩,
    fun _ _ _ _ _ _ _ _ _ _ _ _ => ⟨rfl, unpack_pack (.unwrap _)⟩,
    fun _ _ _ _ _ _ => ⟨rfl, unpack_pack .closeStuckEscrow⟩,
    fun _ _ _ _ _ => ⟨rfl, unpack_pack (.setCanonicalPointer _)⟩⟩

/-- **C06** (roles, metadata syncs) The same for the two syncs, provided an owner program is only
given together with a source account. -/
theorem builders_roles_sync {source owner : Option Pubkey} (h : owner.isSome → source.isSome) :
    (∀ pid w a u, parseSync22 (Build.syncMetadataToToken2022 pid w a u source owner).accounts = .ok
        { wrappedMint := .rw w false, authority := .ro a false, unwrappedMint := .ro u false
          tokenProgram := .ro token2022Id false, source := source.map (.ro · false)
          ownerProgram := owner.map (.ro · false) } ∧
      unpack (Build.syncMetadataToToken2022 pid w a u source owner).data =
        .ok .syncMetadataToToken2022) ∧
    (∀ pid mm a w u,
      parseSyncSpl (Build.syncMetadataToSplToken pid mm a w u source owner).accounts = .ok
        { metaplexMetadata := .rw mm false, authority := .rw a false, wrappedMint := .ro w false
          unwrappedMint := .ro u false, metaplexProgram := .ro metaplexId false
          systemProgram := .ro systemId false, rentSysvar := .ro rentSysvarId false
          source := source.map (.ro · false), ownerProgram := owner.map (.ro · false) } ∧
      unpack (Build.syncMetadataToSplToken pid mm a w u source owner).data =
        .ok .syncMetadataToSplToken) := by
  cases source with
  | none =>
    cases owner with
    | none => exact ⟨fun _ _ _ _ => ⟨rfl, unpack_pack .syncMetadataToToken2022⟩,
      fun _ _ _ _ _ => ⟨rfl, unpack_pack .syncMetadataToSplToken⟩⟩
    | some o => simp at h
  | some s =>
    cases owner with
    | none => exact ⟨fun _ _ _ _ => ⟨rfl, unpack_pack .syncMetadataToToken2022⟩,
      fun _ _ _ _ _ => ⟨rfl, unpack_pack .syncMetadataToSplToken⟩⟩
    | some o => exact ⟨fun _ _ _ _ => ⟨rfl, unpack_pack .syncMetadataToToken2022⟩,
      fun _ _ _ _ _ => ⟨rfl, unpack_pack .syncMetadataToSplToken⟩⟩

/-- **C06** (the exception) An owner program given without a source account ends up in the source
account's role: builder and processor disagree. -/
theorem builders_sync_shift (pid w a u mm o : Pubkey) :
    (∃ p, parseSync22 (Build.syncMetadataToToken2022 pid w a u none (some o)).accounts = .ok p ∧
      p.source = some (.ro o false) ∧ p.ownerProgram = none) ∧
    (∃ p, parseSyncSpl (Build.syncMetadataToSplToken pid mm a w u none (some o)).accounts = .ok p ∧
      p.source = some (.ro o false) ∧ p.ownerProgram = none) :=
  ⟨⟨_, rfl, rfl, rfl⟩, ⟨_, rfl, rfl, rfl⟩⟩

/-! ## Privileges -/

section np
variable {α β : Type}

theorem np_ok {a : α} : NoPrivilegeError (.ok a) := fun _ h => by cases h
theorem np_pure {a : α} : NoPrivilegeError (pure a) := np_ok

theorem np_error {e : Err} (h : ¬ PrivilegeError e) : NoPrivilegeError (.error e : Res α) := by
  intro e' he; cases he; exact h

theorem np_require {c : Bool} {e : Err} (h : ¬ PrivilegeError e) : NoPrivilegeError (require c e) := by
  cases c
  · exact np_error h
  · exact np_ok

theorem np_require_true {c : Bool} {e : Err} (h : c = true) : NoPrivilegeError (require c e) := by
  subst h; exact np_ok

theorem np_okOr {o : Option α} {e : Err} (h : ¬ PrivilegeError e) : NoPrivilegeError (okOr o e) := by
  cases o
  · exact np_error h
  · exact np_ok

theorem np_bind {x : Res α} {f : α → Res β} (hx : NoPrivilegeError x)
    (hf : ∀ a, x = .ok a → NoPrivilegeError (f a)) : NoPrivilegeError (x >>= f) := by
  cases x with
  | ok a => exact hf a rfl
  | error e => intro e' he; cases he; exact hx e rfl

theorem np_ite {c : Prop} [Decidable c] {x y : Res α} (hx : c → NoPrivilegeError x)
    (hy : ¬ c → NoPrivilegeError y) : NoPrivilegeError (if c then x else y) := by
  split
  · exact hx ‹_›
  · exact hy ‹_›

end np

/-- Discharge goals about computations whose errors are visibly no privilege errors. -/
macro "np" : tactic => `(tactic| repeat' (first
  | assumption
  | (refine np_ok)
  | (refine np_pure)
  | (refine np_error ?_; simp [PrivilegeError, wrapErr, TokenWrapError.toErr]; done)
  | (refine np_require ?_; simp [PrivilegeError, wrapErr, TokenWrapError.toErr]; done)
  | (refine np_okOr ?_; simp [PrivilegeError, wrapErr, TokenWrapError.toErr]; done)
  | (refine np_bind ?_ ?_)
  | (refine np_ite ?_ ?_)
  | split
  | intro _))

section
variable {env : Env} {prog : Pubkey} {L : Ledger}

theorem np_getToken {k : Pubkey} : NoPrivilegeError (getToken prog L k) := by unfold getToken; np
theorem np_getMint {k : Pubkey} : NoPrivilegeError (getMint prog L k) := by unfold getMint; np

theorem np_validateOwner {e a : Pubkey} {s : List Pubkey} {g : Pubkey → Bool} :
    NoPrivilegeError (validateOwner prog L e a s g) := by unfold validateOwner; np

theorem np_spendAuth {t : TokenAcct} {pd : Option Pubkey} {a : Pubkey} {s : List Pubkey}
    {g : Pubkey → Bool} {n : Nat} : NoPrivilegeError (spendAuth prog L t pd a s g n) := by
  have := @np_validateOwner prog L
  unfold spendAuth
  np
  all_goals exact np_validateOwner

theorem np_transferExec {g : Pubkey → Bool} {s d a : Pubkey} {ms : List Pubkey} {n : Nat}
    {c : Option (Pubkey × UInt8)} {f : Option Nat} :
    NoPrivilegeError (transferExec env prog g L s d a ms n c f) := by
  unfold transferExec transferCheck checkMint feeOf transferMove moveLamports
  np
  all_goals first | exact np_getToken | exact np_getMint | exact np_spendAuth

theorem np_tokenExec {ix : TokenIx} {g : Pubkey → Bool} :
    NoPrivilegeError (tokenExec env prog ix g L) := by
  unfold tokenExec
  split
  · np
  cases ix <;> dsimp only
  case transfer | transferChecked | transferCheckedWithFee => exact np_transferExec
  case mintTo => unfold mintToExec; np; all_goals first | exact np_getToken | exact np_getMint | exact np_validateOwner
  case burn => unfold burnExec; np; all_goals first | exact np_getToken | exact np_getMint | exact np_spendAuth
  case closeAccount => unfold closeAccountExec; np; all_goals first | exact np_validateOwner
  case approve => unfold approveExec; np; all_goals first | exact np_getToken | exact np_validateOwner
  case revoke => unfold revokeExec; np; all_goals first | exact np_getToken | exact np_validateOwner
  case setAuthority => unfold setAuthorityExec; np; all_goals first | exact np_getToken | exact np_validateOwner
  case freezeAccount => unfold freezeExec; np; all_goals first | exact np_getToken | exact np_getMint | exact np_validateOwner
  case initMintExt => unfold initMintExtExec; np
  case initializeMint2 => unfold initializeMint2Exec preMintExts; np
  case initializeAccount3 => unfold initializeAccount3Exec; np; all_goals exact np_getMint
  case initializeMultisig => unfold initializeMultisigExec; np
  case addAcctExt => unfold addAcctExtExec; np; all_goals first | exact np_getToken | exact np_validateOwner
  case syncNative => unfold syncNativeExec; np; all_goals first | exact np_getToken
  case setTransferFee => unfold setTransferFeeExec; np; all_goals first | exact np_getMint | exact np_validateOwner
  case withdrawWithheld => unfold withdrawWithheldExec; np; all_goals first | exact np_getMint | exact np_getToken | exact np_validateOwner
  case harvestWithheld => unfold harvestWithheldExec; np; all_goals first | exact np_getMint | exact np_getToken
  case withdrawWithheldFromMint => unfold withdrawWithheldFromMintExec; np; all_goals first | exact np_getMint | exact np_getToken | exact np_validateOwner
  case updateMintExt => unfold updateMintExtExec; np; all_goals first | exact np_getMint | exact np_validateOwner
  case withdrawExcessLamports => unfold withdrawExcessLamportsExec excessAuthority; np; all_goals exact np_validateOwner
  case unwrapLamports => unfold unwrapLamportsExec moveLamports; np; all_goals first | exact np_getToken | exact np_validateOwner
  case updateMetadataPointer => unfold updateMetadataPointerExec; np; all_goals first | exact np_getMint | exact np_validateOwner
  case confidentialDeposit => unfold confidentialExec; np; all_goals first | exact np_getToken | exact np_validateOwner
  case confidentialWithdraw => unfold confidentialExec; np; all_goals first | exact np_getToken | exact np_validateOwner
  case confidentialTransfer => unfold confidentialTransferExec; np; all_goals first | exact np_getToken | exact np_validateOwner
  case initializeMetadata => unfold initializeMetadataExec; np; all_goals first | exact np_getMint
  case updateField => unfold metadataUpdateExec; np; all_goals first | exact np_getMint
  case removeKey => unfold metadataUpdateExec removeKeyRes; np; all_goals first | exact np_getMint
  case updateMetadataAuthority => unfold metadataUpdateExec; np; all_goals first | exact np_getMint

end

section
variable {env : Env} {caller : List Meta} {pdas borrowed : List Pubkey} {L : Ledger}

theorem np_cpiCheck {callee : Pubkey} {metas : List Meta} (h1 : ∃ c ∈ caller, c.key = callee)
    (h2 : ∀ m ∈ metas, metaAllowed caller pdas m = true) :
    NoPrivilegeError (cpiCheck caller pdas borrowed callee metas) := by
  unfold cpiCheck
  refine np_bind (np_require (by simp [PrivilegeError])) fun _ _ => np_bind (np_require_true ?_)
    fun _ _ => np_require_true ?_
  · obtain ⟨c, hc, hk⟩ := h1
    exact List.any_eq_true.2 ⟨c, hc, by simpa using hk⟩
  · exact List.all_eq_true.2 h2

theorem np_invokeToken {prog : Pubkey} {ix : TokenIx} (h1 : ∃ c ∈ caller, c.key = prog)
    (h2 : ∀ m ∈ ix.metas, metaAllowed caller pdas m = true) :
    NoPrivilegeError (invokeToken env caller pdas borrowed prog ix L) := by
  unfold invokeToken
  exact np_bind (np_require (by simp [PrivilegeError])) fun _ _ =>
    np_bind (np_cpiCheck h1 h2) fun _ _ => np_tokenExec

theorem np_invokeAllocate {k : Pubkey} {n : Nat} (h1 : ∃ c ∈ caller, c.key = systemId)
    (h2 : metaAllowed caller pdas ⟨k, true, true⟩ = true) :
    NoPrivilegeError (invokeAllocate caller pdas k n L) := by
  unfold invokeAllocate sysAllocate
  refine np_bind (np_cpiCheck h1 (by simpa using h2)) ?_
  np

theorem np_invokeAssign {k o : Pubkey} (h1 : ∃ c ∈ caller, c.key = systemId)
    (h2 : metaAllowed caller pdas ⟨k, true, true⟩ = true) :
    NoPrivilegeError (invokeAssign caller pdas k o L) := by
  unfold invokeAssign sysAssign
  refine np_bind (np_cpiCheck h1 (by simpa using h2)) ?_
  np

theorem np_writeOwn {m : Meta} {b : Bytes} (h : m.writable = true) :
    NoPrivilegeError (writeOwn env m b L) := by
  unfold writeOwn
  rw [h]
  np

theorem np_signerPda {seeds : List Bytes} : NoPrivilegeError (signerPda env seeds) := by
  unfold signerPda; np

theorem np_unpackMint {d : Data} : NoPrivilegeError (unpackMint d) := by
  by_cases h : ∃ t, d = .mint t
  · obtain ⟨t, rfl⟩ := h
    intro e h; cases h
  · rcases unpackMint_error (d := d) (fun t e => h ⟨t, e⟩) with e | e <;> rw [e] <;> np
theorem np_unpackToken {d : Data} : NoPrivilegeError (unpackToken d) := by
  by_cases h : ∃ t, d = .token t
  · obtain ⟨t, rfl⟩ := h
    intro e h; cases h
  · rcases unpackToken_error (d := d) (fun t e => h ⟨t, e⟩) with e | e <;> rw [e] <;> np

/-- The PDA signed for is the validated address. -/
theorem pda_is {seeds : List Bytes} {k p : Pubkey} {b : UInt8} (hid : env.programId = crateId)
    (h : findProgramAddress env.cr seeds crateId = some (k, b))
    (hp : signerPda env (seeds ++ [[b]]) = .ok p) : p = k := by
  rw [signerPda_ok_iff, hid, findProgramAddress_spec h] at hp
  exact (Option.some.inj hp).symm

end

/-- Steps of a processor that visibly cannot be privilege failures. -/
macro "nps" : tactic => `(tactic| first
  | exact np_require (by simp [PrivilegeError, wrapErr, TokenWrapError.toErr])
  | exact np_okOr (by simp [PrivilegeError, wrapErr, TokenWrapError.toErr])
  | exact np_signerPda | exact np_unpackMint | exact np_unpackToken)

section
variable {env : Env} {L : Ledger}

theorem np_createMint (hid : env.programId = crateId) (w b u wp : Pubkey) (i : Bool) :
    NoPrivilegeError (processCreateMint env defaultToken2022Customizer
      (Build.createMint crateId w b u wp i).accounts i L) := by
  generalize hacc : (Build.createMint crateId w b u wp i).accounts = accounts
  have hp : parseCreateMint accounts = .ok
      ⟨.rw w false, .rw b false, .ro u false, .ro systemId false, .ro wp false⟩ := by
    rw [← hacc]; rfl
  have hmem : ∀ m ∈ [Meta.rw w false, .rw b false, .ro u false, .ro systemId false, .ro wp false],
      m ∈ accounts := by intro m hm; rw [← hacc]; exact hm
  have hsys : ∃ c ∈ accounts, c.key = systemId := ⟨_, hmem (.ro systemId false) (by simp), rfl⟩
  have hwp : ∃ c ∈ accounts, c.key = wp := ⟨_, hmem (.ro wp false) (by simp), rfl⟩
  have hw : ∀ pdas, metaAllowed accounts pdas (.rw w false) = true := fun pdas =>
    metaAllowed_of_mem (hmem (.rw w false) (by simp)) rfl (fun _ => rfl) (fun h => by cases h)
  have hw' : metaAllowed accounts [w] ⟨w, true, true⟩ = true :=
    metaAllowed_of_mem (hmem (.rw w false) (by simp)) rfl (fun _ => rfl) (fun _ => .inl (by simp))
  have hb' : metaAllowed accounts [b] ⟨b, true, true⟩ = true :=
    metaAllowed_of_mem (hmem (.rw b false) (by simp)) rfl (fun _ => rfl) (fun _ => .inl (by simp))
  unfold processCreateMint
  rw [hp, ok_bind]
  refine np_bind (by nps) fun ⟨W, wb⟩ hW => ?_
  refine np_bind (by nps) fun ⟨B, bb⟩ hB => ?_
  dsimp only
  refine np_bind (by nps) fun _ h1 => np_bind (by nps) fun _ h2 => np_bind (by nps) fun _ _ => ?_
  simp only [require_ok_iff, okOr_ok_iff] at h1 h2 hW hB
  have h1 := of_decide_eq_true h1
  have h2 := of_decide_eq_true h2
  change w = W at h1
  change b = B at h2
  subst h1 h2
  refine np_ite (fun _ => by np) fun _ => np_bind ?_ fun L1 _ => ?_
  · unfold createMintInit wrappedMintSpace
    refine np_bind (by unfold defaultToken2022Customizer; np) fun _ _ => np_bind (by nps) fun _ _ =>
      np_bind (by nps) fun p hpd => ?_
    have := pda_is hid hW hpd
    subst this
    refine np_bind (np_invokeAllocate hsys hw') fun _ _ => np_bind (np_invokeAssign hsys hw')
      fun _ _ => np_bind ?_ fun _ _ => ?_
    · refine np_ite (fun _ => ?_) fun _ => np_ok
      simp only [defaultToken2022Customizer]
      refine np_bind (np_invokeToken hwp ?_) fun _ _ => np_bind (by nps) fun _ _ =>
        np_invokeToken hwp ?_ <;> simpa [TokenIx.metas, Meta.rw] using hw []
    · refine np_bind (np_bind np_unpackMint fun _ _ => np_pure)
        fun ⟨_, _⟩ _ => np_bind (by nps) fun _ _ => np_invokeToken hwp ?_
      simpa [TokenIx.metas, Meta.rw] using hw []
  · unfold createBackpointer
    refine np_bind (by nps) fun _ _ => np_bind (by nps) fun p hpd => ?_
    have := pda_is hid hB hpd
    subst this
    exact np_bind (np_invokeAllocate hsys hb') fun _ _ => np_bind (np_invokeAssign hsys hb')
      fun _ _ => np_bind (by nps) fun _ _ => np_writeOwn rfl

/-- Spec: the signatures the caller supplies can be of use: either no multisig members are listed
(then the transfer authority itself signs), or the authority is a token multisig and at least one
listed signer is a member. -/
def UsefulSigners (L : Ledger) (authority : Pubkey) (members : List Pubkey) : Prop :=
  members = [] ∨ ∃ ms, (L authority).data = .multisig ms ∧
    isTokenProgram (L authority).owner = true ∧ ∃ k ∈ members, k ∈ ms.signers

theorem authMetas_allowed {accounts : List Meta} {pdas members : List Pubkey} {ta : Pubkey}
    (h : UsefulSigners L ta members) (h1 : Meta.ro ta members.isEmpty ∈ accounts)
    (h2 : ∀ k ∈ members, Meta.ro k true ∈ accounts) :
    ∀ m ∈ authMetas ta (extractMultisig L ta (members.map fun k => .ro k true)),
      metaAllowed accounts pdas m = true := by
  intro m hm
  simp only [authMetas, List.mem_cons, List.mem_map] at hm
  rcases hm with rfl | ⟨k, hk, rfl⟩
  · refine metaAllowed_of_mem h1 rfl (fun h => by cases h) fun hs => .inr ?_
    rcases h with rfl | ⟨ms, hd, ho, k, hk, hkm⟩
    · rfl
    · exfalso
      simp only [Meta.ro, List.isEmpty_iff] at hs
      unfold extractMultisig at hs
      rw [hd] at hs
      simp only [ho, if_true, List.map_eq_nil_iff, List.filter_eq_nil_iff, List.mem_map,
        forall_exists_index, and_imp] at hs
      exact hs _ k hk rfl (by simp [Meta.ro, hkm])
  · refine metaAllowed_of_mem (h2 k ?_) rfl (fun h => by cases h) fun _ => .inr rfl
    unfold extractMultisig at hk
    split at hk
    · split at hk
      · simp only [List.mem_map, List.mem_filter] at hk
        obtain ⟨m, ⟨⟨k', hk', rfl⟩, -⟩, rfl⟩ := hk
        exact hk'
      · cases hk
    · cases hk

theorem np_wrap (hid : env.programId = crateId) (r w a up wp src u e ta : Pubkey)
    (members : List Pubkey) (n : UInt64) (hs : UsefulSigners L ta members) :
    NoPrivilegeError (processWrap env
      (Build.wrap crateId r w a up wp src u e ta members n).accounts n L) := by
  generalize hacc : (Build.wrap crateId r w a up wp src u e ta members n).accounts = accounts
  have hp : parseWrap accounts = .ok ⟨.rw r false, .rw w false, .ro a false, .ro up false,
      .ro wp false, .rw src false, .ro u false, .rw e false, .ro ta members.isEmpty,
      members.map (fun k => .ro k true)⟩ := by rw [← hacc]; rfl
  have hmem : ∀ m ∈ [Meta.rw r false, .rw w false, .ro a false, .ro up false, .ro wp false,
      .rw src false, .ro u false, .rw e false, .ro ta members.isEmpty] ++
      members.map (fun k => Meta.ro k true), m ∈ accounts := by intro m hm; rw [← hacc]; exact hm
  have hup : ∃ c ∈ accounts, c.key = up := ⟨_, hmem (.ro up false) (by simp), rfl⟩
  have hwp : ∃ c ∈ accounts, c.key = wp := ⟨_, hmem (.ro wp false) (by simp), rfl⟩
  have hrw : ∀ k pdas, Meta.rw k false ∈ accounts → metaAllowed accounts pdas (.rw k false) = true :=
    fun k pdas h => metaAllowed_of_mem h rfl (fun _ => rfl) (fun h => by cases h)
  have hro : ∀ k pdas, Meta.ro k false ∈ accounts → metaAllowed accounts pdas (.ro k false) = true :=
    fun k pdas h => metaAllowed_of_mem h rfl (fun h => by cases h) (fun h => by cases h)
  have haut : metaAllowed accounts [a] (.ro a true) = true :=
    metaAllowed_of_mem (hmem (.ro a false) (by simp)) rfl (fun h => by cases h)
      (fun _ => .inl (by simp [Meta.ro]))
  unfold processWrap
  refine np_bind (by nps) fun _ _ => ?_
  rw [hp, ok_bind]
  refine np_bind (by nps) fun _ _ => np_bind (by nps) fun _ _ => np_bind (by nps) fun ⟨A, bump⟩ hA => ?_
  dsimp only
  refine np_bind (by nps) fun _ h1 => ?_
  simp only [require_ok_iff, okOr_ok_iff] at h1 hA
  have h1 := of_decide_eq_true h1
  change a = A at h1
  subst h1
  refine np_bind (by nps) fun _ _ => np_bind (by nps) fun _ _ => np_bind (by nps) fun _ _ =>
    np_bind (by nps) fun _ _ => np_bind (by nps) fun m _ => np_bind (by nps) fun _ _ =>
    np_bind ?_ fun _ _ => np_bind (by nps) fun p hpd => ?_
  · have ht : ∀ m ∈ [Meta.rw src false, .ro u false, .rw e false] ++
        authMetas ta (extractMultisig L ta (members.map fun k => .ro k true)),
        metaAllowed accounts [] m = true := by
      intro m hm
      rcases List.mem_append.1 hm with hm | hm
      · simp only [List.mem_cons, List.not_mem_nil, or_false] at hm
        rcases hm with rfl | rfl | rfl
        · exact hrw _ _ (hmem _ (by simp))
        · exact hro _ _ (hmem _ (by simp))
        · exact hrw _ _ (hmem _ (by simp))
      · exact authMetas_allowed hs (hmem _ (by simp)) 
          (fun k hk => hmem _ (List.mem_append_right _ (List.mem_map.2 ⟨k, hk, rfl⟩))) m hm
    exact np_ite (fun _ => np_invokeToken hup ht) fun _ => np_invokeToken hup ht
  · have := pda_is hid hA hpd
    subst this
    refine np_invokeToken hwp ?_
    intro m hm
    simp only [TokenIx.metas, authMetas, List.map_nil, List.isEmpty_nil, List.cons_append,
      List.nil_append, List.mem_cons, List.not_mem_nil, or_false] at hm
    rcases hm with rfl | rfl | rfl
    · exact hrw _ _ (hmem (.rw w false) (by simp))
    · exact hrw _ _ (hmem (.rw r false) (by simp))
    · exact haut

theorem np_unwrap (hid : env.programId = crateId) (e r a u wp up wa w ta : Pubkey)
    (members : List Pubkey) (n : UInt64) (hs : UsefulSigners L ta members) :
    NoPrivilegeError (processUnwrap env
      (Build.unwrap crateId e r a u wp up wa w ta members n).accounts n L) := by
  generalize hacc : (Build.unwrap crateId e r a u wp up wa w ta members n).accounts = accounts
  have hp : parseUnwrap accounts = .ok ⟨.rw e false, .rw r false, .ro a false, .ro u false,
      .ro wp false, .ro up false, .rw wa false, .rw w false, .ro ta members.isEmpty,
      members.map (fun k => .ro k true)⟩ := by rw [← hacc]; rfl
  have hmem : ∀ m ∈ [Meta.rw e false, .rw r false, .ro a false, .ro u false, .ro wp false,
      .ro up false, .rw wa false, .rw w false, .ro ta members.isEmpty] ++
      members.map (fun k => Meta.ro k true), m ∈ accounts := by intro m hm; rw [← hacc]; exact hm
  have hup : ∃ c ∈ accounts, c.key = up := ⟨_, hmem (.ro up false) (by simp), rfl⟩
  have hwp : ∃ c ∈ accounts, c.key = wp := ⟨_, hmem (.ro wp false) (by simp), rfl⟩
  have hrw : ∀ k pdas, Meta.rw k false ∈ accounts → metaAllowed accounts pdas (.rw k false) = true :=
    fun k pdas h => metaAllowed_of_mem h rfl (fun _ => rfl) (fun h => by cases h)
  have hro : ∀ k pdas, Meta.ro k false ∈ accounts → metaAllowed accounts pdas (.ro k false) = true :=
    fun k pdas h => metaAllowed_of_mem h rfl (fun h => by cases h) (fun h => by cases h)
  unfold processUnwrap
  refine np_bind (by nps) fun _ _ => ?_
  rw [hp, ok_bind]
  refine np_bind (by nps) fun _ _ => np_bind (by nps) fun _ _ => np_bind (by nps) fun ⟨A, bump⟩ hA => ?_
  dsimp only
  refine np_bind (by nps) fun _ h1 => ?_
  simp only [require_ok_iff, okOr_ok_iff] at h1 hA
  have h1 := of_decide_eq_true h1
  change a = A at h1
  subst h1
  refine np_bind (by nps) fun _ _ => np_bind (by nps) fun _ _ => np_bind ?_ fun L1 _ =>
    np_bind (by nps) fun m _ => np_bind (by nps) fun p hpd => ?_
  · refine np_invokeToken hwp ?_
    intro m hm
    simp only [TokenIx.metas] at hm
    rcases List.mem_append.1 hm with hm | hm
    · simp only [List.mem_cons, List.not_mem_nil, or_false] at hm
      rcases hm with rfl | rfl
      · exact hrw _ _ (hmem (.rw wa false) (by simp))
      · exact hrw _ _ (hmem (.rw w false) (by simp))
    · exact authMetas_allowed hs (hmem _ (by simp)) 
          (fun k hk => hmem _ (List.mem_append_right _ (List.mem_map.2 ⟨k, hk, rfl⟩))) m hm
  · have := pda_is hid hA hpd
    subst this
    refine np_invokeToken hup ?_
    intro m hm
    simp only [TokenIx.metas] at hm
    rcases List.mem_append.1 hm with hm | hm
    · simp only [List.mem_cons, List.not_mem_nil, or_false] at hm
      rcases hm with rfl | rfl | rfl
      · exact hrw _ _ (hmem (.rw e false) (by simp))
      · exact hro _ _ (hmem (.ro u false) (by simp))
      · exact hrw _ _ (hmem (.rw r false) (by simp))
    · simp only [authMetas, List.mem_cons, List.mem_map] at hm
      rcases hm with rfl | ⟨k, hk, rfl⟩
      · exact metaAllowed_of_mem (hmem (.ro p false) (by simp)) rfl (fun h => by cases h)
          (fun _ => .inl (by simp [Meta.ro]))
      · unfold extractMultisig at hk
        split at hk
        · split at hk
          · simp only [List.mem_map, List.mem_filter] at hk
            obtain ⟨m, ⟨⟨k', hk', rfl⟩, -⟩, rfl⟩ := hk
            exact metaAllowed_of_mem (hmem (.ro k' true)
              (List.mem_append_right _ (List.mem_map.2 ⟨k', hk', rfl⟩))) rfl (fun h => by cases h)
              fun _ => .inr rfl
          · cases hk
        · cases hk

theorem np_close (hid : env.programId = crateId) (e d u w a : Pubkey) :
    NoPrivilegeError (processCloseStuckEscrow env
      (Build.closeStuckEscrow crateId e d u w a).accounts L) := by
  generalize hacc : (Build.closeStuckEscrow crateId e d u w a).accounts = accounts
  have hp : parseClose accounts = .ok ⟨.rw e false, .rw d false, .ro u false, .ro w false,
      .ro a false, .ro token2022Id false⟩ := by rw [← hacc]; rfl
  have hmem : ∀ m ∈ [Meta.rw e false, .rw d false, .ro u false, .ro w false, .ro a false,
      .ro token2022Id false], m ∈ accounts := by intro m hm; rw [← hacc]; exact hm
  unfold processCloseStuckEscrow
  rw [hp, ok_bind]
  refine np_bind (by nps) fun _ h0 => np_bind (by nps) fun _ _ => np_bind (by nps) fun _ _ =>
    np_bind (by nps) fun ⟨A, bump⟩ hA => ?_
  dsimp only
  refine np_bind (by nps) fun _ h1 => ?_
  simp only [require_ok_iff, okOr_ok_iff, Bool.and_eq_true, decide_eq_true_eq] at h0 h1 hA
  change a = A at h1
  subst h1
  refine np_bind (by nps) fun _ _ => np_bind (by nps) fun _ _ => np_bind (by nps) fun _ _ =>
    np_bind (by nps) fun _ _ => np_bind (by nps) fun _ _ => np_bind (by nps) fun _ _ =>
    np_bind (by nps) fun _ _ => np_bind (by nps) fun _ _ => np_bind (by nps) fun p hpd => ?_
  have := pda_is hid hA hpd
  subst this
  refine np_invokeToken ⟨_, hmem (.ro token2022Id false) (by simp), h0.1.symm⟩ ?_
  intro m hm
  simp only [TokenIx.metas, authMetas, List.map_nil, List.isEmpty_nil, List.cons_append,
    List.nil_append, List.mem_cons, List.not_mem_nil, or_false] at hm
  rcases hm with rfl | rfl | rfl
  · exact metaAllowed_of_mem (hmem (.rw e false) (by simp)) rfl (fun _ => rfl) (fun h => by cases h)
  · exact metaAllowed_of_mem (hmem (.rw d false) (by simp)) rfl (fun _ => rfl) (fun h => by cases h)
  · exact metaAllowed_of_mem (hmem (.ro p false) (by simp)) rfl (fun h => by cases h)
      (fun _ => .inl (by simp [Meta.ro]))

theorem np_pointer (hid : env.programId = crateId) (ma q u n : Pubkey) :
    NoPrivilegeError (processSetCanonicalPointer env
      (Build.setCanonicalPointer crateId ma q u n).accounts n L) := by
  generalize hacc : (Build.setCanonicalPointer crateId ma q u n).accounts = accounts
  have hp : parsePointer accounts = .ok ⟨.ro ma true, .rw q false, .ro u false,
      .ro systemId false⟩ := by rw [← hacc]; rfl
  have hmem : ∀ m ∈ [Meta.ro ma true, .rw q false, .ro u false, .ro systemId false],
      m ∈ accounts := by intro m hm; rw [← hacc]; exact hm
  have hsys : ∃ c ∈ accounts, c.key = systemId := ⟨_, hmem (.ro systemId false) (by simp), rfl⟩
  have hq : metaAllowed accounts [q] ⟨q, true, true⟩ = true :=
    metaAllowed_of_mem (hmem (.rw q false) (by simp)) rfl (fun _ => rfl) (fun _ => .inl (by simp))
  unfold processSetCanonicalPointer
  rw [hp, ok_bind]
  refine np_bind (by nps) fun _ _ => np_bind (by nps) fun _ _ => np_bind (by nps) fun _ _ =>
    np_bind (by nps) fun _ _ => np_bind (by nps) fun _ _ => np_bind (by nps) fun ⟨P, bump⟩ hP => ?_
  dsimp only
  refine np_bind (by nps) fun _ h1 => ?_
  simp only [require_ok_iff, okOr_ok_iff, decide_eq_true_eq] at h1 hP
  change q = P at h1
  subst h1
  refine np_bind ?_ fun _ _ => np_bind (by nps) fun _ _ => np_writeOwn rfl
  unfold initPointer
  refine np_ite (fun _ => np_bind (by nps) fun _ _ => np_bind (by nps) fun p hpd => ?_) fun _ => np_pure
  have := pda_is hid hP hpd
  subst this
  exact np_bind (np_invokeAllocate hsys hq) fun _ _ => np_invokeAssign hsys hq

theorem np_extract {accounts : List Meta} {u : Pubkey} {source owner : Option Pubkey}
    (hs : ∀ k, source = some k → Meta.ro k false ∈ accounts)
    (ho : ∀ k, owner = some k → Meta.ro k false ∈ accounts) :
    NoPrivilegeError (extractTokenMetadata env accounts u (source.map (.ro · false))
      (owner.map (.ro · false)) L) := by
  have hread : NoPrivilegeError (readMetaplexForMint env u (source.map (.ro · false)) L) := by
    unfold readMetaplexForMint metaplexToToken2022; np
  unfold extractTokenMetadata resolveToken2022Source
  refine np_ite (fun _ => np_bind np_unpackMint fun m _ => ?_) fun _ => np_ite (fun _ => hread)
    fun _ => by np
  split
  · exact hread
  · np
  · refine np_ite (fun _ => by np) fun _ => ?_
    cases source with
    | none => exact np_bind (by nps) fun _ h => by cases h
    | some s =>
      simp only [Option.map_some, okOr_some, ok_bind]
      refine np_bind (by nps) fun _ _ => np_ite (fun _ => by np) fun _ =>
        np_ite (fun _ => by unfold metaplexToToken2022; np) fun _ => ?_
      cases owner with
      | none => exact np_bind (by nps) fun _ h => by cases h
      | some o =>
        simp only [Option.map_some, okOr_some, ok_bind]
        refine np_bind (by nps) fun _ _ => ?_
        unfold cpiEmitAndDecode
        refine np_bind (np_cpiCheck ⟨_, ho o rfl, rfl⟩ ?_) fun _ _ => by np
        intro m hm
        simp only [List.mem_cons, List.not_mem_nil, or_false] at hm
        subst hm
        exact metaAllowed_of_mem (hs s rfl) rfl (fun h => by cases h) (fun h => by cases h)

theorem np_sync22 (hid : env.programId = crateId) (w a u : Pubkey) (source owner : Option Pubkey)
    (hso : owner.isSome → source.isSome) :
    NoPrivilegeError (processSyncToToken2022 env
      (Build.syncMetadataToToken2022 crateId w a u source owner).accounts L) := by
  generalize hacc : (Build.syncMetadataToToken2022 crateId w a u source owner).accounts = accounts
  have hp := ((builders_roles_sync hso).1 crateId w a u).1
  rw [hacc] at hp
  have hmem : ∀ m ∈ [Meta.rw w false, .ro a false, .ro u false, .ro token2022Id false] ++
      (source.toList ++ owner.toList).map (fun k => .ro k false), m ∈ accounts := by
    intro m hm; rw [← hacc]; exact hm
  have ht : ∃ c ∈ accounts, c.key = token2022Id := ⟨_, hmem (.ro token2022Id false) (by simp), rfl⟩
  have hw : ∀ pdas, metaAllowed accounts pdas (.rw w false) = true := fun pdas =>
    metaAllowed_of_mem (hmem (.rw w false) (by simp)) rfl (fun _ => rfl) (fun h => by cases h)
  have hw0 : ∀ pdas, metaAllowed accounts pdas (.ro w false) = true := fun pdas =>
    metaAllowed_of_mem (hmem (.rw w false) (by simp)) rfl (fun _ => rfl) (fun h => by cases h)
  have ha0 : metaAllowed accounts [a] (.ro a false) = true :=
    metaAllowed_of_mem (hmem (.ro a false) (by simp)) rfl (fun h => by cases h) (fun h => by cases h)
  have ha : metaAllowed accounts [a] (.ro a true) = true :=
    metaAllowed_of_mem (hmem (.ro a false) (by simp)) rfl (fun h => by cases h)
      (fun _ => .inl (by simp [Meta.ro]))
  have hcpi : ∀ {ix : TokenIx} {L : Ledger}, (∀ m ∈ ix.metas, m = .rw w false ∨ m = .ro w false ∨
      m = .ro a false ∨ m = .ro a true) →
      NoPrivilegeError (metaCpi env accounts a token2022Id ix L) := by
    intro ix L h
    refine np_invokeToken ht fun m hm => ?_
    rcases h m hm with rfl | rfl | rfl | rfl
    · exact hw _
    · exact hw0 _
    · exact ha0
    · exact ha
  have hf : ∀ wm s fs L, NoPrivilegeError
      (updateFieldsIfChanged env accounts a token2022Id w a wm s fs L) := by
    intro wm s fs
    induction fs with
    | nil => intro L; exact np_ok
    | cons p rest ih =>
      intro L
      refine np_bind (np_ite (fun _ => hcpi ?_) fun _ => np_ok) fun _ _ => ih _
      simp [TokenIx.metas]
  have hs : ∀ src map L, NoPrivilegeError (syncAdditional env accounts a token2022Id w a src map L) := by
    intro src
    induction src with
    | nil => intro map L; exact np_ok
    | cons p rest ih =>
      intro map L
      refine np_bind (np_ite (fun _ => hcpi ?_) fun _ => np_ok) fun _ _ => ih _ _
      simp [TokenIx.metas]
  have hadd : ∀ src L, NoPrivilegeError (addFields env accounts a token2022Id w a src L) := by
    intro src
    induction src with
    | nil => intro L; exact np_ok
    | cons p rest ih =>
      intro L
      refine np_bind (hcpi ?_) fun _ _ => ih _
      simp [TokenIx.metas]
  have hrem : ∀ ks L, NoPrivilegeError (removeStale env accounts a token2022Id w a ks L) := by
    intro ks
    induction ks with
    | nil => intro L; exact np_ok
    | cons p rest ih =>
      intro L
      refine np_bind (hcpi ?_) fun _ _ => ih _
      simp [TokenIx.metas]
  unfold processSyncToToken2022
  rw [hp, ok_bind]
  refine np_bind (by nps) fun _ _ => np_bind (by nps) fun _ _ => np_bind (by nps) fun _ _ =>
    np_bind (by nps) fun _ _ => np_bind (by nps) fun ⟨A, bump⟩ hA => ?_
  dsimp only
  refine np_bind (by nps) fun _ h1 => ?_
  simp only [require_ok_iff, okOr_ok_iff, decide_eq_true_eq] at h1 hA
  change a = A at h1
  subst h1
  refine np_bind (np_extract (fun k hk => hmem _ (List.mem_append_right _ (List.mem_map.2 ⟨k, by simp [hk], rfl⟩)))
      (fun k hk => hmem _ (List.mem_append_right _ (List.mem_map.2 ⟨k, by simp [hk], rfl⟩))))
    fun src _ => np_bind (by nps) fun m _ => np_bind (by nps) fun p hpd => ?_
  have := pda_is hid hA hpd
  subst this
  cases m.tokenMetadata? with
  | some wm => exact np_bind (hf _ _ _ _) fun _ _ => np_bind (hs _ _ _) fun ⟨_, _⟩ _ => hrem _ _
  | none =>
    refine np_bind (hcpi ?_) fun _ _ => hadd _ _
    simp [TokenIx.metas, Meta.rw, Meta.ro]

theorem np_mplCreate {g : Pubkey → Bool} {a b c d e : Pubkey} {data : DataV2} {mu : Bool} :
    NoPrivilegeError (mplCreate env g a b c d e data mu L) := by
  unfold mplCreate; np

theorem np_mplUpdate {g : Pubkey → Bool} {a b : Pubkey} {data : DataV2} :
    NoPrivilegeError (mplUpdate env g a b data L) := by
  unfold mplUpdate; np

theorem np_convLoop {kvs : List (String × String)} {acc : ConvAcc} :
    NoPrivilegeError (convLoop env kvs acc) := by
  induction kvs generalizing acc with
  | nil => exact np_ok
  | cons kv rest ih =>
    refine np_bind ?_ fun _ _ => ih
    unfold convStep; np

theorem np_syncSpl (hid : env.programId = crateId) (mm a w u : Pubkey) (source owner : Option Pubkey)
    (hso : owner.isSome → source.isSome) :
    NoPrivilegeError (processSyncToSplToken env
      (Build.syncMetadataToSplToken crateId mm a w u source owner).accounts L) := by
  generalize hacc : (Build.syncMetadataToSplToken crateId mm a w u source owner).accounts = accounts
  have hp := ((builders_roles_sync hso).2 crateId mm a w u).1
  rw [hacc] at hp
  have hmem : ∀ m ∈ [Meta.rw mm false, .rw a false, .ro w false, .ro u false, .ro metaplexId false,
      .ro systemId false, .ro rentSysvarId false] ++
      (source.toList ++ owner.toList).map (fun k => .ro k false), m ∈ accounts := by
    intro m hm; rw [← hacc]; exact hm
  have hmpl : ∃ c ∈ accounts, c.key = metaplexId := ⟨_, hmem (.ro metaplexId false) (by simp), rfl⟩
  have hro : ∀ k, Meta.ro k false ∈ accounts → metaAllowed accounts [a] (.ro k false) = true :=
    fun k h => metaAllowed_of_mem h rfl (fun h => by cases h) (fun h => by cases h)
  have hmm : metaAllowed accounts [a] (.rw mm false) = true :=
    metaAllowed_of_mem (hmem (.rw mm false) (by simp)) rfl (fun _ => rfl) (fun h => by cases h)
  have ha : metaAllowed accounts [a] (.ro a true) = true :=
    metaAllowed_of_mem (hmem (.rw a false) (by simp)) rfl (fun h => by cases h)
      (fun _ => .inl (by simp [Meta.ro]))
  have haw : metaAllowed accounts [a] (.rw a true) = true :=
    metaAllowed_of_mem (hmem (.rw a false) (by simp)) rfl (fun _ => rfl)
      (fun _ => .inl (by simp [Meta.rw]))
  unfold processSyncToSplToken
  rw [hp, ok_bind]
  refine np_bind (by nps) fun _ _ => np_bind (by nps) fun _ _ => np_bind (by nps) fun _ _ =>
    np_bind (by nps) fun ⟨A, bump⟩ hA => ?_
  dsimp only
  refine np_bind (by nps) fun _ h1 => ?_
  simp only [require_ok_iff, okOr_ok_iff, decide_eq_true_eq] at h1 hA
  change a = A at h1
  subst h1
  refine np_bind (by nps) fun _ _ => np_bind (by nps) fun _ _ => np_bind (by nps) fun _ _ =>
    np_bind (np_extract (fun k hk => hmem _ (List.mem_append_right _ (List.mem_map.2 ⟨k, by simp [hk], rfl⟩)))
      (fun k hk => hmem _ (List.mem_append_right _ (List.mem_map.2 ⟨k, by simp [hk], rfl⟩))))
    fun src _ => np_bind ?_ fun data _ => np_bind (by nps) fun p hpd => ?_
  · unfold token2022ToMetaplex
    exact np_bind np_convLoop fun _ _ => np_pure
  have := pda_is hid hA hpd
  subst this
  refine np_ite (fun _ => np_bind (np_cpiCheck hmpl ?_) fun _ _ => np_mplCreate)
    fun _ => np_bind (np_cpiCheck hmpl ?_) fun _ _ => np_mplUpdate
  · intro m hm
    simp only [mplCreateMetas, List.mem_cons, List.not_mem_nil, or_false] at hm
    rcases hm with rfl | rfl | rfl | rfl | rfl | rfl | rfl
    · exact hmm
    · exact hro _ (hmem (.ro w false) (by simp))
    · exact ha
    · exact haw
    · exact ha
    · exact hro _ (hmem (.ro systemId false) (by simp))
    · exact hro _ (hmem (.ro rentSysvarId false) (by simp))
  · intro m hm
    simp only [mplUpdateMetas, List.mem_cons, List.not_mem_nil, or_false] at hm
    rcases hm with rfl | rfl
    · exact hmm
    · exact ha

theorem np_of_pack {accounts : List Meta} (ix : TokenWrapInstruction)
    (h : NoPrivilegeError (dispatch env accounts L ix)) :
    NoPrivilegeError (processInstruction env accounts ix.pack L) := by
  rw [processInstruction_pack]; exact h

/-- **C06** (privileges) Whatever the keys, amounts and chain state, an instruction made by its
builder never fails for lack of a signature, of write access or of an account: the builder lists
everything the processor's own writes and CPIs need.  (Wrap and Unwrap: unless the caller listed
multisig signers none of which can help; syncs: an owner program comes with a source account.) -/
theorem builders_privileges (hid : env.programId = crateId) :
    (∀ w b u wp i, let x := Build.createMint crateId w b u wp i
      NoPrivilegeError (processInstruction env x.accounts x.data L)) ∧
    (∀ r w a up wp src u e ta members n, UsefulSigners L ta members →
      let x := Build.wrap crateId r w a up wp src u e ta members n
      NoPrivilegeError (processInstruction env x.accounts x.data L)) ∧
    (∀ e r a u wp up wa w ta members n, UsefulSigners L ta members →
      let x := Build.unwrap crateId e r a u wp up wa w ta members n
      NoPrivilegeError (processInstruction env x.accounts x.data L)) ∧
    (∀ e d u w a, let x := Build.closeStuckEscrow crateId e d u w a
      NoPrivilegeError (processInstruction env x.accounts x.data L)) ∧
    (∀ ma p u n, let x := Build.setCanonicalPointer crateId ma p u n
      NoPrivilegeError (processInstruction env x.accounts x.data L)) ∧
    (∀ (source owner : Option Pubkey), (owner.isSome → source.isSome) →
      (∀ w a u, let x := Build.syncMetadataToToken2022 crateId w a u source owner
        NoPrivilegeError (processInstruction env x.accounts x.data L)) ∧
      (∀ mm a w u, let x := Build.syncMetadataToSplToken crateId mm a w u source owner
        NoPrivilegeError (processInstruction env x.accounts x.data L))) := by
  refine ⟨fun w b u wp i => ?_, fun r w a up wp src u e ta members n h => ?_,
    fun e r a u wp up wa w ta members n h => ?_, fun e d u w a => ?_, fun ma p u n => ?_,
    fun source owner h => ⟨fun w a u => ?_, fun mm a w u => ?_⟩⟩
  · exact np_of_pack (.createMint i) <| np_createMint hid w b u wp i
  · exact np_of_pack (.wrap n) <| np_wrap hid r w a up wp src u e ta members n h
  · exact np_of_pack (.unwrap n) <| np_unwrap hid e r a u wp up wa w ta members n h
  · exact np_of_pack .closeStuckEscrow <| np_close hid e d u w a
  · exact np_of_pack (.setCanonicalPointer n) <| np_pointer hid ma p u n
  · exact np_of_pack .syncMetadataToToken2022 <| np_sync22 hid w a u source owner h
  · exact np_of_pack .syncMetadataToSplToken <| np_syncSpl hid mm a w u source owner h

end

/-! ### Non-vacuity -/
namespace Example

/-- Privilege failures do occur when an account list lacks what the builder grants. -/
example : fails (processInstruction env (wrapAccounts.map fun m => { m with writable := false })
    (TokenWrapInstruction.wrap 1000).pack L0) .privilegeEscalation = true := by decide +kernel
example : fails (processInstruction env (wrapAccounts.set 4 (.ro splTokenId false) |>.set 3
    (.ro token2022Id false) |>.map fun m => if m.key = src then .ro src false else m)
    (TokenWrapInstruction.wrap 1000).pack L0) .privilegeEscalation = true := by decide +kernel
example : UsefulSigners L0 user [] := .inl rfl
/-- Listing signers that are of no use is the excluded case: it does fail. -/
example : fails (processInstruction env
    (Build.wrap crateId rcp W A token2022Id splTokenId src u E user [issuer] 1000).accounts
    (TokenWrapInstruction.wrap 1000).pack L0) .privilegeEscalation = true := by decide +kernel

end Example

end TokenWrap
