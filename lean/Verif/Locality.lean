import Verif.Processor
/-!
# Locality: what the programs read and what they write (proofs)

Lemmas for `Props/Schedule.lean`: every step of the program reads only accounts it was given, and
changes only accounts it was given as writable.
-/

set_option linter.unusedSimpArgs false

namespace TokenWrap

/-- Two ledgers that are alike on the accounts in `S`. -/
def Agree (S : Pubkey → Prop) (L L' : Ledger) : Prop := ∀ k, S k → L' k = L k

/-- Two computations with the same outcome, up to `R`. -/
inductive Rel {α : Type} (R : α → α → Prop) : Res α → Res α → Prop
  | err (e : Err) : Rel R (.error e) (.error e)
  | ok {a a' : α} (h : R a a') : Rel R (.ok a) (.ok a')

namespace Rel
variable {α β : Type} {R : α → α → Prop} {Q : β → β → Prop}

theorem bind {x x' : Res α} {f f' : α → Res β} (h : Rel R x x')
    (hf : ∀ a a', R a a' → Rel Q (f a) (f' a')) : Rel Q (x >>= f) (x' >>= f') := by
  cases h with
  | err e => exact .err e
  | ok h => exact hf _ _ h

theorem val {γ : Type} {x : Res γ} {f f' : γ → Res β}
    (hf : ∀ a, Rel Q (f a) (f' a)) : Rel Q (x >>= f) (x >>= f') := by
  cases x with
  | error e => exact .err e
  | ok a => exact hf a

/-- The same, with a value of the check at hand. -/
theorem valOk {γ : Type} {x : Res γ} {f f' : γ → Res β}
    (hf : ∀ a, x = .ok a → Rel Q (f a) (f' a)) : Rel Q (x >>= f) (x >>= f') := by
  cases x with
  | error e => exact .err e
  | ok a => exact hf a rfl

theorem ite {c : Prop} [Decidable c] {x x' y y' : Res β} (h1 : c → Rel Q x x')
    (h2 : ¬ c → Rel Q y y') : Rel Q (if c then x else y) (if c then x' else y') := by
  split
  · exact h1 ‹_›
  · exact h2 ‹_›

end Rel

section
variable {S : Pubkey → Prop} {L L' : Ledger} {env : Env} {prog : Pubkey}

theorem Agree.refl : Agree S L L := fun _ _ => rfl

theorem Agree.set (h : Agree S L L') (k : Pubkey) (a : Account) : Agree S (L.set k a) (L'.set k a) := by
  intro x hx
  simp only [Ledger.set_apply]
  split
  · rfl
  · exact h x hx

theorem Agree.setData (h : Agree S L L') {k : Pubkey} (hk : S k) (d : Data) :
    Agree S (L.setData k d) (L'.setData k d) := by
  unfold Ledger.setData
  rw [h k hk]
  exact h.set _ _

theorem Agree.setLamports (h : Agree S L L') {k : Pubkey} (hk : S k) (n : Nat) :
    Agree S (L.setLamports k n) (L'.setLamports k n) := by
  unfold Ledger.setLamports
  rw [h k hk]
  exact h.set _ _

/-! ## Reads -/

theorem getToken_agree (h : Agree S L L') {k : Pubkey} (hk : S k) :
    getToken prog L' k = getToken prog L k := by
  unfold getToken; rw [h k hk]

theorem getMint_agree (h : Agree S L L') {k : Pubkey} (hk : S k) :
    getMint prog L' k = getMint prog L k := by
  unfold getMint; rw [h k hk]

theorem multisigAt_agree (h : Agree S L L') {k : Pubkey} (hk : S k) :
    multisigAt prog L' k = multisigAt prog L k := by
  unfold multisigAt; rw [h k hk]

theorem validateOwner_agree (h : Agree S L L') {expected auth : Pubkey} (hk : S auth)
    {signers : List Pubkey} {signed : Pubkey → Bool} :
    validateOwner prog L' expected auth signers signed =
      validateOwner prog L expected auth signers signed := by
  unfold validateOwner; rw [multisigAt_agree h hk]

theorem spendAuth_agree (h : Agree S L L') {t : TokenAcct} {pd : Option Pubkey} {auth : Pubkey}
    (hk : S auth) {signers : List Pubkey} {signed : Pubkey → Bool} {n : Nat} :
    spendAuth prog L' t pd auth signers signed n = spendAuth prog L t pd auth signers signed n := by
  unfold spendAuth
  rw [validateOwner_agree h hk, validateOwner_agree h hk]

theorem transferCheck_agree (h : Agree S L L') {s : TokenAcct} {n : Nat}
    {chk : Option (Pubkey × UInt8)} (hc : ∀ p, chk = some p → S p.1) :
    transferCheck env prog L' s n chk = transferCheck env prog L s n chk := by
  unfold transferCheck
  cases chk with
  | none => rfl
  | some p =>
    dsimp only
    unfold checkMint
    rw [getMint_agree h (hc p rfl)]

theorem extractMultisig_agree (h : Agree S L L') {k : Pubkey} (hk : S k) {l : List Meta} :
    extractMultisig L' k l = extractMultisig L k l := by
  unfold extractMultisig; rw [h k hk]

/-! ## Token instructions -/

theorem moveLamports_local (h : Agree S L L') {src dst : Pubkey} (hs : S src) (hd : S dst) (n : Nat) :
    Rel (Agree S) (moveLamports L src dst n) (moveLamports L' src dst n) := by
  unfold moveLamports
  rw [h src hs]
  refine .val fun _ => ?_
  have h1 := h.setLamports hs ((L src).lamports - n)
  dsimp only
  rw [h1 dst hd]
  exact .ok (h1.setLamports hd _)

theorem transferMove_local (h : Agree S L L') {src dst : Pubkey} (hs : S src) (hd : S dst)
    (s d : TokenAcct) (n fee : Nat) :
    Rel (Agree S) (transferMove L src dst s d n fee) (transferMove L' src dst s d n fee) := by
  unfold transferMove
  refine .val fun _ => .val fun _ => .val fun _ => ?_
  refine .ite (fun _ => moveLamports_local ((h.setData hs _).setData hd _) hs hd _) (fun _ => ?_)
  exact .ok ((h.setData hs _).setData hd _)

theorem transferExec_local (h : Agree S L L') {src dst auth : Pubkey} (hs : S src) (hd : S dst)
    (ha : S auth) {chk : Option (Pubkey × UInt8)} (hc : ∀ p, chk = some p → S p.1)
    (signed : Pubkey → Bool) (signers : List Pubkey) (n : Nat) (fee : Option Nat) :
    Rel (Agree S) (transferExec env prog signed L src dst auth signers n chk fee)
      (transferExec env prog signed L' src dst auth signers n chk fee) := by
  unfold transferExec
  rw [getToken_agree h hs, getToken_agree h hd]
  refine .val fun s => .val fun d => .val fun _ => .val fun _ => .val fun _ => ?_
  rw [transferCheck_agree h hc]
  refine .val fun p => .val fun _ => ?_
  rw [spendAuth_agree h ha]
  exact .val fun s' => .ite (fun _ => .ok h) (fun _ => transferMove_local h hs hd _ _ _ _)

theorem mintToExec_local (h : Agree S L L') {mint dst auth : Pubkey} (hm : S mint) (hd : S dst)
    (ha : S auth) (signed : Pubkey → Bool) (signers : List Pubkey) (n : Nat) :
    Rel (Agree S) (mintToExec prog signed L mint dst auth signers n)
      (mintToExec prog signed L' mint dst auth signers n) := by
  unfold mintToExec
  rw [getToken_agree h hd, getMint_agree h hm]
  refine .val fun d => .val fun _ => .val fun _ => .val fun _ => .val fun m => .val fun ma => ?_
  rw [validateOwner_agree h ha]
  exact .val fun _ => .val fun _ => .val fun _ => .ok ((h.setData hd _).setData hm _)

theorem burnExec_local (h : Agree S L L') {acct mint auth : Pubkey} (hm : S mint) (hd : S acct)
    (ha : S auth) (signed : Pubkey → Bool) (signers : List Pubkey) (n : Nat) :
    Rel (Agree S) (burnExec prog signed L acct mint auth signers n)
      (burnExec prog signed L' acct mint auth signers n) := by
  unfold burnExec
  rw [getToken_agree h hd, getMint_agree h hm]
  refine .val fun d => .val fun m => .val fun _ => .val fun _ => .val fun _ => .val fun _ => ?_
  rw [spendAuth_agree h ha]
  exact .val fun _ => .val fun _ => .ok ((h.setData hd _).setData hm _)

theorem closeOut_agree (h : Agree S L L') {acct dst : Pubkey} (hk : S acct) (hd : S dst) :
    Agree S (closeOut L acct dst) (closeOut L' acct dst) := by
  unfold closeOut
  rw [h acct hk, h dst hd]
  exact (h.setLamports hd _).set _ _

theorem closeAccountExec_local (h : Agree S L L') {acct dst auth : Pubkey} (hk : S acct) (hd : S dst)
    (ha : S auth) (signed : Pubkey → Bool) (signers : List Pubkey) :
    Rel (Agree S) (closeAccountExec prog signed L acct dst auth signers)
      (closeAccountExec prog signed L' acct dst auth signers) := by
  unfold closeAccountExec
  rw [h acct hk]
  refine .val fun _ => .val fun _ => ?_
  split
  · rw [validateOwner_agree h ha]
    exact .val fun _ => .val fun _ => .val fun _ => .val fun _ => .ok (closeOut_agree h hk hd)
  · refine .val fun _ => .val fun _ => ?_
    rw [validateOwner_agree h ha]
    exact .val fun _ => .val fun _ => .ok (closeOut_agree h hk hd)
  · exact .err _

theorem initMintExtExec_local (h : Agree S L L') {mint : Pubkey} (hk : S mint) (ext : MintExt) :
    Rel (Agree S) (initMintExtExec prog L mint ext) (initMintExtExec prog L' mint ext) := by
  unfold initMintExtExec
  rw [h mint hk]
  refine .val fun _ => .val fun _ => .val fun _ => ?_
  split
  · exact .val fun _ => .val fun _ => .ok (h.setData hk _)
  · exact .val fun _ => .val fun _ => .ok (h.setData hk _)
  · exact .err _

theorem initializeMint2Exec_local (h : Agree S L L') {mint : Pubkey} (hk : S mint) (ma : Pubkey)
    (fa : Option Pubkey) (dec : UInt8) :
    Rel (Agree S) (initializeMint2Exec env prog L mint ma fa dec)
      (initializeMint2Exec env prog L' mint ma fa dec) := by
  unfold initializeMint2Exec
  rw [h mint hk]
  exact .val fun _ => .val fun _ => .val fun _ => .ok (h.setData hk _)

theorem initializeMetadataExec_local (h : Agree S L L') {mint : Pubkey} (hk : S mint) (ua ma : Pubkey)
    (signed : Pubkey → Bool) (a b c : String) :
    Rel (Agree S) (initializeMetadataExec prog signed L mint ua ma a b c)
      (initializeMetadataExec prog signed L' mint ua ma a b c) := by
  unfold initializeMetadataExec
  rw [getMint_agree h hk]
  exact .val fun _ => .val fun _ => .val fun _ => .val fun _ => .val fun _ => .val fun _ =>
    .ok (h.setData hk _)

theorem metadataUpdateExec_local (h : Agree S L L') {mint : Pubkey} (hk : S mint) (ua : Pubkey)
    (signed : Pubkey → Bool) (f : TokenMetadata → Res TokenMetadata) :
    Rel (Agree S) (metadataUpdateExec prog signed L mint ua f)
      (metadataUpdateExec prog signed L' mint ua f) := by
  unfold metadataUpdateExec
  rw [getMint_agree h hk]
  exact .val fun _ => .val fun _ => .val fun _ => .val fun _ => .val fun _ => .val fun _ =>
    .ok (h.setData hk _)

/-- The token instructions Token Wrap sends: those whose account metas are modelled. -/
def TokenIx.sent (ix : TokenIx) : Bool := !ix.metas.isEmpty

/-- A token instruction that Token Wrap sends reads only the accounts in its metas. -/
theorem tokenExec_local (h : Agree S L L') {ix : TokenIx} (hs : ix.sent = true)
    (hk : ∀ m ∈ ix.metas, S m.key) (signed : Pubkey → Bool)
    (hr : env.reject prog ix signed L' = env.reject prog ix signed L) :
    Rel (Agree S) (tokenExec env prog ix signed L) (tokenExec env prog ix signed L') := by
  unfold tokenExec
  rw [hr]
  split
  · exact .err _
  · cases ix <;> simp [TokenIx.sent, TokenIx.metas] at hs <;>
      simp [TokenIx.metas, authMetas, Meta.rw, Meta.ro] at hk <;> dsimp only
    · exact transferExec_local h hk.1 hk.2.2.1 hk.2.2.2.1 (fun p hp => by cases hp; exact hk.2.1) _ _ _ _
    · exact transferExec_local h hk.1 hk.2.2.1 hk.2.2.2.1 (fun p hp => by cases hp; exact hk.2.1) _ _ _ _
    · exact mintToExec_local h hk.1 hk.2.1 hk.2.2.1 _ _ _
    · exact burnExec_local h hk.2.1 hk.1 hk.2.2.1 _ _ _
    · exact closeAccountExec_local h hk.1 hk.2.1 hk.2.2.1 _ _
    · exact initMintExtExec_local h hk _
    · exact initializeMint2Exec_local h hk _ _ _
    · exact initializeMetadataExec_local h hk.1 _ _ _ _ _ _
    · exact metadataUpdateExec_local h hk.1 _ _ _
    · exact metadataUpdateExec_local h hk.1 _ _ _


/-! ## Calls of other programs and of the runtime -/

/-- `k` is one of the accounts of an instruction. -/
def Named (accounts : List Meta) (k : Pubkey) : Prop := ∃ m ∈ accounts, m.key = k

/-- `k` is one of the accounts an instruction was given as writable. -/
def WritableIn (accounts : List Meta) (k : Pubkey) : Prop :=
  ∃ m ∈ accounts, m.key = k ∧ m.writable = true

/-- The other programs see only accounts of the calling instruction: the runtime passes nothing
else to a CPI, so whether they refuse, and what they answer, depends on nothing else. -/
structure OnlySees (env : Env) (accounts : List Meta) : Prop where
  reject : ∀ prog ix signed (L L' : Ledger), Agree (Named accounts) L L' →
    env.reject prog ix signed L' = env.reject prog ix signed L
  mplReject : ∀ signed metadata data (L L' : Ledger), Agree (Named accounts) L L' →
    env.mplReject signed metadata data L' = env.mplReject signed metadata data L
  emit : ∀ prog metadata (L L' : Ledger), Agree (Named accounts) L L' →
    env.emit prog metadata L' = env.emit prog metadata L

theorem cpiCheck_named {caller metas : List Meta} {pdas borrowed : List Pubkey} {callee : Pubkey}
    {x : Unit} (h : cpiCheck caller pdas borrowed callee metas = .ok x) :
    ∀ m ∈ metas, Named caller m.key ∧ (m.writable = true → WritableIn caller m.key) := by
  unfold cpiCheck at h
  simp only [bind_ok_iff, require_ok_iff] at h
  obtain ⟨_, _, _, _, h⟩ := h
  intro m hm
  have := List.all_eq_true.1 h m hm
  simp only [metaAllowed, Bool.and_eq_true, Bool.or_eq_true, List.any_eq_true, decide_eq_true_eq,
    Bool.not_eq_true'] at this
  obtain ⟨⟨⟨c, hc, hck⟩, hw⟩, _⟩ := this
  refine ⟨⟨c, hc, hck⟩, fun hmw => ?_⟩
  rcases hw with hw | ⟨c', hc', hk', hw'⟩
  · rw [hw] at hmw; cases hmw
  · exact ⟨c', hc', hk', hw'⟩

variable {accounts : List Meta}

theorem invokeToken_local (hv : OnlySees env accounts) (h : Agree (Named accounts) L L')
    (pdas borrowed : List Pubkey) (prog : Pubkey) {ix : TokenIx} (hs : ix.sent = true) :
    Rel (Agree (Named accounts)) (invokeToken env accounts pdas borrowed prog ix L)
      (invokeToken env accounts pdas borrowed prog ix L') := by
  unfold invokeToken
  refine .val fun _ => .valOk fun _ hc => ?_
  exact tokenExec_local h hs (fun m hm => (cpiCheck_named hc m hm).1) _ (hv.reject _ _ _ _ _ h)

theorem invokeAllocate_local (h : Agree (Named accounts) L L') (pdas : List Pubkey) (key : Pubkey)
    (space : Nat) :
    Rel (Agree (Named accounts)) (invokeAllocate accounts pdas key space L)
      (invokeAllocate accounts pdas key space L') := by
  unfold invokeAllocate
  refine .valOk fun _ hc => ?_
  have hk : Named accounts key := (cpiCheck_named hc _ (.head _)).1
  unfold sysAllocate
  rw [h key hk]
  exact .val fun _ => .val fun _ => .ok (h.setData hk _)

theorem invokeAssign_local (h : Agree (Named accounts) L L') (pdas : List Pubkey) (key owner : Pubkey) :
    Rel (Agree (Named accounts)) (invokeAssign accounts pdas key owner L)
      (invokeAssign accounts pdas key owner L') := by
  unfold invokeAssign
  refine .valOk fun _ hc => ?_
  have hk : Named accounts key := (cpiCheck_named hc _ (.head _)).1
  unfold sysAssign
  rw [h key hk]
  exact .ite (fun _ => .ok h) (fun _ => .val fun _ => .val fun _ => .ok (h.set _ _))

theorem writeOwn_local (h : Agree S L L') {m : Meta} (hk : S m.key) (b : Bytes) :
    Rel (Agree S) (writeOwn env m b L) (writeOwn env m b L') := by
  unfold writeOwn
  rw [h _ hk]
  exact .ite (fun _ => .ok h) (fun _ => .val fun _ => .val fun _ => .ok (h.setData hk _))

theorem mplCreate_local (hv : OnlySees env accounts) (h : Agree (Named accounts) L L')
    (signed : Pubkey → Bool) {md mint payer : Pubkey} (ma ua : Pubkey) (data : DataV2) (b : Bool)
    (h1 : Named accounts md) (h2 : Named accounts mint) (h3 : Named accounts payer) :
    Rel (Agree (Named accounts)) (mplCreate env signed md mint ma payer ua data b L)
      (mplCreate env signed md mint ma payer ua data b L') := by
  unfold mplCreate
  rw [h _ h1, h _ h2, h _ h3, hv.mplReject _ _ _ _ _ h]
  refine .val fun _ => .val fun _ => .val fun _ => .val fun _ => ?_
  split
  · refine .val fun _ => ?_
    split
    · exact .err _
    · refine .val fun _ => ?_
      have h4 := h.setLamports h3 ((L payer).lamports - env.mplCost (L md).lamports)
      dsimp only
      rw [h4 _ h1]
      exact .ok (h4.set _ _)
  · exact .err _

theorem mplUpdate_local (hv : OnlySees env accounts) (h : Agree (Named accounts) L L')
    (signed : Pubkey → Bool) {md : Pubkey} (ua : Pubkey) (data : DataV2) (h1 : Named accounts md) :
    Rel (Agree (Named accounts)) (mplUpdate env signed md ua data L)
      (mplUpdate env signed md ua data L') := by
  unfold mplUpdate
  rw [h _ h1, hv.mplReject _ _ _ _ _ h]
  refine .val fun _ => ?_
  split
  · refine .val fun _ => .val fun _ => ?_
    split
    · exact .err _
    · exact .ok (h.setData h1 _)
  · exact .err _

theorem readMetaplexForMint_local (h : Agree (Named accounts) L L') (mint : Pubkey)
    {source : Option Meta} (hs : ∀ m, source = some m → Named accounts m.key) :
    readMetaplexForMint env mint source L' = readMetaplexForMint env mint source L := by
  unfold readMetaplexForMint
  cases source with
  | none => rfl
  | some src =>
    simp only [okOr, ok_bind]
    rw [h _ (hs _ rfl)]

theorem extractTokenMetadata_local (hv : OnlySees env accounts) (h : Agree (Named accounts) L L')
    {mint : Pubkey} (hm : Named accounts mint) {source ownerProgram : Option Meta}
    (hs : ∀ m, source = some m → Named accounts m.key) :
    extractTokenMetadata env accounts mint source ownerProgram L' =
      extractTokenMetadata env accounts mint source ownerProgram L := by
  unfold extractTokenMetadata resolveToken2022Source
  rw [h _ hm, readMetaplexForMint_local h _ hs]
  cases source with
  | none => rfl
  | some src =>
    unfold cpiEmitAndDecode
    simp only [okOr, ok_bind]
    rw [h _ (hs _ rfl)]
    simp only [hv.emit _ _ _ _ h]

/-! ## The processors -/

theorem named_of_mem {m : Meta} (h : m ∈ accounts) : Named accounts m.key := ⟨m, h, rfl⟩

theorem processWrap_local (hv : OnlySees env accounts) (h : Agree (Named accounts) L L')
    (amount : UInt64) :
    Rel (Agree (Named accounts)) (processWrap env accounts amount L)
      (processWrap env accounts amount L') := by
  unfold processWrap
  refine .val fun _ => .valOk fun a ha => ?_
  have hk : ∀ m, m = a.escrow ∨ m = a.unwrappedMint ∨ m = a.transferAuthority →
      Named accounts m.key := by
    unfold parseWrap at ha
    split at ha
    · cases ha
      rintro m (rfl | rfl | rfl) <;> exact named_of_mem (by simp)
    · cases ha
  rw [h _ (hk a.escrow (by simp)), h _ (hk a.unwrappedMint (by simp))]
  refine .val fun _ => .val fun _ => .val fun p => .val fun _ => .val fun _ => .val fun _ =>
    .val fun _ => .val fun _ => .val fun m => .val fun _ => ?_
  refine .bind (R := Agree (Named accounts)) ?_ fun L1 L1' h1 => .val fun _ =>
    invokeToken_local hv h1 _ _ _ rfl
  unfold wrapTransfer
  rw [extractMultisig_agree h (hk a.transferAuthority (by simp))]
  exact .ite (fun _ => invokeToken_local hv h _ _ _ rfl) (fun _ => invokeToken_local hv h _ _ _ rfl)

theorem processUnwrap_local (hv : OnlySees env accounts) (h : Agree (Named accounts) L L')
    (amount : UInt64) :
    Rel (Agree (Named accounts)) (processUnwrap env accounts amount L)
      (processUnwrap env accounts amount L') := by
  unfold processUnwrap
  refine .val fun _ => .valOk fun a ha => ?_
  have hk : ∀ m, m = a.authority ∨ m = a.unwrappedMint ∨ m = a.transferAuthority →
      Named accounts m.key := by
    unfold parseUnwrap at ha
    split at ha
    · cases ha
      rintro m (rfl | rfl | rfl) <;> exact named_of_mem (by simp)
    · cases ha
  rw [extractMultisig_agree h (hk a.transferAuthority (by simp))]
  refine .val fun _ => .val fun _ => .val fun p => .val fun _ => .val fun _ => .val fun _ => ?_
  refine .bind (invokeToken_local hv h _ _ _ rfl) fun L1 L1' h1 => ?_
  rw [h1 _ (hk a.unwrappedMint (by simp)), extractMultisig_agree h1 (hk a.authority (by simp))]
  exact .val fun _ => .val fun _ => invokeToken_local hv h1 _ _ _ rfl

theorem processClose_local (hv : OnlySees env accounts) (h : Agree (Named accounts) L L') :
    Rel (Agree (Named accounts)) (processCloseStuckEscrow env accounts L)
      (processCloseStuckEscrow env accounts L') := by
  unfold processCloseStuckEscrow
  refine .valOk fun a ha => ?_
  have hk : ∀ m, m = a.escrow ∨ m = a.unwrappedMint ∨ m = a.wrappedMint →
      Named accounts m.key := by
    unfold parseClose at ha
    split at ha
    · cases ha
      rintro m (rfl | rfl | rfl) <;> exact named_of_mem (by simp)
    · cases ha
  rw [h _ (hk a.escrow (by simp)), h _ (hk a.unwrappedMint (by simp)),
    h _ (hk a.wrappedMint (by simp))]
  exact .val fun _ => .val fun _ => .val fun _ => .val fun _ => .val fun _ => .val fun _ =>
    .val fun _ => .val fun _ => .val fun _ => .val fun _ => .val fun _ => .val fun _ =>
    .val fun _ => .val fun _ => invokeToken_local hv h _ _ _ rfl

theorem initPointer_local (h : Agree (Named accounts) L L') (a : PointerAccounts) (bump : UInt8)
    (hk : Named accounts a.pointer.key) :
    Rel (Agree (Named accounts)) (initPointer env accounts a bump L)
      (initPointer env accounts a bump L') := by
  unfold initPointer
  rw [h _ hk]
  refine .ite (fun _ => .val fun _ => .val fun _ => ?_) (fun _ => .ok h)
  exact .bind (invokeAllocate_local h _ _ _) fun _ _ h1 => invokeAssign_local h1 _ _ _

theorem processPointer_local (h : Agree (Named accounts) L L') (id : Pubkey) :
    Rel (Agree (Named accounts)) (processSetCanonicalPointer env accounts id L)
      (processSetCanonicalPointer env accounts id L') := by
  unfold processSetCanonicalPointer
  refine .valOk fun a ha => ?_
  have hk : ∀ m, m = a.pointer ∨ m = a.unwrappedMint → Named accounts m.key := by
    unfold parsePointer at ha
    split at ha
    · cases ha
      rintro m (rfl | rfl) <;> exact named_of_mem (by simp)
    · cases ha
  rw [h _ (hk a.unwrappedMint (by simp))]
  refine .val fun _ => .val fun _ => .val fun _ => .val fun _ => .val fun _ => .val fun _ =>
    .val fun _ => ?_
  refine .bind (initPointer_local h _ _ (hk a.pointer (by simp))) fun L1 L1' h1 => ?_
  rw [h1 _ (hk a.pointer (by simp))]
  exact .val fun _ => writeOwn_local h1 (hk a.pointer (by simp)) _

theorem createBackpointer_local (h : Agree (Named accounts) L L') (a : CreateMintAccounts)
    (bump : UInt8) (hk : Named accounts a.backpointer.key) :
    Rel (Agree (Named accounts)) (createBackpointer env accounts a bump L)
      (createBackpointer env accounts a bump L') := by
  unfold createBackpointer
  rw [h _ hk]
  refine .val fun _ => .val fun _ => .bind (invokeAllocate_local h _ _ _) fun _ _ h1 =>
    .bind (invokeAssign_local h1 _ _ _) fun L2 L2' h2 => ?_
  rw [h2 _ hk]
  exact .val fun _ => writeOwn_local h2 hk _

/-- What a customizer has to do for CreateMint to be local: its initialisation is. -/
def Customizer.Local (M : Customizer) : Prop :=
  ∀ (env : Env) (accounts : List Meta) (w p : Pubkey) (L L' : Ledger), OnlySees env accounts →
    Agree (Named accounts) L L' →
    Rel (Agree (Named accounts)) (M.initializeExtensions env accounts w p L)
      (M.initializeExtensions env accounts w p L')

theorem defaultCustomizer_local : defaultToken2022Customizer.Local := by
  intro env accounts w p L L' hv h
  exact .bind (invokeToken_local hv h _ _ _ rfl) fun _ _ h1 => .val fun _ =>
    invokeToken_local hv h1 _ _ _ rfl

theorem createMintInit_local (hv : OnlySees env accounts) (h : Agree (Named accounts) L L')
    {M : Customizer} (hM : M.Local) (a : CreateMintAccounts) (bump : UInt8)
    (hw : Named accounts a.wrappedMint.key) (hu : Named accounts a.unwrappedMint.key) :
    Rel (Agree (Named accounts)) (createMintInit env M accounts a bump L)
      (createMintInit env M accounts a bump L') := by
  unfold createMintInit
  rw [h _ hw]
  refine .val fun _ => .val fun _ => .val fun _ => .bind (invokeAllocate_local h _ _ _) fun _ _ h1 =>
    .bind (invokeAssign_local h1 _ _ _) fun L2 L2' h2 => ?_
  refine .bind (R := Agree (Named accounts)) (.ite (fun _ => hM _ _ _ _ _ _ hv h2) (fun _ => .ok h2))
    fun L3 L3' h3 => ?_
  rw [h3 _ hu]
  exact .val fun p => .val fun _ => invokeToken_local hv h3 _ _ _ rfl

theorem processCreateMint_local (hv : OnlySees env accounts) (h : Agree (Named accounts) L L')
    {M : Customizer} (hM : M.Local) (i : Bool) :
    Rel (Agree (Named accounts)) (processCreateMint env M accounts i L)
      (processCreateMint env M accounts i L') := by
  unfold processCreateMint
  refine .valOk fun a ha => ?_
  have hk : ∀ m, m = a.wrappedMint ∨ m = a.unwrappedMint ∨ m = a.backpointer →
      Named accounts m.key := by
    unfold parseCreateMint at ha
    split at ha
    · cases ha
      rintro m (rfl | rfl | rfl) <;> exact named_of_mem (by simp)
    · cases ha
  rw [h _ (hk a.wrappedMint (by simp)), h _ (hk a.unwrappedMint (by simp)),
    h _ (hk a.backpointer (by simp))]
  refine .val fun p => .val fun q => .val fun _ => .val fun _ => .val fun _ => .ite (fun _ => ?_)
    (fun _ => ?_)
  · exact .val fun _ => .val fun _ => .val fun _ => .ok h
  · exact .bind (createMintInit_local hv h hM _ _ (hk _ (by simp)) (hk _ (by simp)))
      fun _ _ h1 => createBackpointer_local h1 _ _ (hk _ (by simp))

theorem updateFields_local (hv : OnlySees env accounts) (h : Agree (Named accounts) L L')
    (pda p w a : Pubkey) (x y : TokenMetadata) (l : List (Field × (TokenMetadata → String))) :
    Rel (Agree (Named accounts)) (updateFieldsIfChanged env accounts pda p w a x y l L)
      (updateFieldsIfChanged env accounts pda p w a x y l L') := by
  induction l generalizing L L' with
  | nil => exact .ok h
  | cons f rest ih =>
    unfold updateFieldsIfChanged
    exact .bind (R := Agree (Named accounts))
      (.ite (fun _ => invokeToken_local hv h _ _ _ rfl) (fun _ => .ok h)) fun _ _ h1 => ih h1

theorem syncAdditional_local (hv : OnlySees env accounts) (h : Agree (Named accounts) L L')
    (pda p w a : Pubkey) (l : List (String × String)) (map : StrMap) :
    Rel (fun x y => y.1 = x.1 ∧ Agree (Named accounts) x.2 y.2)
      (syncAdditional env accounts pda p w a l map L)
      (syncAdditional env accounts pda p w a l map L') := by
  induction l generalizing L L' map with
  | nil => exact .ok ⟨rfl, h⟩
  | cons f rest ih =>
    unfold syncAdditional
    exact .bind (R := Agree (Named accounts))
      (.ite (fun _ => invokeToken_local hv h _ _ _ rfl) (fun _ => .ok h)) fun _ _ h1 => ih h1 _

theorem removeStale_local (hv : OnlySees env accounts) (h : Agree (Named accounts) L L')
    (pda p w a : Pubkey) (l : List String) :
    Rel (Agree (Named accounts)) (removeStale env accounts pda p w a l L)
      (removeStale env accounts pda p w a l L') := by
  induction l generalizing L L' with
  | nil => exact .ok h
  | cons f rest ih =>
    unfold removeStale
    exact .bind (invokeToken_local hv h _ _ _ rfl) fun _ _ h1 => ih h1

theorem addFields_local (hv : OnlySees env accounts) (h : Agree (Named accounts) L L')
    (pda p w a : Pubkey) (l : List (String × String)) :
    Rel (Agree (Named accounts)) (addFields env accounts pda p w a l L)
      (addFields env accounts pda p w a l L') := by
  induction l generalizing L L' with
  | nil => exact .ok h
  | cons f rest ih =>
    unfold addFields
    exact .bind (invokeToken_local hv h _ _ _ rfl) fun _ _ h1 => ih h1

theorem processSync22_local (hv : OnlySees env accounts) (h : Agree (Named accounts) L L') :
    Rel (Agree (Named accounts)) (processSyncToToken2022 env accounts L)
      (processSyncToToken2022 env accounts L') := by
  unfold processSyncToToken2022
  refine .valOk fun a ha => ?_
  have hk : (∀ m, m = a.wrappedMint ∨ m = a.unwrappedMint → Named accounts m.key) ∧
      ∀ m, a.source = some m → Named accounts m.key := by
    unfold parseSync22 at ha
    split at ha
    · cases ha
      refine ⟨?_, fun m hm => named_of_mem ?_⟩
      · rintro m (rfl | rfl) <;> exact named_of_mem (by simp)
      · have := List.mem_of_getElem? hm
        simp [this]
    · cases ha
  rw [h _ (hk.1 a.wrappedMint (by simp)),
    extractTokenMetadata_local hv h (hk.1 a.unwrappedMint (by simp)) hk.2]
  refine .val fun _ => .val fun _ => .val fun _ => .val fun _ => .val fun p => .val fun _ =>
    .val fun src => .val fun m => .val fun _ => ?_
  split
  · refine .bind (updateFields_local hv h _ _ _ _ _ _ _) fun L1 L1' h1 =>
      .bind (syncAdditional_local hv h1 _ _ _ _ _ _) fun q q' h2 => ?_
    obtain ⟨r, L2⟩ := q
    obtain ⟨r', L2'⟩ := q'
    obtain ⟨rfl, h2⟩ := h2
    exact removeStale_local hv h2 _ _ _ _ _
  · exact .bind (invokeToken_local hv h _ _ _ rfl) fun _ _ h1 => addFields_local hv h1 _ _ _ _ _

theorem processSyncSpl_local (hv : OnlySees env accounts) (h : Agree (Named accounts) L L') :
    Rel (Agree (Named accounts)) (processSyncToSplToken env accounts L)
      (processSyncToSplToken env accounts L') := by
  unfold processSyncToSplToken
  refine .valOk fun a ha => ?_
  have hk : (∀ m, m = a.wrappedMint ∨ m = a.unwrappedMint ∨ m = a.metaplexMetadata ∨ m = a.authority →
      Named accounts m.key) ∧ ∀ m, a.source = some m → Named accounts m.key := by
    unfold parseSyncSpl at ha
    split at ha
    · cases ha
      refine ⟨?_, fun m hm => named_of_mem ?_⟩
      · rintro m (rfl | rfl | rfl | rfl) <;> exact named_of_mem (by simp)
      · have := List.mem_of_getElem? hm
        simp [this]
    · cases ha
  rw [h _ (hk.1 a.wrappedMint (by simp)), h _ (hk.1 a.metaplexMetadata (by simp)),
    extractTokenMetadata_local hv h (hk.1 a.unwrappedMint (by simp)) hk.2]
  refine .val fun _ => .val fun _ => .val fun _ => .val fun p => .val fun _ => .val fun _ =>
    .val fun _ => .val fun _ => .val fun src => .val fun data => .val fun _ => .ite (fun _ => ?_)
    (fun _ => ?_)
  · exact .val fun _ => mplCreate_local hv h _ _ _ _ _ (hk.1 _ (by simp)) (hk.1 _ (by simp))
      (hk.1 _ (by simp))
  · exact .val fun _ => mplUpdate_local hv h _ _ _ (hk.1 _ (by simp))

theorem processInstruction_local (hv : OnlySees env accounts) (h : Agree (Named accounts) L L')
    (input : Bytes) :
    Rel (Agree (Named accounts)) (processInstruction env accounts input L)
      (processInstruction env accounts input L') := by
  unfold processInstruction
  refine .val fun i => ?_
  cases i with
  | createMint i => exact processCreateMint_local hv h defaultCustomizer_local i
  | wrap n => exact processWrap_local hv h n
  | unwrap n => exact processUnwrap_local hv h n
  | closeStuckEscrow => exact processClose_local hv h
  | syncMetadataToToken2022 => exact processSync22_local hv h
  | syncMetadataToSplToken => exact processSyncSpl_local hv h
  | setCanonicalPointer id => exact processPointer_local h id

end

/-! ## What is written -/

/-- Only accounts in `W` differ. -/
def Frame (W : Pubkey → Prop) (L M : Ledger) : Prop := ∀ k, ¬ W k → M k = L k

/-- Whatever the computation leaves behind differs from `L` only on `W`. -/
def Wr (W : Pubkey → Prop) (L : Ledger) (x : Res Ledger) : Prop := ∀ M, x = .ok M → Frame W L M

namespace Wr
variable {W : Pubkey → Prop} {L : Ledger}

theorem ok {M : Ledger} (h : Frame W L M) : Wr W L (.ok M) := by
  intro M' h'
  cases h'
  exact h

theorem err (e : Err) : Wr W L (.error e) := fun _ h => by cases h

theorem valOk {γ : Type} {x : Res γ} {f : γ → Res Ledger} (hf : ∀ a, x = .ok a → Wr W L (f a)) :
    Wr W L (x >>= f) := by
  cases x with
  | error e => exact .err e
  | ok a => exact hf a rfl

theorem val {γ : Type} {x : Res γ} {f : γ → Res Ledger} (hf : ∀ a, Wr W L (f a)) :
    Wr W L (x >>= f) := valOk fun a _ => hf a

theorem bind {x : Res Ledger} {f : Ledger → Res Ledger} (hx : Wr W L x)
    (hf : ∀ M, Frame W L M → Wr W L (f M)) : Wr W L (x >>= f) :=
  valOk fun a ha => hf a (hx a ha)

theorem ite {c : Prop} [Decidable c] {x y : Res Ledger} (h1 : c → Wr W L x)
    (h2 : ¬ c → Wr W L y) : Wr W L (if c then x else y) := by
  split
  · exact h1 ‹_›
  · exact h2 ‹_›

end Wr

section
variable {W : Pubkey → Prop} {L M : Ledger} {env : Env} {prog : Pubkey}

theorem Frame.refl : Frame W L L := fun _ _ => rfl

theorem Frame.set (h : Frame W L M) {k : Pubkey} (hk : W k) (a : Account) :
    Frame W L (M.set k a) := by
  intro x hx
  rw [Ledger.set_ne _ _ (by rintro rfl; exact hx hk)]
  exact h x hx

theorem Frame.setData (h : Frame W L M) {k : Pubkey} (hk : W k) (d : Data) :
    Frame W L (M.setData k d) := by
  intro x hx
  rw [Ledger.setData_ne _ _ (by rintro rfl; exact hx hk)]
  exact h x hx

theorem Frame.setLamports (h : Frame W L M) {k : Pubkey} (hk : W k) (n : Nat) :
    Frame W L (M.setLamports k n) := by
  intro x hx
  rw [Ledger.setLamports_ne _ _ (by rintro rfl; exact hx hk)]
  exact h x hx

theorem transferExec_wr (h : Frame W L M) {src dst : Pubkey} (hs : W src) (hd : W dst)
    (auth : Pubkey) (chk : Option (Pubkey × UInt8))
    (signed : Pubkey → Bool) (signers : List Pubkey) (n : Nat) (fee : Option Nat) :
    Wr W L (transferExec env prog signed M src dst auth signers n chk fee) := by
  unfold transferExec transferMove moveLamports
  refine .val fun s => .val fun d => .val fun _ => .val fun _ => .val fun _ => .val fun _ =>
    .val fun _ => .val fun _ => .ite (fun _ => .ok h) fun _ => .val fun _ => .val fun _ =>
    .val fun _ => .ite (fun _ => .val fun _ => .ok ?_) (fun _ => .ok ?_)
  · exact (((h.setData hs _).setData hd _).setLamports hs _).setLamports hd _
  · exact (h.setData hs _).setData hd _

theorem closeAccountExec_wr (h : Frame W L M) {acct dst : Pubkey} (hk : W acct) (hd : W dst)
    (auth : Pubkey) (signed : Pubkey → Bool) (signers : List Pubkey) :
    Wr W L (closeAccountExec prog signed M acct dst auth signers) := by
  unfold closeAccountExec closeOut
  refine .val fun _ => .val fun _ => ?_
  split
  · exact .val fun _ => .val fun _ => .val fun _ => .val fun _ => .ok ((h.setLamports hd _).set hk _)
  · exact .val fun _ => .val fun _ => .val fun _ => .val fun _ => .ok ((h.setLamports hd _).set hk _)
  · exact .err _

theorem mintToExec_wr (h : Frame W L M) {mint dst : Pubkey} (hm : W mint) (hd : W dst)
    (auth : Pubkey) (signed : Pubkey → Bool) (signers : List Pubkey) (n : Nat) :
    Wr W L (mintToExec prog signed M mint dst auth signers n) := by
  unfold mintToExec
  exact .val fun _ => .val fun _ => .val fun _ => .val fun _ => .val fun _ => .val fun _ =>
    .val fun _ => .val fun _ => .val fun _ => .ok ((h.setData hd _).setData hm _)

theorem burnExec_wr (h : Frame W L M) {acct mint : Pubkey} (hm : W mint) (hd : W acct)
    (auth : Pubkey) (signed : Pubkey → Bool) (signers : List Pubkey) (n : Nat) :
    Wr W L (burnExec prog signed M acct mint auth signers n) := by
  unfold burnExec
  exact .val fun _ => .val fun _ => .val fun _ => .val fun _ => .val fun _ => .val fun _ =>
    .val fun _ => .val fun _ => .ok ((h.setData hd _).setData hm _)

theorem initMintExtExec_wr (h : Frame W L M) {mint : Pubkey} (hk : W mint) (ext : MintExt) :
    Wr W L (initMintExtExec prog M mint ext) := by
  unfold initMintExtExec
  refine .val fun _ => .val fun _ => .val fun _ => ?_
  split
  · exact .val fun _ => .val fun _ => .ok (h.setData hk _)
  · exact .val fun _ => .val fun _ => .ok (h.setData hk _)
  · exact .err _

theorem initializeMint2Exec_wr (h : Frame W L M) {mint : Pubkey} (hk : W mint) (ma : Pubkey)
    (fa : Option Pubkey) (dec : UInt8) : Wr W L (initializeMint2Exec env prog M mint ma fa dec) := by
  unfold initializeMint2Exec
  exact .val fun _ => .val fun _ => .val fun _ => .ok (h.setData hk _)

theorem initializeMetadataExec_wr (h : Frame W L M) {mint : Pubkey} (hk : W mint) (ua ma : Pubkey)
    (signed : Pubkey → Bool) (a b c : String) :
    Wr W L (initializeMetadataExec prog signed M mint ua ma a b c) := by
  unfold initializeMetadataExec
  exact .val fun _ => .val fun _ => .val fun _ => .val fun _ => .val fun _ => .val fun _ =>
    .ok (h.setData hk _)

theorem metadataUpdateExec_wr (h : Frame W L M) {mint : Pubkey} (hk : W mint) (ua : Pubkey)
    (signed : Pubkey → Bool) (f : TokenMetadata → Res TokenMetadata) :
    Wr W L (metadataUpdateExec prog signed M mint ua f) := by
  unfold metadataUpdateExec
  exact .val fun _ => .val fun _ => .val fun _ => .val fun _ => .val fun _ => .val fun _ =>
    .ok (h.setData hk _)

theorem tokenExec_wr (h : Frame W L M) {ix : TokenIx} (hs : ix.sent = true)
    (hk : ∀ m ∈ ix.metas, m.writable = true → W m.key) (signed : Pubkey → Bool) :
    Wr W L (tokenExec env prog ix signed M) := by
  unfold tokenExec
  split
  · exact .err _
  · cases ix <;> simp [TokenIx.sent, TokenIx.metas] at hs <;>
      simp [TokenIx.metas, authMetas, Meta.rw, Meta.ro] at hk <;> dsimp only
    · exact transferExec_wr h hk.1 hk.2 _ _ _ _ _ _
    · exact transferExec_wr h hk.1 hk.2 _ _ _ _ _ _
    · exact mintToExec_wr h hk.1 hk.2 _ _ _ _
    · exact burnExec_wr h hk.2 hk.1 _ _ _ _
    · exact closeAccountExec_wr h hk.1 hk.2 _ _ _
    · exact initMintExtExec_wr h hk _
    · exact initializeMint2Exec_wr h hk _ _ _
    · exact initializeMetadataExec_wr h hk _ _ _ _ _ _
    · exact metadataUpdateExec_wr h hk _ _ _
    · exact metadataUpdateExec_wr h hk _ _ _

variable {accounts : List Meta}

theorem invokeToken_wr (h : Frame (WritableIn accounts) L M) (pdas borrowed : List Pubkey)
    (prog : Pubkey) {ix : TokenIx} (hs : ix.sent = true) :
    Wr (WritableIn accounts) L (invokeToken env accounts pdas borrowed prog ix M) := by
  unfold invokeToken
  exact .val fun _ => .valOk fun _ hc => tokenExec_wr h hs (fun m hm => (cpiCheck_named hc m hm).2) _

theorem invokeAllocate_wr (h : Frame (WritableIn accounts) L M) (pdas : List Pubkey) (key : Pubkey)
    (space : Nat) : Wr (WritableIn accounts) L (invokeAllocate accounts pdas key space M) := by
  unfold invokeAllocate sysAllocate
  refine .valOk fun _ hc => .val fun _ => .val fun _ => .ok ?_
  exact h.setData ((cpiCheck_named hc _ (.head _)).2 rfl) _

theorem invokeAssign_wr (h : Frame (WritableIn accounts) L M) (pdas : List Pubkey)
    (key owner : Pubkey) : Wr (WritableIn accounts) L (invokeAssign accounts pdas key owner M) := by
  unfold invokeAssign sysAssign
  refine .valOk fun _ hc => .ite (fun _ => .ok h) fun _ => .val fun _ => .val fun _ => .ok ?_
  exact h.set ((cpiCheck_named hc _ (.head _)).2 rfl) _

theorem writeOwn_wr (h : Frame (WritableIn accounts) L M) {m : Meta} (hm : m ∈ accounts) (b : Bytes) :
    Wr (WritableIn accounts) L (writeOwn env m b M) := by
  unfold writeOwn
  refine .ite (fun _ => .ok h) fun _ => .valOk fun _ hw => .val fun _ => .ok ?_
  exact h.setData ⟨m, hm, rfl, require_ok_iff.1 hw⟩ _

theorem mplCreate_wr (h : Frame W L M) (signed : Pubkey → Bool) {md payer : Pubkey}
    (mint ma ua : Pubkey) (data : DataV2) (b : Bool) (h1 : W md) (h3 : W payer) :
    Wr W L (mplCreate env signed md mint ma payer ua data b M) := by
  unfold mplCreate
  refine .val fun _ => .val fun _ => .val fun _ => .val fun _ => ?_
  split
  · refine .val fun _ => ?_
    split
    · exact .err _
    · exact .val fun _ => .ok ((h.setLamports h3 _).set h1 _)
  · exact .err _

theorem mplUpdate_wr (h : Frame W L M) (signed : Pubkey → Bool) {md : Pubkey} (ua : Pubkey)
    (data : DataV2) (h1 : W md) : Wr W L (mplUpdate env signed md ua data M) := by
  unfold mplUpdate
  refine .val fun _ => ?_
  split
  · refine .val fun _ => .val fun _ => ?_
    split
    · exact .err _
    · exact .ok (h.setData h1 _)
  · exact .err _

theorem processWrap_wr (amount : UInt64) :
    Wr (WritableIn accounts) L (processWrap env accounts amount L) := by
  unfold processWrap
  refine .val fun _ => .val fun a => .val fun _ => .val fun _ => .val fun p => .val fun _ =>
    .val fun _ => .val fun _ => .val fun _ => .val fun _ => .val fun m => .val fun _ => ?_
  refine .bind ?_ fun L1 h1 => .val fun _ => invokeToken_wr h1 _ _ _ rfl
  unfold wrapTransfer
  exact .ite (fun _ => invokeToken_wr .refl _ _ _ rfl) (fun _ => invokeToken_wr .refl _ _ _ rfl)

theorem processUnwrap_wr (amount : UInt64) :
    Wr (WritableIn accounts) L (processUnwrap env accounts amount L) := by
  unfold processUnwrap
  exact .val fun _ => .val fun a => .val fun _ => .val fun _ => .val fun p => .val fun _ =>
    .val fun _ => .val fun _ => .bind (invokeToken_wr .refl _ _ _ rfl) fun _ h1 => .val fun _ =>
    .val fun _ => invokeToken_wr h1 _ _ _ rfl

theorem processClose_wr : Wr (WritableIn accounts) L (processCloseStuckEscrow env accounts L) := by
  unfold processCloseStuckEscrow
  exact .val fun _ => .val fun a => .val fun _ => .val fun _ => .val fun p => .val fun _ =>
    .val fun _ => .val fun _ => .val fun _ => .val fun _ => .val fun _ => .val fun _ =>
    .val fun _ => .val fun _ => .val fun _ => invokeToken_wr .refl _ _ _ rfl

theorem processPointer_wr (id : Pubkey) :
    Wr (WritableIn accounts) L (processSetCanonicalPointer env accounts id L) := by
  unfold processSetCanonicalPointer
  refine .valOk fun a ha => ?_
  have hk : a.pointer ∈ accounts := by
    unfold parsePointer at ha
    split at ha
    · cases ha; simp
    · cases ha
  refine .val fun _ => .val fun _ => .val fun _ => .val fun _ => .val fun _ => .val fun p =>
    .val fun _ => .bind ?_ fun _ h1 => .val fun _ => writeOwn_wr h1 hk _
  unfold initPointer
  exact .ite (fun _ => .val fun _ => .val fun _ => .bind (invokeAllocate_wr .refl _ _ _) fun _ h1 =>
    invokeAssign_wr h1 _ _ _) (fun _ => .ok .refl)

/-- What a customizer has to do for CreateMint to write only what it may: its initialisation does. -/
def Customizer.Framed (M : Customizer) : Prop :=
  ∀ (env : Env) (accounts : List Meta) (w p : Pubkey) (L L1 : Ledger),
    Frame (WritableIn accounts) L L1 →
    Wr (WritableIn accounts) L (M.initializeExtensions env accounts w p L1)

theorem defaultCustomizer_framed : defaultToken2022Customizer.Framed := by
  intro env accounts w p L L1 h
  exact .bind (invokeToken_wr h _ _ _ rfl) fun _ h1 => .val fun _ => invokeToken_wr h1 _ _ _ rfl

theorem processCreateMint_wr {C : Customizer} (hM : C.Framed) (i : Bool) :
    Wr (WritableIn accounts) L (processCreateMint env C accounts i L) := by
  unfold processCreateMint
  refine .valOk fun a ha => ?_
  have hk : a.backpointer ∈ accounts := by
    unfold parseCreateMint at ha
    split at ha
    · cases ha; simp
    · cases ha
  refine .val fun p => .val fun q => .val fun _ => .val fun _ => .val fun _ => .ite (fun _ => ?_)
    (fun _ => ?_)
  · exact .val fun _ => .val fun _ => .val fun _ => .ok .refl
  · unfold createMintInit createBackpointer
    refine .bind ?_ fun _ h1 => ?_
    · refine .val fun _ => .val fun _ => .val fun _ => .bind (invokeAllocate_wr .refl _ _ _) fun _ h1 =>
        .bind (invokeAssign_wr h1 _ _ _) fun _ h2 =>
        .bind (.ite (fun _ => hM _ _ _ _ _ _ h2) (fun _ => .ok h2)) fun _ h3 => .val fun p =>
        .val fun _ => invokeToken_wr h3 _ _ _ rfl
    · exact .val fun _ => .val fun _ => .bind (invokeAllocate_wr h1 _ _ _) fun _ h2 =>
        .bind (invokeAssign_wr h2 _ _ _) fun _ h3 => .val fun _ => writeOwn_wr h3 hk _

theorem updateFields_wr (h : Frame (WritableIn accounts) L M)
    (pda p w a : Pubkey) (x y : TokenMetadata) (l : List (Field × (TokenMetadata → String))) :
    Wr (WritableIn accounts) L (updateFieldsIfChanged env accounts pda p w a x y l M) := by
  induction l generalizing M with
  | nil => exact .ok h
  | cons f rest ih =>
    unfold updateFieldsIfChanged
    exact .bind (.ite (fun _ => invokeToken_wr h _ _ _ rfl) (fun _ => .ok h)) fun _ h1 => ih h1

theorem syncAdditional_wr (h : Frame (WritableIn accounts) L M) {pda p w a : Pubkey}
    {l : List (String × String)} {map : StrMap} {r : StrMap × Ledger}
    (hr : syncAdditional env accounts pda p w a l map M = .ok r) :
    Frame (WritableIn accounts) L r.2 := by
  induction l generalizing M map with
  | nil => cases hr; exact h
  | cons f rest ih =>
    unfold syncAdditional at hr
    obtain ⟨L1, h1, h2⟩ := bind_ok_iff.1 hr
    have : Wr (WritableIn accounts) L
        (if List.lookup f.1 map ≠ some f.2 then
          metaCpi env accounts pda p (.updateField w a (.key f.1) f.2) M else .ok M) :=
      .ite (fun _ => invokeToken_wr h _ _ _ rfl) (fun _ => .ok h)
    exact ih (this _ h1) h2

theorem removeStale_wr (h : Frame (WritableIn accounts) L M) (pda p w a : Pubkey) (l : List String) :
    Wr (WritableIn accounts) L (removeStale env accounts pda p w a l M) := by
  induction l generalizing M with
  | nil => exact .ok h
  | cons f rest ih =>
    unfold removeStale
    exact .bind (invokeToken_wr h _ _ _ rfl) fun _ h1 => ih h1

theorem addFields_wr (h : Frame (WritableIn accounts) L M) (pda p w a : Pubkey)
    (l : List (String × String)) :
    Wr (WritableIn accounts) L (addFields env accounts pda p w a l M) := by
  induction l generalizing M with
  | nil => exact .ok h
  | cons f rest ih =>
    unfold addFields
    exact .bind (invokeToken_wr h _ _ _ rfl) fun _ h1 => ih h1

theorem processSync22_wr : Wr (WritableIn accounts) L (processSyncToToken2022 env accounts L) := by
  unfold processSyncToToken2022
  refine .val fun a => .val fun _ => .val fun _ => .val fun _ => .val fun _ => .val fun p =>
    .val fun _ => .val fun src => .val fun m => .val fun _ => ?_
  split
  · exact .bind (updateFields_wr .refl _ _ _ _ _ _ _) fun L1 h1 => .valOk fun q hq =>
      removeStale_wr (syncAdditional_wr h1 hq) _ _ _ _ _
  · exact .bind (invokeToken_wr .refl _ _ _ rfl) fun _ h1 => addFields_wr h1 _ _ _ _ _

theorem processSyncSpl_wr : Wr (WritableIn accounts) L (processSyncToSplToken env accounts L) := by
  unfold processSyncToSplToken
  refine .val fun a => .val fun _ => .val fun _ => .val fun _ => .val fun p => .val fun _ =>
    .val fun _ => .val fun _ => .val fun _ => .val fun src => .val fun data => .val fun _ =>
    .ite (fun _ => ?_) (fun _ => ?_)
  · refine .valOk fun _ hc => mplCreate_wr .refl _ _ _ _ _ _ ?_ ?_
    · exact (cpiCheck_named hc (.rw a.metaplexMetadata.key false) (by simp [mplCreateMetas])).2 rfl
    · exact (cpiCheck_named hc (.rw a.authority.key true) (by simp [mplCreateMetas])).2 rfl
  · refine .valOk fun _ hc => mplUpdate_wr .refl _ _ _ ?_
    exact (cpiCheck_named hc (.rw a.metaplexMetadata.key false) (by simp [mplUpdateMetas])).2 rfl

theorem processInstruction_wr (input : Bytes) :
    Wr (WritableIn accounts) L (processInstruction env accounts input L) := by
  unfold processInstruction
  refine .val fun i => ?_
  cases i with
  | createMint i => exact processCreateMint_wr defaultCustomizer_framed i
  | wrap n => exact processWrap_wr n
  | unwrap n => exact processUnwrap_wr n
  | closeStuckEscrow => exact processClose_wr
  | syncMetadataToToken2022 => exact processSync22_wr
  | syncMetadataToSplToken => exact processSyncSpl_wr
  | setCanonicalPointer id => exact processPointer_wr id

end

end TokenWrap
