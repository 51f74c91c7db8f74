import Verif.Reported
import Verif.Props.Close
import Verif.Props.Idl
import Verif.Props.Liveness
import Verif.Ata
/-!
# An error code names what is wrong (C105)
-/

namespace TokenWrap

open TokenWrapInstruction

/-! ## Specification: what each code says -/

/-- The `i`-th account of the instruction is `k`. -/
def At (accounts : List Meta) (i : Nat) (k : Pubkey) : Prop := ∃ m, accounts[i]? = some m ∧ m.key = k

/-- What is wrong with the metadata source of the unwrapped mint at `u`, the source account being given (if
at all) at position `i`. -/
inductive SourceFault (env : Env) (accounts : List Meta) (L : Ledger) (u : Pubkey) (i : Nat) :
    TokenWrapError → Prop
  | metaplex {s : Pubkey} : At accounts i s → metaplexPda env.cr u ≠ some s →
      SourceFault env accounts L u i .metaplexMetadataMismatch
  | unset {m : Mint} {a : Option Pubkey} : (L u).data = .mint m → m.metadataPointer? = some (a, none) →
      SourceFault env accounts L u i .metadataPointerUnset
  | mismatch {m : Mint} {a : Option Pubkey} {addr s : Pubkey} : (L u).data = .mint m →
      m.metadataPointer? = some (a, some addr) → At accounts i s → s ≠ addr →
      SourceFault env accounts L u i .metadataPointerMismatch
  | noData {s : Pubkey} : At accounts i s → (∀ b, env.emit (L s).owner s L ≠ .ok (some ((L s).owner, b))) →
      (∀ e, env.emit (L s).owner s L ≠ .error e) →
      SourceFault env accounts L u i .externalProgramReturnedNoData

/-- `Fault env accounts L ix e`: in ledger `L`, calling `ix` with `accounts` has the defect that the error `e`
describes. -/
inductive Fault (env : Env) (accounts : List Meta) (L : Ledger) : TokenWrapInstruction → TokenWrapError → Prop
  -- CreateMint: wrapped mint, backpointer, unwrapped mint, system program, wrapped token program
  | createMint_mint {i : Bool} {w u p : Pubkey} : At accounts 0 w → At accounts 2 u → At accounts 4 p →
      wrappedMintAddress env.cr u p ≠ some w → Fault env accounts L (.createMint i) .wrappedMintMismatch
  | createMint_backpointer {i : Bool} {w b : Pubkey} : At accounts 0 w → At accounts 1 b →
      backpointerAddress env.cr w ≠ some b → Fault env accounts L (.createMint i) .backpointerMismatch
  | createMint_mintOwner {w p : Pubkey} : At accounts 0 w → At accounts 4 p → (L w).owner ≠ p →
      Fault env accounts L (.createMint true) .invalidWrappedMintOwner
  | createMint_backpointerOwner {b : Pubkey} : At accounts 1 b → (L b).owner ≠ env.programId →
      Fault env accounts L (.createMint true) .invalidBackpointerOwner
  -- Wrap: recipient, wrapped mint, authority, unwrapped token program, wrapped token program, unwrapped token
  -- account, unwrapped mint, escrow, transfer authority
  | wrap_zero : Fault env accounts L (.wrap 0) .zeroWrapAmount
  | wrap_mint {n : UInt64} {w u p : Pubkey} : At accounts 1 w → At accounts 6 u → At accounts 4 p →
      wrappedMintAddress env.cr u p ≠ some w → Fault env accounts L (.wrap n) .wrappedMintMismatch
  | wrap_authority {n : UInt64} {w a : Pubkey} : At accounts 1 w → At accounts 2 a →
      authorityAddress env.cr w ≠ some a → Fault env accounts L (.wrap n) .mintAuthorityMismatch
  | wrap_escrow {n : UInt64} {e a u p : Pubkey} : At accounts 7 e → At accounts 2 a → At accounts 6 u →
      At accounts 3 p → associatedTokenAddress env.cr a u p ≠ some e →
      Fault env accounts L (.wrap n) .escrowMismatch
  | wrap_escrowOwner {n : UInt64} {e w : Pubkey} {t : TokenAcct} : At accounts 7 e → At accounts 1 w →
      (L e).data = .token t → authorityAddress env.cr w ≠ some t.owner →
      Fault env accounts L (.wrap n) .escrowOwnerMismatch
  -- Unwrap: escrow, recipient, authority, unwrapped mint, wrapped token program, unwrapped token program,
  -- wrapped token account, wrapped mint, transfer authority
  | unwrap_zero : Fault env accounts L (.unwrap 0) .zeroWrapAmount
  | unwrap_mint {n : UInt64} {w u p : Pubkey} : At accounts 7 w → At accounts 3 u → At accounts 4 p →
      wrappedMintAddress env.cr u p ≠ some w → Fault env accounts L (.unwrap n) .wrappedMintMismatch
  | unwrap_authority {n : UInt64} {w a : Pubkey} : At accounts 7 w → At accounts 2 a →
      authorityAddress env.cr w ≠ some a → Fault env accounts L (.unwrap n) .mintAuthorityMismatch
  | unwrap_escrow {n : UInt64} {e a u p : Pubkey} : At accounts 0 e → At accounts 2 a → At accounts 3 u →
      At accounts 5 p → associatedTokenAddress env.cr a u p ≠ some e →
      Fault env accounts L (.unwrap n) .escrowMismatch
  -- CloseStuckEscrow: escrow, destination, unwrapped mint, wrapped mint, authority, Token-2022 program
  | close_mint {w u : Pubkey} : At accounts 3 w → At accounts 2 u →
      wrappedMintAddress env.cr u (L w).owner ≠ some w →
      Fault env accounts L .closeStuckEscrow .wrappedMintMismatch
  | close_authority {w a : Pubkey} : At accounts 3 w → At accounts 4 a → authorityAddress env.cr w ≠ some a →
      Fault env accounts L .closeStuckEscrow .mintAuthorityMismatch
  | close_escrow {e a u : Pubkey} : At accounts 0 e → At accounts 4 a → At accounts 2 u →
      associatedTokenAddress env.cr a u token2022Id ≠ some e →
      Fault env accounts L .closeStuckEscrow .escrowMismatch
  | close_escrowOwner {e a : Pubkey} {t : TokenAcct} : At accounts 0 e → At accounts 4 a →
      (L e).data = .token t → t.owner ≠ a → Fault env accounts L .closeStuckEscrow .escrowOwnerMismatch
  | close_goodState {e u : Pubkey} {t : TokenAcct} {m : Mint} : At accounts 0 e → At accounts 2 u →
      (L e).data = .token t → (L u).data = .mint m → (NoDupExts t m → HasRequiredExts t m) →
      Fault env accounts L .closeStuckEscrow .escrowInGoodState
  -- SyncMetadataToToken2022: wrapped mint, authority, unwrapped mint, Token-2022 program, source, its program
  | sync22_mint {w u : Pubkey} : At accounts 0 w → At accounts 2 u →
      wrappedMintAddress env.cr u token2022Id ≠ some w →
      Fault env accounts L .syncMetadataToToken2022 .wrappedMintMismatch
  | sync22_authority {w a : Pubkey} : At accounts 0 w → At accounts 1 a → authorityAddress env.cr w ≠ some a →
      Fault env accounts L .syncMetadataToToken2022 .mintAuthorityMismatch
  | sync22_source {u : Pubkey} {e : TokenWrapError} : At accounts 2 u → SourceFault env accounts L u 4 e →
      Fault env accounts L .syncMetadataToToken2022 e
  -- SyncMetadataToSplToken: Metaplex account, authority, wrapped mint, unwrapped mint, Metaplex, system
  -- program, rent, source, its program
  | syncSpl_program {w : Pubkey} : At accounts 2 w → (L w).owner ≠ splTokenId →
      Fault env accounts L .syncMetadataToSplToken .noSyncingToToken2022
  | syncSpl_mint {w u : Pubkey} : At accounts 2 w → At accounts 3 u →
      wrappedMintAddress env.cr u splTokenId ≠ some w →
      Fault env accounts L .syncMetadataToSplToken .wrappedMintMismatch
  | syncSpl_authority {w a : Pubkey} : At accounts 2 w → At accounts 1 a →
      authorityAddress env.cr w ≠ some a → Fault env accounts L .syncMetadataToSplToken .mintAuthorityMismatch
  | syncSpl_metaplex {w x : Pubkey} : At accounts 2 w → At accounts 0 x → metaplexPda env.cr w ≠ some x →
      Fault env accounts L .syncMetadataToSplToken .metaplexMetadataMismatch
  | syncSpl_source {u : Pubkey} {e : TokenWrapError} : At accounts 3 u → SourceFault env accounts L u 7 e →
      Fault env accounts L .syncMetadataToSplToken e

/-- The codes an instruction is said to return. -/
def ownCodes : TokenWrapInstruction → List UInt32
  | .createMint _ => [0, 1, 5, 6]
  | .wrap _ => [0, 2, 3, 4, 7]
  | .unwrap _ => [0, 2, 3, 7]
  | .closeStuckEscrow => [0, 3, 4, 7, 8]
  | .syncMetadataToToken2022 => [0, 3, 10, 12, 13, 14]
  | .syncMetadataToSplToken => [0, 3, 10, 12, 13, 14, 15]
  | .setCanonicalPointer _ => []

/-! ## Proof -/

/-- An error that is one of Token Wrap's codes is the code of an error satisfying `F`. -/
def Own (F : TokenWrapError → Prop) (err : Err) : Prop := ∀ n, err = .custom n → ∃ e, F e ∧ n = e.code

section calculus
variable {α : Type} {F : TokenWrapError → Prop}

theorem own_foreign {x : Res α} (h : Foreign x) : Raises (Own F) x :=
  h.mono fun e he n hn => by subst hn; cases he

theorem own_err {e : TokenWrapError} (h : F e) : Own F (wrapErr e) :=
  fun n hn => ⟨e, h, by simpa [wrapErr, TokenWrapError.toErr] using hn.symm⟩

theorem own_lit {err : Err} (h : err.foreign = true) : Own F err :=
  fun n hn => by subst hn; cases h

theorem own_require {c : Bool} {e : TokenWrapError} (h : c = false → F e) :
    Raises (Own F) (require c (wrapErr e)) := .require fun hc => own_err (h hc)

theorem own_check {c : Bool} {e : Err} (h : e.foreign = true) : Raises (Own F) (require c e) :=
  .require fun _ => own_lit h

theorem own_okOr {o : Option α} {e : Err} (h : e.foreign = true) : Raises (Own F) (okOr o e) :=
  .okOr fun _ => own_lit h

end calculus

section instructions
variable {env : Env} {accounts : List Meta} {L : Ledger}

theorem okOr_some_of_ok {α : Type} {o : Option α} {e : Err} {a : α} (h : okOr o e = .ok a) : o = some a := by
  simpa using h

theorem at_of {i : Nat} {m : Meta} (h : accounts[i]? = some m) : At accounts i m.key := ⟨m, h, rfl⟩

theorem authority_ne {w A a : Pubkey} {b : UInt8} (h : authorityWithSeed env.cr w = some (A, b)) (hne : A ≠ a) :
    authorityAddress env.cr w ≠ some a := by
  intro h'
  obtain ⟨b', h''⟩ := authorityAddress_some.1 h'
  rw [h] at h''; cases h''; exact hne rfl

theorem parseWrap_at {a : WrapAccounts} (h : parseWrap accounts = .ok a) :
    At accounts 1 a.wrappedMint.key ∧ At accounts 2 a.authority.key ∧
    At accounts 3 a.unwrappedTokenProgram.key ∧ At accounts 4 a.wrappedTokenProgram.key ∧
    At accounts 6 a.unwrappedMint.key ∧ At accounts 7 a.escrow.key := by
  unfold parseWrap at h
  split at h
  · cases h; exact ⟨at_of rfl, at_of rfl, at_of rfl, at_of rfl, at_of rfl, at_of rfl⟩
  · cases h

theorem raises_wrap {amount : UInt64} :
    Raises (Own (Fault env accounts L (.wrap amount))) (processWrap env accounts amount L) := by
  unfold processWrap
  refine .bind (own_require fun h => ?_) fun _ _ => ?_
  · have : amount = 0 := by simpa using h
    subst this; exact .wrap_zero
  refine .bind (own_foreign (by unfold parseWrap; repeat' foreign_step)) fun a ha => ?_
  obtain ⟨h1, h2, h3, h4, h6, h7⟩ := parseWrap_at ha
  refine .bind (own_okOr rfl) fun W hW => ?_
  have hW := okOr_some_of_ok hW
  refine .bind (own_require fun h => ?_) fun _ _ => ?_
  · exact .wrap_mint h1 h6 h4 (by rw [hW]; simpa using h)
  refine .bind (own_okOr rfl) fun p hp => ?_
  obtain ⟨A, b⟩ := p
  have hp := okOr_some_of_ok hp
  dsimp only
  refine .bind (own_require fun h => ?_) fun _ _ => ?_
  · exact .wrap_authority h1 h2 (authority_ne hp (Ne.symm (by simpa using h)))
  refine .bind (own_okOr rfl) fun E hE => ?_
  have hE := okOr_some_of_ok hE
  refine .bind (own_require fun h => ?_) fun _ _ => ?_
  · exact .wrap_escrow h7 h2 h6 h3 (by rw [hE]; simpa using Ne.symm (by simpa using h))
  refine .bind (own_foreign foreign_unpackToken) fun t ht => ?_
  have ht : (L a.escrow.key).data = .token t := by simpa using ht
  refine .bind (own_require fun h => ?_) fun _ _ => ?_
  · exact .wrap_escrowOwner h7 h1 ht (authority_ne hp (Ne.symm (by simpa using h)))
  refine .bind (own_foreign foreign_unpackMint) fun m _ => ?_
  refine .bind (own_check rfl) fun _ _ => ?_
  refine .bind (own_foreign ?_) fun L1 _ => ?_
  · unfold wrapTransfer; dsimp only; split <;> exact foreign_invokeToken
  refine .bind (own_foreign foreign_signerPda) fun _ _ => ?_
  exact own_foreign foreign_invokeToken

theorem parseUnwrap_at {a : UnwrapAccounts} (h : parseUnwrap accounts = .ok a) :
    At accounts 0 a.escrow.key ∧ At accounts 2 a.authority.key ∧
    At accounts 3 a.unwrappedMint.key ∧ At accounts 4 a.wrappedTokenProgram.key ∧
    At accounts 5 a.unwrappedTokenProgram.key ∧ At accounts 7 a.wrappedMint.key := by
  unfold parseUnwrap at h
  split at h
  · cases h; exact ⟨at_of rfl, at_of rfl, at_of rfl, at_of rfl, at_of rfl, at_of rfl⟩
  · cases h

theorem raises_unwrap {amount : UInt64} :
    Raises (Own (Fault env accounts L (.unwrap amount))) (processUnwrap env accounts amount L) := by
  unfold processUnwrap
  refine .bind (own_require fun h => ?_) fun _ _ => ?_
  · have : amount = 0 := by simpa using h
    subst this; exact .unwrap_zero
  refine .bind (own_foreign (by unfold parseUnwrap; repeat' foreign_step)) fun a ha => ?_
  obtain ⟨h0, h2, h3, h4, h5, h7⟩ := parseUnwrap_at ha
  refine .bind (own_okOr rfl) fun W hW => ?_
  have hW := okOr_some_of_ok hW
  refine .bind (own_require fun h => ?_) fun _ _ => ?_
  · exact .unwrap_mint h7 h3 h4 (by rw [hW]; simpa using h)
  refine .bind (own_okOr rfl) fun p hp => ?_
  obtain ⟨A, b⟩ := p
  have hp := okOr_some_of_ok hp
  dsimp only
  refine .bind (own_require fun h => ?_) fun _ _ => ?_
  · exact .unwrap_authority h7 h2 (authority_ne hp (Ne.symm (by simpa using h)))
  refine .bind (own_okOr rfl) fun E hE => ?_
  have hE := okOr_some_of_ok hE
  refine .bind (own_require fun h => ?_) fun _ _ => ?_
  · exact .unwrap_escrow h0 h2 h3 h5 (by rw [hE]; simpa using Ne.symm (by simpa using h))
  refine .bind (own_foreign foreign_invokeToken) fun L1 _ => ?_
  refine .bind (own_foreign foreign_unpackMint) fun m _ => ?_
  refine .bind (own_foreign foreign_signerPda) fun _ _ => ?_
  exact own_foreign foreign_invokeToken

theorem parseCreateMint_at {a : CreateMintAccounts} (h : parseCreateMint accounts = .ok a) :
    At accounts 0 a.wrappedMint.key ∧ At accounts 1 a.backpointer.key ∧
    At accounts 2 a.unwrappedMint.key ∧ At accounts 4 a.wrappedTokenProgram.key := by
  unfold parseCreateMint at h
  split at h
  · cases h; exact ⟨at_of rfl, at_of rfl, at_of rfl, at_of rfl⟩
  · cases h

/-- A mint customizer that never fails with a code of Token Wrap. -/
structure ForeignCustomizer (M : Customizer) : Prop where
  space : Foreign M.token2022MintSpace
  init : ∀ env caller w p L, Foreign (M.initializeExtensions env caller w p L)
  freeze : ∀ d, Foreign (M.freezeAuthAndDecimals d)

theorem foreign_copyFreeze {d : Data} : Foreign (copyFreezeAndDecimals d) := by
  unfold copyFreezeAndDecimals
  exact .bind foreign_unpackMint fun _ _ => .pure'

theorem foreign_default : ForeignCustomizer defaultToken2022Customizer where
  space := .ok
  init env caller w p L := by
    simp only [defaultToken2022Customizer]
    repeat' first | exact foreign_invokeToken | foreign_step
  freeze _ := foreign_copyFreeze

theorem foreign_noExtension : ForeignCustomizer noExtensionCustomizer where
  space := .ok
  init _ _ _ _ _ := .ok
  freeze _ := foreign_copyFreeze

theorem foreign_compliance : ForeignCustomizer complianceCustomizer where
  space := .ok
  init env caller w p L := by
    simp only [complianceCustomizer]
    repeat' first | exact foreign_invokeToken | foreign_step
  freeze d := by
    simp only [complianceCustomizer]
    exact .bind foreign_unpackMint fun _ _ => .pure'

theorem foreign_createMintInit {M : Customizer} (hM : ForeignCustomizer M) {a : CreateMintAccounts} {b : UInt8} :
    Foreign (createMintInit env M accounts a b L) := by
  unfold createMintInit wrappedMintSpace
  repeat' first
    | exact foreign_invokeToken
    | exact foreign_signerPda
    | exact foreign_invokeAllocate
    | exact foreign_invokeAssign
    | exact hM.space
    | exact hM.init ..
    | exact hM.freeze _
    | foreign_step

theorem foreign_createBackpointer {a : CreateMintAccounts} {b : UInt8} :
    Foreign (createBackpointer env accounts a b L) := by
  unfold createBackpointer
  repeat' first
    | exact foreign_signerPda
    | exact foreign_invokeAllocate
    | exact foreign_invokeAssign
    | exact foreign_writeOwn
    | foreign_step

theorem raises_createMint {M : Customizer} (hM : ForeignCustomizer M) {i : Bool} :
    Raises (Own (Fault env accounts L (.createMint i))) (processCreateMint env M accounts i L) := by
  unfold processCreateMint
  refine .bind (own_foreign (by unfold parseCreateMint; repeat' foreign_step)) fun a ha => ?_
  obtain ⟨h0, h1, h2, h4⟩ := parseCreateMint_at ha
  refine .bind (own_okOr rfl) fun p hW => ?_
  obtain ⟨W, mb⟩ := p
  have hW := okOr_some_of_ok hW
  dsimp only
  refine .bind (own_okOr rfl) fun p hB => ?_
  obtain ⟨B, bb⟩ := p
  have hB := okOr_some_of_ok hB
  dsimp only
  refine .bind (own_require fun h => ?_) fun _ _ => ?_
  · refine .createMint_mint h0 h2 h4 fun h' => ?_
    have h : a.wrappedMint.key ≠ W := by simpa using h
    simp only [wrappedMintAddress, wrappedMintAddressFor] at h'
    simp only [wrappedMintWithSeed] at hW
    rw [hW] at h'
    exact h (Option.some.inj h').symm
  refine .bind (own_require fun h => ?_) fun _ _ => ?_
  · refine .createMint_backpointer h0 h1 fun h' => ?_
    have h : a.backpointer.key ≠ B := by simpa using h
    simp only [backpointerAddress, backpointerAddressFor] at h'
    simp only [backpointerWithSeed] at hB
    rw [hB] at h'
    exact h (Option.some.inj h').symm
  refine .bind (own_check rfl) fun _ _ => ?_
  split
  · refine .bind (own_check rfl) fun _ hi => ?_
    have hi : i = true := by simpa using hi
    subst hi
    refine .bind (own_require fun h => ?_) fun _ _ => ?_
    · exact .createMint_mintOwner h0 h4 (by simpa using h)
    refine .bind (own_require fun h => ?_) fun _ _ => ?_
    · exact .createMint_backpointerOwner h1 (by simpa using h)
    exact .pure'
  · exact .bind (own_foreign (foreign_createMintInit hM)) fun _ _ => own_foreign foreign_createBackpointer

theorem parseClose_at {a : CloseAccounts} (h : parseClose accounts = .ok a) :
    At accounts 0 a.escrow.key ∧ At accounts 2 a.unwrappedMint.key ∧
    At accounts 3 a.wrappedMint.key ∧ At accounts 4 a.authority.key := by
  unfold parseClose at h
  split at h
  · cases h; exact ⟨at_of rfl, at_of rfl, at_of rfl, at_of rfl⟩
  · cases h

theorem raises_close :
    Raises (Own (Fault env accounts L .closeStuckEscrow)) (processCloseStuckEscrow env accounts L) := by
  unfold processCloseStuckEscrow
  refine .bind (own_foreign (by unfold parseClose; repeat' foreign_step)) fun a ha => ?_
  obtain ⟨h0, h2, h3, h4⟩ := parseClose_at ha
  refine .bind (own_check rfl) fun _ ho => ?_
  have ho : (L a.escrow.key).owner = token2022Id ∧ (L a.unwrappedMint.key).owner = token2022Id := by
    simpa using ho
  refine .bind (own_okOr rfl) fun W hW => ?_
  have hW := okOr_some_of_ok hW
  refine .bind (own_require fun h => ?_) fun _ _ => ?_
  · exact .close_mint h3 h2 (by rw [hW]; simpa using Ne.symm (by simpa using h))
  refine .bind (own_okOr rfl) fun p hp => ?_
  obtain ⟨A, b⟩ := p
  have hp := okOr_some_of_ok hp
  dsimp only
  refine .bind (own_require fun h => ?_) fun _ hA => ?_
  · exact .close_authority h3 h4 (authority_ne hp (Ne.symm (by simpa using h)))
  refine .bind (own_okOr rfl) fun E hE => ?_
  have hE := okOr_some_of_ok hE
  rw [ho.2] at hE
  refine .bind (own_require fun h => ?_) fun _ _ => ?_
  · exact .close_escrow h0 h4 h2 (by rw [hE]; simpa using Ne.symm (by simpa using h))
  refine .bind (own_foreign foreign_unpackToken) fun t ht => ?_
  have ht : (L a.escrow.key).data = .token t := by simpa using ht
  refine .bind (own_require fun h => ?_) fun _ _ => ?_
  · exact .close_escrowOwner h0 h4 ht (by simpa using h)
  refine .bind (own_check rfl) fun _ _ => ?_
  refine .bind (own_check rfl) fun _ _ => ?_
  refine .bind (own_foreign foreign_unpackMint) fun m hm => ?_
  have hm : (L a.unwrappedMint.key).data = .mint m := by simpa using hm
  refine .bind (own_require fun h => ?_) fun _ _ => ?_
  · exact .close_goodState h0 h2 ht hm fun hnd => (goodState_iff hnd).1 (by simpa using h)
  refine .bind (own_foreign foreign_signerPda) fun _ _ => ?_
  exact own_foreign foreign_invokeToken

theorem foreign_metaplexToToken2022 {u : Pubkey} {d : Data} : Foreign (metaplexToToken2022 env u d) := by
  unfold metaplexToToken2022; repeat' foreign_step

theorem raises_readMetaplex {u : Pubkey} {i : Nat} :
    Raises (Own (SourceFault env accounts L u i)) (readMetaplexForMint env u accounts[i]? L) := by
  unfold readMetaplexForMint
  refine .bind (own_okOr rfl) fun s hs => ?_
  have hs := at_of (okOr_some_of_ok hs)
  refine .bind (own_check rfl) fun _ _ => ?_
  refine .bind (own_okOr rfl) fun p hp => ?_
  have hp := okOr_some_of_ok hp
  refine .bind (own_require fun h => ?_) fun _ _ => own_foreign foreign_metaplexToToken2022
  exact .metaplex hs (by rw [hp]; simpa using Ne.symm (by simpa using h))

theorem raises_source {caller : List Meta} {u : Pubkey} {i j : Nat} :
    Raises (Own (SourceFault env accounts L u i))
      (extractTokenMetadata env caller u accounts[i]? accounts[j]? L) := by
  unfold extractTokenMetadata
  split
  · unfold resolveToken2022Source
    refine .bind (own_foreign foreign_unpackMint) fun m hm => ?_
    have hm : (L u).data = .mint m := by simpa using hm
    split
    · exact raises_readMetaplex
    · rename_i a hp
      exact .error (own_err (.unset hm hp))
    · rename_i a addr hp
      split
      · exact own_okOr rfl
      refine .bind (own_okOr rfl) fun s hs => ?_
      have hs := at_of (okOr_some_of_ok hs)
      refine .bind (own_require fun h => ?_) fun _ _ => ?_
      · exact .mismatch hm hp hs (by simpa using h)
      split
      · exact .error (own_lit rfl)
      split
      · exact own_foreign foreign_metaplexToToken2022
      refine .bind (own_okOr rfl) fun op hop => ?_
      refine .bind (own_check rfl) fun _ ho => ?_
      have ho : op.key = (L s.key).owner := by simpa using ho
      rw [ho]
      unfold cpiEmitAndDecode
      refine .bind (own_foreign foreign_cpiCheck) fun _ _ => ?_
      split
      · exact .error (own_lit rfl)
      · rename_i pk data he
        split
        · exact own_okOr rfl
        · rename_i hpk
          refine .error (own_err (.noData hs ?_ ?_))
          · intro b h; rw [he] at h; cases h; exact hpk rfl
          · intro e h; rw [he] at h; cases h
      · rename_i he
        refine .error (own_err (.noData hs ?_ ?_))
        · intro b h; rw [he] at h; cases h
        · intro e h; rw [he] at h; cases h
  · split
    · exact raises_readMetaplex
    · exact .error (own_lit rfl)

theorem parseSync22_at {a : Sync22Accounts} (h : parseSync22 accounts = .ok a) :
    At accounts 0 a.wrappedMint.key ∧ At accounts 1 a.authority.key ∧
    At accounts 2 a.unwrappedMint.key ∧ a.source = accounts[4]? ∧ a.ownerProgram = accounts[5]? := by
  unfold parseSync22 at h
  split at h
  · cases h; exact ⟨at_of rfl, at_of rfl, at_of rfl, rfl, rfl⟩
  · cases h

theorem foreign_updateFields {pda tp mint auth : Pubkey} {w u : TokenMetadata}
    {fs : List (Field × (TokenMetadata → String))} :
    Foreign (updateFieldsIfChanged env accounts pda tp mint auth w u fs L) := by
  induction fs generalizing L with
  | nil => exact .ok
  | cons f rest ih =>
    unfold updateFieldsIfChanged metaCpi
    refine .bind ?_ fun _ _ => ih
    split
    · exact foreign_invokeToken
    · exact .ok

theorem foreign_syncAdditional {pda tp mint auth : Pubkey} {kvs : List (String × String)} {map : StrMap} :
    Foreign (syncAdditional env accounts pda tp mint auth kvs map L) := by
  induction kvs generalizing L map with
  | nil => exact .ok
  | cons f rest ih =>
    unfold syncAdditional metaCpi
    refine .bind ?_ fun _ _ => ih
    split
    · exact foreign_invokeToken
    · exact .ok

theorem foreign_removeStale {pda tp mint auth : Pubkey} {ks : List String} :
    Foreign (removeStale env accounts pda tp mint auth ks L) := by
  induction ks generalizing L with
  | nil => exact .ok
  | cons f rest ih =>
    unfold removeStale metaCpi
    exact .bind foreign_invokeToken fun _ _ => ih

theorem foreign_addFields {pda tp mint auth : Pubkey} {kvs : List (String × String)} :
    Foreign (addFields env accounts pda tp mint auth kvs L) := by
  induction kvs generalizing L with
  | nil => exact .ok
  | cons f rest ih =>
    unfold addFields metaCpi
    exact .bind foreign_invokeToken fun _ _ => ih

theorem raises_weaken {α : Type} {F G : TokenWrapError → Prop} {x : Res α} (h : Raises (Own F) x)
    (hFG : ∀ e, F e → G e) : Raises (Own G) x :=
  h.mono fun _ he n hn => (he n hn).imp fun e ⟨a, b⟩ => ⟨hFG e a, b⟩

theorem raises_sync22 :
    Raises (Own (Fault env accounts L .syncMetadataToToken2022)) (processSyncToToken2022 env accounts L) := by
  unfold processSyncToToken2022
  refine .bind (own_foreign (by unfold parseSync22; repeat' foreign_step)) fun a ha => ?_
  obtain ⟨h0, h1, h2, hs, ho⟩ := parseSync22_at ha
  refine .bind (own_check rfl) fun _ _ => ?_
  refine .bind (own_check rfl) fun _ _ => ?_
  refine .bind (own_okOr rfl) fun W hW => ?_
  have hW := okOr_some_of_ok hW
  refine .bind (own_require fun h => ?_) fun _ _ => ?_
  · exact .sync22_mint h0 h2 (by rw [hW]; simpa using Ne.symm (by simpa using h))
  refine .bind (own_okOr rfl) fun p hp => ?_
  obtain ⟨A, b⟩ := p
  have hp := okOr_some_of_ok hp
  dsimp only
  refine .bind (own_require fun h => ?_) fun _ hA => ?_
  · exact .sync22_authority h0 h1 (authority_ne hp (Ne.symm (by simpa using h)))
  refine .bind ?_ fun src _ => ?_
  · rw [hs, ho]
    exact raises_weaken raises_source fun e he => .sync22_source h2 he
  refine .bind (own_foreign foreign_unpackMint) fun m _ => ?_
  refine .bind (own_foreign foreign_signerPda) fun _ _ => ?_
  split
  · refine .bind (own_foreign foreign_updateFields) fun _ _ => ?_
    refine .bind (own_foreign foreign_syncAdditional) fun p _ => ?_
    exact own_foreign foreign_removeStale
  · unfold metaCpi
    exact .bind (own_foreign foreign_invokeToken) fun _ _ => own_foreign foreign_addFields

theorem parseSyncSpl_at {a : SyncSplAccounts} (h : parseSyncSpl accounts = .ok a) :
    At accounts 0 a.metaplexMetadata.key ∧ At accounts 1 a.authority.key ∧
    At accounts 2 a.wrappedMint.key ∧ At accounts 3 a.unwrappedMint.key ∧ a.source = accounts[7]? ∧
    a.ownerProgram = accounts[8]? := by
  unfold parseSyncSpl at h
  split at h
  · cases h; exact ⟨at_of rfl, at_of rfl, at_of rfl, at_of rfl, rfl, rfl⟩
  · cases h

theorem foreign_token2022ToMetaplex {md : TokenMetadata} : Foreign (token2022ToMetaplex env md) := by
  unfold token2022ToMetaplex
  refine .bind ?_ fun _ _ => .pure'
  generalize (⟨none, 0, none, none⟩ : ConvAcc) = acc
  induction md.additional generalizing acc with
  | nil => exact .ok
  | cons kv rest ih =>
    unfold convLoop convStep
    refine .bind ?_ fun _ _ => ih _
    repeat' foreign_step

theorem foreign_mplCreate {signed : Pubkey → Bool} {a b c d e : Pubkey} {x : DataV2} {m : Bool} :
    Foreign (mplCreate env signed a b c d e x m L) := by
  unfold mplCreate; repeat' foreign_step

theorem foreign_mplUpdate {signed : Pubkey → Bool} {a b : Pubkey} {x : DataV2} :
    Foreign (mplUpdate env signed a b x L) := by
  unfold mplUpdate; repeat' foreign_step

theorem raises_syncSpl :
    Raises (Own (Fault env accounts L .syncMetadataToSplToken)) (processSyncToSplToken env accounts L) := by
  unfold processSyncToSplToken
  refine .bind (own_foreign (by unfold parseSyncSpl; repeat' foreign_step)) fun a ha => ?_
  obtain ⟨h0, h1, h2, h3, hs, ho⟩ := parseSyncSpl_at ha
  refine .bind (own_require fun h => ?_) fun _ _ => ?_
  · exact .syncSpl_program h2 (by simpa using h)
  refine .bind (own_okOr rfl) fun W hW => ?_
  have hW := okOr_some_of_ok hW
  refine .bind (own_require fun h => ?_) fun _ _ => ?_
  · exact .syncSpl_mint h2 h3 (by rw [hW]; simpa using Ne.symm (by simpa using h))
  refine .bind (own_okOr rfl) fun p hp => ?_
  obtain ⟨A, b⟩ := p
  have hp := okOr_some_of_ok hp
  dsimp only
  refine .bind (own_require fun h => ?_) fun _ hA => ?_
  · exact .syncSpl_authority h2 h1 (authority_ne hp (Ne.symm (by simpa using h)))
  refine .bind (own_okOr rfl) fun X hX => ?_
  have hX := okOr_some_of_ok hX
  refine .bind (own_require fun h => ?_) fun _ _ => ?_
  · exact .syncSpl_metaplex h2 h0 (by rw [hX]; simpa using Ne.symm (by simpa using h))
  refine .bind (own_check rfl) fun _ _ => ?_
  refine .bind ?_ fun src _ => ?_
  · rw [hs, ho]
    exact raises_weaken raises_source fun e he => .syncSpl_source h3 he
  refine .bind (own_foreign foreign_token2022ToMetaplex) fun m _ => ?_
  refine .bind (own_foreign foreign_signerPda) fun _ _ => ?_
  split
  · exact .bind (own_foreign foreign_cpiCheck) fun _ _ => own_foreign foreign_mplCreate
  · exact .bind (own_foreign foreign_cpiCheck) fun _ _ => own_foreign foreign_mplUpdate

theorem foreign_setCanonicalPointer {k : Pubkey} : Foreign (processSetCanonicalPointer env accounts k L) := by
  unfold processSetCanonicalPointer parsePointer initPointer
  repeat' first
    | exact foreign_signerPda
    | exact foreign_invokeAllocate
    | exact foreign_invokeAssign
    | exact foreign_writeOwn
    | exact foreign_unpackMint
    | foreign_step

/-- **C105** A code of Token Wrap names what is wrong: whenever the program fails with a custom code of its
own, the input is one of its instructions, the code is that of one of its errors, and the defect this error
describes is there. -/
theorem error_code_names_fault {input : Bytes} {n : UInt32}
    (h : processInstruction env accounts input L = .error (.custom n)) :
    ∃ ix e, input = pack ix ∧ n = TokenWrapError.code e ∧ Fault env accounts L ix e := by
  cases hu : TokenWrapInstruction.unpack input with
  | error e =>
    have he : e.foreign = true := by
      have : Foreign (TokenWrapInstruction.unpack input) := by
        unfold TokenWrapInstruction.unpack; repeat' foreign_step
      exact this.out e hu
    simp only [processInstruction, hu, error_bind, Except.error.injEq] at h
    subst h; cases he
  | ok ix =>
    have hi := (unpack_eq_ok_iff input ix).1 hu
    rw [hi, processInstruction_pack] at h
    have key : Raises (Own (Fault env accounts L ix)) (dispatch env accounts L ix) := by
      cases ix with
      | createMint i => exact raises_createMint foreign_default
      | wrap n => exact raises_wrap
      | unwrap n => exact raises_unwrap
      | closeStuckEscrow => exact raises_close
      | syncMetadataToToken2022 => exact raises_sync22
      | syncMetadataToSplToken => exact raises_syncSpl
      | setCanonicalPointer k => exact own_foreign foreign_setCanonicalPointer
    obtain ⟨e, he, hn⟩ := key.out _ h n rfl
    exact ⟨ix, e, hi, hn, he⟩

/-- **C105** The codes each instruction can return.  `UnwrappedMintHasNoMetadata` (9) and
`MetadataPointerMissing` (11) are never returned, and SetCanonicalPointer returns no code of its own. -/
theorem codes_of_instruction {ix : TokenWrapInstruction} {n : UInt32}
    (h : processInstruction env accounts (pack ix) L = .error (.custom n)) :
    n ∈ ownCodes ix := by
  obtain ⟨ix', e, hi, rfl, hf⟩ := error_code_names_fault h
  cases pack_injective hi
  clear h hi
  cases hf <;> first | (simp only [ownCodes]; decide) | (rename_i hs; cases hs <;> (simp only [ownCodes]; decide))

/-- **C105** In particular two of the declared errors never occur. -/
theorem unused_codes {input : Bytes} :
    processInstruction env accounts input L ≠ .error (wrapErr .unwrappedMintHasNoMetadata) ∧
    processInstruction env accounts input L ≠ .error (wrapErr .metadataPointerMissing) := by
  constructor <;>
    (intro h
     obtain ⟨ix, e, hi, hn, _⟩ := error_code_names_fault h
     subst hi
     have := codes_of_instruction h
     cases ix <;> (simp only [ownCodes] at this; revert this; decide))

/-- **C105** The same for every mint customizer of the program, not only the one it is deployed with. -/
theorem createMint_code_names_fault {M : Customizer}
    (hM : M = defaultToken2022Customizer ∨ M = noExtensionCustomizer ∨ M = complianceCustomizer) {i : Bool}
    {n : UInt32} (h : processCreateMint env M accounts i L = .error (.custom n)) :
    ∃ e, n = TokenWrapError.code e ∧ Fault env accounts L (.createMint i) e := by
  have hM' : ForeignCustomizer M := by
    rcases hM with rfl | rfl | rfl
    · exact foreign_default
    · exact foreign_noExtension
    · exact foreign_compliance
  obtain ⟨e, he, hn⟩ := (raises_createMint hM').out _ h n rfl
  exact ⟨e, hn, he⟩

/-! ## The log -/

/-- **C105** The log line "Error: <Name>" of an error of Token Wrap is written exactly when the program ends
with that error: errors with the same number from the programs it calls never write it. -/
theorem log_line_names_error (err : Err) (e : TokenWrapError) :
    logLine err = some e.toStr ↔ err = wrapErr e := by
  constructor
  · intro h
    cases err with
    | custom n =>
      simp only [logLine] at h
      cases ht : TokenWrapError.tryFrom n with
      | ok e' =>
        rw [ht] at h
        have := toStr_injective (Option.some.inj h)
        subst this
        rw [(tryFrom_eq_ok_iff n e').1 ht]; rfl
      | error x =>
        rw [ht] at h
        exfalso; revert h; cases e <;> simp [TokenWrapError.toStr]
    | _ =>
      exfalso; revert h
      cases e <;> simp [logLine, Err.programErrorName, TokenWrapError.toStr]
  · rintro rfl
    simp only [wrapErr, TokenWrapError.toErr, logLine]
    rw [(tryFrom_eq_ok_iff e.code e).2 rfl]

/-- **C105** So whoever reads that line can rely on the defect it names. -/
theorem log_line_names_fault {input : Bytes} {err : Err} {e : TokenWrapError}
    (h : processInstruction env accounts input L = .error err) (hl : logLine err = some e.toStr) :
    ∃ ix, input = pack ix ∧ Fault env accounts L ix e := by
  rw [(log_line_names_error err e).1 hl] at h
  obtain ⟨ix, e', hi, hn, hf⟩ := error_code_names_fault h
  have : e = e' := toErr_injective (by simpa [TokenWrapError.toErr] using hn)
  subst this
  exact ⟨ix, hi, hf⟩

end instructions

/-! ## The JavaScript client -/

section js
variable {env : Env} {L : Ledger}

/-- The failing instruction: everything before it succeeded. -/
theorem failingIx_spec {txs : List ClientIx} {j i : Nat} {err : Err}
    (h : failingIx env txs j L = some (i, err)) :
    ∃ done ix rest L1, txs = done ++ ix :: rest ∧ i = j + done.length ∧ runClient env done L = .ok L1 ∧
      runClientIx env ix L1 = .error err := by
  induction txs generalizing j L with
  | nil => cases h
  | cons ix rest ih =>
    unfold failingIx at h
    cases hr : runClientIx env ix L with
    | error e =>
      rw [hr] at h; cases h
      exact ⟨[], ix, rest, L, rfl, rfl, rfl, hr⟩
    | ok L1 =>
      rw [hr] at h
      obtain ⟨done, ix', rest', L2, rfl, rfl, h1, h2⟩ := ih h
      exact ⟨ix :: done, ix', rest', L2, rfl, by simp; omega, by simp [runClient, hr, h1], h2⟩

/-- A transaction fails exactly when it has a failing instruction. -/
theorem failingIx_none {txs : List ClientIx} {j : Nat} :
    failingIx env txs j L = none ↔ ∃ L', runClient env txs L = .ok L' := by
  induction txs generalizing j L with
  | nil => exact ⟨fun _ => ⟨L, rfl⟩, fun _ => rfl⟩
  | cons ix rest ih =>
    unfold failingIx
    cases hr : runClientIx env ix L with
    | error e => simp [runClient, hr]
    | ok L1 => simp [runClient, hr, ih]

theorem foreign_other {ix : ClientIx} (h : ∀ c, ix ≠ .call c) : Foreign (runClientIx env ix L) := by
  cases ix with
  | transfer a b n =>
    simp only [runClientIx]
    unfold sysTransfer; repeat' foreign_step
  | call c => exact absurd rfl (h c)
  | createAta a b c d =>
    simp only [runClientIx]
    unfold ataCreatePaid sysTransfer ataCreate initializeAccount3Exec
    repeat' foreign_token

/-- **C105** An error that Token Wrap raises itself is recognised by the JavaScript client, for its own code
and no other, with its own message, wherever in the transaction it occurs; and the defect is there. -/
theorem js_recognises_own_error {txs : List ClientIx} {i : Nat} {n : UInt32}
    (h : failingIx env txs 0 L = some (i, .custom n)) :
    ∃ (ix : Instr) (e : TokenWrapError) (done rest : List ClientIx) (L1 : Ledger) (k : TokenWrapInstruction),
      txs = done ++ .call ix :: rest ∧ done.length = i ∧ runClient env done L = .ok L1 ∧
      ix.data = k.pack ∧ Fault env ix.accounts L1 k e ∧ n = e.code ∧
      Js.errorMessage n = some e.display ∧
      Js.isTokenWrapError (some (i, n)) (txs.map ClientIx.program) none = true ∧
      ∀ e' : TokenWrapError,
        Js.isTokenWrapError (some (i, n)) (txs.map ClientIx.program) (some e'.code) = true ↔ e' = e := by
  obtain ⟨done, ix, rest, L1, rfl, hi, h1, h2⟩ := failingIx_spec h
  rw [Nat.zero_add] at hi
  have hc : ∃ c, ix = .call c := by
    by_cases hc : ∃ c, ix = .call c
    · exact hc
    · have := (foreign_other (env := env) (L := L1) (ix := ix) (fun c hcc => hc ⟨c, hcc⟩)).out _ h2
      cases this
  obtain ⟨c, rfl⟩ := hc
  obtain ⟨k, e, hk, hn, hf⟩ := error_code_names_fault h2
  have hget : ((done ++ .call c :: rest).map ClientIx.program)[i]? = some crateId := by
    subst hi; simp [ClientIx.program]
  refine ⟨c, e, done, rest, L1, k, rfl, hi.symm, h1, hk, hf, hn, ?_, ?_, ?_⟩
  · rw [hn]; exact idl_errors.2.1 e
  · simp only [Js.isTokenWrapError, Js.isProgramError, hget, if_true]
  · intro e'
    simp only [Js.isTokenWrapError, Js.isProgramError, hget, if_true, decide_eq_true_eq]
    constructor
    · intro h'
      exact toErr_injective (by simp [TokenWrapError.toErr, ← h', hn])
    · rintro rfl; exact hn

/-- **C105** Conversely, when `isTokenWrapError` says yes, the failing instruction is a call of Token Wrap, and
the error was raised by Token Wrap itself or by a program that this call called. -/
theorem js_attribution {txs : List ClientIx} {i : Nat} {err : Err} {n : UInt32} {code : Option UInt32}
    (h : failingIx env txs 0 L = some (i, err)) (hr : ReportedAs err n)
    (hj : Js.isTokenWrapError (some (i, n)) (txs.map ClientIx.program) code = true) :
    (∃ ix, txs[i]? = some (.call ix)) ∧ (∀ c, code = some c → n = c) ∧
    (err = .custom n ∨ (∃ t, err = .token t) ∨ (∃ c, err = .system c) ∨ ∃ c, err = .external c) := by
  obtain ⟨done, ix, rest, L1, rfl, hi, h1, h2⟩ := failingIx_spec h
  rw [Nat.zero_add] at hi
  have hget : ((done ++ ix :: rest).map ClientIx.program)[i]? = some ix.program := by
    subst hi; simp
  simp only [Js.isTokenWrapError, Js.isProgramError, hget] at hj
  refine ⟨⟨?_, ?_⟩, ?_, ?_⟩
  · cases ix with
    | call c => exact c
    | transfer => exact absurd hj (by simp [ClientIx.program, crate_ne_system.symm])
    | createAta => exact absurd hj (by simp [ClientIx.program, show ataProgramId ≠ crateId by decide])
  · cases ix with
    | call c => subst hi; simp
    | transfer => exact absurd hj (by simp [ClientIx.program, crate_ne_system.symm])
    | createAta => exact absurd hj (by simp [ClientIx.program, show ataProgramId ≠ crateId by decide])
  · rintro c rfl
    split at hj
    · simpa using hj
    · cases hj
  · cases err with
    | custom c => exact .inl (by simp only [ReportedAs] at hr; rw [hr])
    | token t => exact .inr (.inl ⟨t, rfl⟩)
    | system c => exact .inr (.inr (.inl ⟨c, rfl⟩))
    | external c => exact .inr (.inr (.inr ⟨c, rfl⟩))
    | _ => exact hr.elim

end js

/-! ## Codes of called programs are mistaken for Token Wrap's -/

section overdrawn
variable {env : Env} {L : Ledger} {rcp W A uprog wprog src u E user : Pubkey} {amount : UInt64} {fee : Nat}
  {s d : TokenAcct} {m : Mint}

/-- **C105** (negative) The recognition is not exact.  Wrapping more than the source account holds, with all
accounts right, fails in the token program with `InsufficientFunds`, whose number is 1: the JavaScript client
takes that for `BackpointerMismatch` and shows its message, although Wrap has no backpointer account and
Token Wrap wrote no log line about it. -/
theorem overdrawn_wrap_reports_backpointer (hz : amount ≠ 0)
    (hrej : ∀ p ix sg L, env.reject p ix sg L = none)
    (huprog : uprog = splTokenId ∨ uprog = token2022Id)
    (hW : wrappedMintAddress env.cr u wprog = some W) (hA : authorityAddress env.cr W = some A)
    (hE : associatedTokenAddress env.cr A u uprog = some E)
    (ho : (L src).owner = uprog) (hs : (L src).data = .token s) (hsf : s.frozen = false)
    (he : (L E).owner = uprog) (hd : (L E).data = .token d) (hdo : d.owner = A) (hdf : d.frozen = false)
    (hm : (L u).data = .mint m) (hx : uprog = splTokenId → m.exts = [])
    (hfee : feeOf uprog env.epoch m amount.toNat = .ok fee) (hle : fee ≤ amount.toNat)
    (hu : ∀ ms, (L user).data ≠ .multisig ms)
    (hlow : s.amount < amount.toNat) :
    let ix := Build.wrap crateId rcp W A uprog wprog src u E user [] amount
    failingIx env [.call ix] 0 L = some (0, .token .insufficientFunds) ∧
    (∀ n, ReportedAs (.token .insufficientFunds) n ↔ n = 1) ∧
    Js.isTokenWrapError (some (0, 1)) [ClientIx.program (.call ix)] (some TokenWrapError.backpointerMismatch.code) = true ∧
    Js.errorMessage 1 = some TokenWrapError.backpointerMismatch.display ∧
    (∀ accounts L', ¬ Fault env accounts L' (.wrap amount) .backpointerMismatch) ∧
    logLine (.token .insufficientFunds) = none := by
  dsimp only
  refine ⟨?_, ?_, (by simp only [ClientIx.program]; decide), (by decide), (fun _ _ h => by cases h), rfl⟩
  · obtain ⟨bump, hA'⟩ := authorityAddress_some.1 hA
    have key : processInstruction env (Build.wrap crateId rcp W A uprog wprog src u E user [] amount).accounts
        (Build.wrap crateId rcp W A uprog wprog src u E user [] amount).data L =
        .error (.token .insufficientFunds) := by
      simp only [Build.wrap]
      rw [processInstruction_pack]
      generalize hacc : ([Meta.rw rcp false, .rw W false, .ro A false, .ro uprog false, .ro wprog false,
          .rw src false, .ro u false, .rw E false, .ro user ([] : List Pubkey).isEmpty] ++
          ([] : List Pubkey).map fun k => Meta.ro k true) = accounts
      have hpar : parseWrap accounts = .ok ⟨.rw rcp false, .rw W false, .ro A false, .ro uprog false,
          .ro wprog false, .rw src false, .ro u false, .rw E false, .ro user true, []⟩ := by
        rw [← hacc]; rfl
      have hz' : require (decide (amount ≠ 0)) (wrapErr .zeroWrapAmount) = .ok () := by simp [hz]
      have hwf : wrapFee env m amount.toNat = fee := wrapFee_eq huprog hx hfee
      have ue : unpackToken (L E).data = .ok d := by simpa using hd
      have um : unpackMint (L u).data = .ok m := by simpa using hm
      have nSU : src ≠ u := by rintro rfl; rw [hm] at hs; cases hs
      have nEU : E ≠ u := by rintro rfl; rw [hm] at hd; cases hd
      have mem : ∀ x ∈ [Meta.rw rcp false, .rw W false, .ro A false, .ro uprog false, .ro wprog false,
          .rw src false, .ro u false, .rw E false, .ro user true], x ∈ accounts := by
        intro x hx; rw [← hacc]; exact List.mem_append_left _ hx
      have hms : extractMultisig L user [] = [] := by
        unfold extractMultisig
        split
        · rename_i ms h; exact absurd h (hu ms)
        · rfl
      have allowed : ∀ m ∈ [Meta.rw src false, .ro u false, .rw E false] ++ authMetas user [],
          metaAllowed accounts [] m = true := by
        intro x hx
        simp only [authMetas, List.isEmpty_nil, List.map_nil, List.cons_append, List.nil_append, List.mem_cons,
          List.not_mem_nil, or_false] at hx
        rcases hx with rfl | rfl | rfl | rfl
        · exact metaAllowed_of_mem (mem (.rw src false) (by simp)) rfl (fun _ => rfl)
            (fun h => by simp [Meta.rw] at h)
        · exact metaAllowed_of_mem (mem (.ro u false) (by simp)) rfl (fun h => by simp [Meta.ro] at h)
            (fun h => by simp [Meta.ro] at h)
        · exact metaAllowed_of_mem (mem (.rw E false) (by simp)) rfl (fun _ => rfl)
            (fun h => by simp [Meta.rw] at h)
        · exact metaAllowed_of_mem (mem (.ro user true) (by simp)) rfl (fun h => by simp [Meta.ro] at h)
            (fun _ => .inr rfl)
      have borrow : ∀ m ∈ [Meta.rw src false, .ro u false, .rw E false] ++ authMetas user [],
          m.writable = true → m.key ∉ [u] := by
        intro x hx hw
        simp only [authMetas, List.isEmpty_nil, List.map_nil, List.cons_append, List.nil_append, List.mem_cons,
          List.not_mem_nil, or_false] at hx
        rcases hx with rfl | rfl | rfl | rfl
        · simpa [Meta.rw] using nSU
        · simp [Meta.ro] at hw
        · simpa [Meta.rw] using nEU
        · simp [Meta.ro] at hw
      have hin : ∃ c ∈ accounts, c.key = uprog := ⟨_, mem (.ro uprog false) (by simp), rfl⟩
      have gs : getToken uprog L src = .ok s := by simp [ho, hs]
      have ge : getToken uprog L E = .ok d := by simp [he, hd]
      have hex : ∀ (signed : Pubkey → Bool) (chk : Option (Pubkey × UInt8)) (f : Option Nat),
          transferExec env uprog signed L src E user [] amount.toNat chk f =
          .error (.token .insufficientFunds) := by
        intro signed chk f
        have hlow' : decide (amount.toNat ≤ s.amount) = false := decide_eq_false (by omega)
        simp only [transferExec, gs, ok_bind, ge, hsf, hdf, Bool.not_false, Bool.and_self, require_true, hlow']
        rfl
      have htr : wrapTransfer env accounts ⟨.rw rcp false, .rw W false, .ro A false, .ro uprog false,
          .ro wprog false, .rw src false, .ro u false, .rw E false, .ro user true, []⟩ m amount.toNat fee L =
          .error (.token .insufficientFunds) := by
        unfold wrapTransfer
        simp only [Meta.rw, Meta.ro, hms]
        split
        · refine (invokeToken_enter (ix := .transferCheckedWithFee src u E user [] amount.toNat m.decimals fee)
            huprog borrow hin allowed).trans ?_
          simp only [tokenExec, hrej]
          exact hex ..
        · refine (invokeToken_enter (ix := .transferChecked src u E user [] amount.toNat m.decimals)
            huprog borrow hin allowed).trans ?_
          simp only [tokenExec, hrej]
          exact hex ..
      simp only [Meta.rw, Meta.ro] at htr
      simp only [dispatch, processWrap, hz', ok_bind, hpar, Meta.rw, Meta.ro, hW, okOr_some, decide_true,
        require_true, hA', hE, ue, hdo, um, hwf, decide_eq_true hle, htr]
      rfl
    simp only [failingIx, runClientIx, key]
  · intro n
    simp [ReportedAs, TokenErr.code]

end overdrawn

/-! ## Concrete instances -/

namespace Example.Reported

open Example

/-- A Wrap with the user in place of the authority. -/
def wrongAuthority : Instr :=
  { programId := crateId
    accounts := [.rw rcp false, .rw W false, .ro user false, .ro token2022Id false, .ro splTokenId false,
      .rw src false, .ro u false, .rw E false, .ro user true]
    data := (wrap 1000).pack }

/-- The error of a failed run. -/
def errOf {α : Type} : Res α → Option Err
  | .error e => some e
  | .ok _ => none

theorem of_errOf {α : Type} {r : Res α} {e : Err} (h : errOf r = some e) : r = .error e := by
  cases r with
  | ok => cases h
  | error => cases h; rfl

-- the failure is code 3, and C105 says why
example : ∃ e, (3 : UInt32) = e.code ∧ Fault env wrongAuthority.accounts L0 (.wrap 1000) e := by
  have h : processInstruction env wrongAuthority.accounts wrongAuthority.data L0 = .error (.custom 3) :=
    of_errOf (by decide +kernel)
  obtain ⟨ix, e, hi, hn, hf⟩ := error_code_names_fault h
  cases pack_injective (a := .wrap 1000) hi
  exact ⟨e, hn, hf⟩

-- the defect is there: the account at position 2 is not the authority of the wrapped mint at position 1
example : At wrongAuthority.accounts 1 W ∧ At wrongAuthority.accounts 2 user ∧
    authorityAddress env.cr W ≠ some user :=
  ⟨⟨_, rfl, rfl⟩, ⟨_, rfl, rfl⟩, by decide +kernel⟩

-- a right Wrap has no defect of this kind
example : ¬ Fault env wrapAccounts L0 (.wrap 1000) .mintAuthorityMismatch := by
  rintro ⟨⟩
  rename_i w a h1 h2 h3
  obtain ⟨m1, h1, rfl⟩ := h1
  obtain ⟨m2, h2, rfl⟩ := h2
  cases h1; cases h2
  exact h3 (by decide +kernel)

/-- A transaction whose second instruction is that Wrap. -/
def tx : List ClientIx := [.transfer (.lit 40) (.lit 41) 5, .call wrongAuthority]

/-- The ledger with a funded payer. -/
def Lp : Ledger := L0.setLamports (.lit 40) 1000

theorem tx_fails : failingIx env tx 0 Lp = some (1, .custom 3) := by decide +kernel

-- the hypothesis of `js_recognises_own_error` is met: the client sees code 3 at index 1
example : Js.isTokenWrapError (some (1, 3)) (tx.map ClientIx.program) (some 3) = true ∧
    Js.isTokenWrapError (some (1, 3)) (tx.map ClientIx.program) (some 7) = false := by
  obtain ⟨ix, e, done, rest, L1, k, _, _, _, _, _, hn, _, _, h⟩ := js_recognises_own_error tx_fails
  have he : e = .mintAuthorityMismatch := toErr_injective (by simp [TokenWrapError.toErr, ← hn]; rfl)
  subst he
  refine ⟨(h .mintAuthorityMismatch).2 rfl, ?_⟩
  have := (not_congr (h .escrowMismatch)).2 (by decide)
  simpa [TokenWrapError.code] using this

-- and so is that of `js_attribution`
example : ∃ ix, tx[1]? = some (.call ix) :=
  (js_attribution (code := none) tx_fails (n := 3) rfl (by decide)).1

example : logLine (.custom 3) = some "Error: MintAuthorityMismatch" := rfl

-- the negative theorem: the source holds 5000, 6000 are to be wrapped
example : failingIx env [.call (Build.wrap crateId rcp W A token2022Id splTokenId src u E user [] 6000)] 0 L0 =
    some (0, .token .insufficientFunds) :=
  (overdrawn_wrap_reports_backpointer (amount := 6000) (fee := 50) (s := acct u user 5000 [.transferFeeAmount])
    (d := acct u A 10 goodExts) (m := uMint [.transferFeeConfig feeCfg]) (by decide) (fun _ _ _ _ => rfl)
    (.inr rfl) (by decide +kernel) (by decide +kernel) (by decide +kernel) (by decide +kernel)
    (by decide +kernel) rfl (by decide +kernel) (by decide +kernel) rfl rfl (by decide +kernel)
    (fun h => absurd h (by decide)) (by decide +kernel) (by decide) (by
      intro ms h
      have : (L0 user).data = .bytes [] := by decide +kernel
      rw [this] at h; cases h) (by decide)).1

end Example.Reported

end TokenWrap
