import Verif.CloseLemmas
import Verif.Props.Liveness
/-!
# C30–C32: CloseStuckEscrow

Account order: escrow, destination, unwrapped mint, wrapped mint, authority, Token-2022 program.
-/

set_option linter.unusedSimpArgs false

namespace TokenWrap

open TokenWrapInstruction

/-- Specification: the extensions an escrow of mint `m` must have. -/
inductive MintRequires (m : Mint) : AcctExt → Prop
  | immutableOwner : MintRequires m .immutableOwner
  | fee {c} : MintExt.transferFeeConfig c ∈ m.exts → MintRequires m .transferFeeAmount
  | nonTransferable : MintExt.nonTransferable ∈ m.exts → MintRequires m .nonTransferableAccount
  | hook {a p} : MintExt.transferHook a p ∈ m.exts → MintRequires m .transferHookAccount
  | pausable {a p} : MintExt.pausable a p ∈ m.exts → MintRequires m .pausableAccount

/-- Specification: the escrow has exactly the extensions its mint requires. -/
def HasRequiredExts (t : TokenAcct) (m : Mint) : Prop := ∀ x, x ∈ t.exts ↔ MintRequires m x

/-- On chain an extension occurs at most once in a mint and in an account. -/
def NoDupExts (t : TokenAcct) (m : Mint) : Prop := t.exts.Nodup ∧ (m.exts.map MintExt.tag).Nodup

theorem mem_requiredEscrowExts (m : Mint) (x : AcctExt) :
    x ∈ requiredEscrowExts m ↔ MintRequires m x := by
  have key : x ∈ m.requiredAccountExts ∨ x = .immutableOwner ↔ MintRequires m x := by
    unfold Mint.requiredAccountExts
    rw [List.mem_flatMap]
    constructor
    · rintro (⟨e, he, hx⟩ | rfl)
      · cases e <;> simp only [MintExt.requiredAccountExts, List.mem_cons, List.not_mem_nil,
          or_false] at hx
        · subst hx; exact .fee he
        · rcases hx with rfl | rfl
          · exact .nonTransferable he
          · exact .immutableOwner
        · subst hx; exact .hook he
        · subst hx; exact .pausable he
      · exact .immutableOwner
    · intro h
      cases h with
      | immutableOwner => exact .inr rfl
      | fee h => exact .inl ⟨_, h, by simp [MintExt.requiredAccountExts]⟩
      | nonTransferable h => exact .inl ⟨_, h, by simp [MintExt.requiredAccountExts]⟩
      | hook h => exact .inl ⟨_, h, by simp [MintExt.requiredAccountExts]⟩
      | pausable h => exact .inl ⟨_, h, by simp [MintExt.requiredAccountExts]⟩
  rw [← key]
  unfold requiredEscrowExts
  dsimp only
  split
  · rename_i h
    constructor
    · exact .inl
    · rintro (h' | rfl)
      · exact h'
      · exact h
  · simp

theorem requiredAccountExts_nodup {l : List MintExt} (h : (l.map MintExt.tag).Nodup) :
    (l.flatMap MintExt.requiredAccountExts).Nodup := by
  induction l with
  | nil => simp
  | cons e rest ih =>
    simp only [List.map_cons, List.nodup_cons, List.mem_map, not_exists, not_and] at h
    simp only [List.flatMap_cons]
    rw [List.nodup_append]
    refine ⟨?_, ih h.2, ?_⟩
    · cases e <;> simp [MintExt.requiredAccountExts]
    · intro x hx y hy hxy
      subst hxy
      rw [List.mem_flatMap] at hy
      obtain ⟨e', he', hx'⟩ := hy
      have := h.1 e' he'
      cases e <;> cases e' <;> simp [MintExt.requiredAccountExts, MintExt.tag] at hx hx' this <;>
        simp_all

theorem requiredEscrowExts_nodup {m : Mint} (h : (m.exts.map MintExt.tag).Nodup) :
    (requiredEscrowExts m).Nodup := by
  have := requiredAccountExts_nodup h
  unfold requiredEscrowExts
  dsimp only
  split
  · exact this
  · rename_i h'
    rw [List.nodup_append]
    refine ⟨this, by simp, ?_⟩
    intro x hx y hy hxy
    subst hxy
    simp at hy
    subst hy
    exact h' hx

theorem subset_of_nodup_of_length_le {l1 l2 : List AcctExt} (h1 : l1.Nodup)
    (hs : ∀ x ∈ l1, x ∈ l2) (hl : l2.length ≤ l1.length) : ∀ x ∈ l2, x ∈ l1 := by
  induction l1 generalizing l2 with
  | nil => intro x hx; cases l2 with
    | nil => exact hx
    | cons => simp at hl
  | cons a t ih =>
    intro x hx
    by_cases hxa : x = a
    · exact hxa ▸ List.mem_cons_self
    · rw [List.nodup_cons] at h1
      have hmem : a ∈ l2 := hs a List.mem_cons_self
      refine List.mem_cons_of_mem _ (ih (l2 := l2.erase a) h1.2 ?_ ?_ x ?_)
      · intro y hy
        exact (List.mem_erase_of_ne (by rintro rfl; exact h1.1 hy)).2
          (hs y (List.mem_cons_of_mem _ hy))
      · rw [List.length_erase_of_mem hmem]
        simp at hl
        omega
      · exact (List.mem_erase_of_ne hxa).2 hx

theorem goodState_iff {t : TokenAcct} {m : Mint} (h : NoDupExts t m) :
    escrowInGoodState t.exts (requiredEscrowExts m) = true ↔ HasRequiredExts t m := by
  have hr := requiredEscrowExts_nodup h.2
  have ht := h.1
  unfold escrowInGoodState HasRequiredExts
  simp only [Bool.and_eq_true, decide_eq_true_eq, List.all_eq_true]
  constructor
  · rintro ⟨hl, hall⟩ x
    rw [← mem_requiredEscrowExts]
    exact ⟨subset_of_nodup_of_length_le hr hall (by omega) x, hall x⟩
  · intro hx
    have e : ∀ x, x ∈ t.exts ↔ x ∈ requiredEscrowExts m := by
      intro x; rw [hx, mem_requiredEscrowExts]
    refine ⟨?_, fun x h => (e x).2 h⟩
    have p : t.exts.Perm (requiredEscrowExts m) :=
      (List.perm_ext_iff_of_nodup ht hr).2 e
    exact p.length_eq

theorem bind_error_iff {α β : Type} {x : Res α} {f : α → Res β} {e : Err} :
    (x >>= f) = .error e ↔ x = .error e ∨ ∃ a, x = .ok a ∧ f a = .error e := by
  cases x with
  | ok a => simp [ok_bind]
  | error e' => simp [Bind.bind, Except.bind]

theorem require_error_iff {b : Bool} {e e' : Err} :
    require b e' = .error e ↔ b = false ∧ e' = e := by
  cases b <;> simp [require]

theorem okOr_error_iff {α : Type} {x : Option α} {e e' : Err} :
    okOr x e' = .error e ↔ x = none ∧ e' = e := by
  cases x <;> simp [okOr]

/-- The token program's own errors are not this program's. -/
theorem closeAccountExec_error {prog : Pubkey} {signed : Pubkey → Bool} {L : Ledger}
    {acct dst auth : Pubkey} {signers : List Pubkey} {n : UInt32} :
    closeAccountExec prog signed L acct dst auth signers ≠ .error (.custom n) := by
  have hv : ∀ e, validateOwner prog L e auth signers signed ≠ .error (.custom n) := by
    intro e
    unfold validateOwner
    split
    · split
      · dsimp only; split <;> simp
      · split <;> simp
    · simp
  unfold closeAccountExec
  intro h
  simp only [bind_error_iff, require_error_iff, reduceCtorEq, and_false, false_or] at h
  obtain ⟨_, _, _, _, h⟩ := h
  split at h
  · simp only [bind_error_iff, require_error_iff, reduceCtorEq, and_false, false_or] at h
    obtain ⟨_, _, h | ⟨_, _, _, _, _, _, h⟩⟩ := h
    · split at h
      · simp [require_error_iff] at h
      · exact hv _ h
    · cases h
  · simp only [bind_error_iff, require_error_iff, okOr_error_iff, reduceCtorEq, and_false,
      false_or] at h
    obtain ⟨_, _, _, _, h | ⟨_, _, _, _, h⟩⟩ := h
    · exact hv _ h
    · cases h
  · cases h

section close

variable {env : Env} {L L' : Ledger} {escrow dest umint wmint auth prog : Meta} {rest : List Meta}

/-- **C30** A successful CloseStuckEscrow closed a derived, empty, unfrozen Token-2022 escrow whose
extensions differ from what the mint requires; its lamports are at the destination, the account is
gone, and nothing else changed. -/
theorem close_only_stuck
    (h : processInstruction env ([escrow, dest, umint, wmint, auth, prog] ++ rest)
      closeStuckEscrow.pack L = .ok L') :
    ∃ t m, (L escrow.key).owner = token2022Id ∧ (L umint.key).owner = token2022Id ∧
      wrappedMintAddress env.cr umint.key (L wmint.key).owner = some wmint.key ∧
      authorityAddress env.cr wmint.key = some auth.key ∧
      associatedTokenAddress env.cr auth.key umint.key token2022Id = some escrow.key ∧
      (L escrow.key).data = .token t ∧ (L umint.key).data = .mint m ∧
      t.owner = auth.key ∧ t.amount = 0 ∧ t.frozen = false ∧
      (NoDupExts t m → ¬ HasRequiredExts t m) ∧
      escrow.key ≠ dest.key ∧ L' escrow.key = Account.empty ∧
      L' dest.key = { L dest.key with
        lamports := (L dest.key).lamports + (L escrow.key).lamports } ∧
      OnlyChanged [escrow.key, dest.key] L L' := by
  rw [processInstruction_pack] at h
  obtain ⟨a, t, m, pda, c⟩ := processClose_effect h
  obtain ⟨r, ha⟩ := c.accounts_eq
  simp only [List.cons_append, List.nil_append, List.cons.injEq] at ha
  obtain ⟨rfl, rfl, rfl, rfl, rfl, rfl, rfl⟩ := ha
  refine ⟨t, m, c.eOwner, c.uOwner, c.mint, c.auth, c.escrow, c.eData, c.uData, c.tOwner, c.empty,
    c.thawed, ?_, c.ne, ?_, ?_, ?_⟩
  · intro hnd hreq
    have := (goodState_iff hnd).2 hreq
    rw [c.stuck] at this
    cases this
  · rw [c.final]; exact closeOut_same _ _ _
  · rw [c.final]; exact closeOut_dst _ c.ne
  · intro k hk
    simp only [List.mem_cons, List.not_mem_nil, or_false, not_or] at hk
    rw [c.final]; exact closeOut_other _ hk.1 hk.2

/-- **C30/C31** The checks of CloseStuckEscrow in order and their errors. -/
theorem close_errors {W A E : Pubkey} {t : TokenAcct} {m : Mint}
    (hW : wrappedMintAddress env.cr umint.key (L wmint.key).owner = some W)
    (hA : authorityAddress env.cr wmint.key = some A)
    (hE : associatedTokenAddress env.cr auth.key umint.key token2022Id = some E) :
    let result := processInstruction env ([escrow, dest, umint, wmint, auth, prog] ++ rest)
      closeStuckEscrow.pack L
    ((L escrow.key).owner ≠ token2022Id ∨ (L umint.key).owner ≠ token2022Id →
      result = .error .incorrectProgramId) ∧
    ((L escrow.key).owner = token2022Id → (L umint.key).owner = token2022Id →
      (wmint.key ≠ W → result = .error (wrapErr .wrappedMintMismatch)) ∧
      (wmint.key = W → auth.key ≠ A → result = .error (wrapErr .mintAuthorityMismatch)) ∧
      (wmint.key = W → auth.key = A → escrow.key ≠ E →
        result = .error (wrapErr .escrowMismatch)) ∧
      (wmint.key = W → auth.key = A → escrow.key = E → (L escrow.key).data = .token t →
        (t.owner ≠ A → result = .error (wrapErr .escrowOwnerMismatch)) ∧
        (t.owner = A → t.amount ≠ 0 → result = .error .invalidAccountData) ∧
        (t.owner = A → t.amount = 0 → t.frozen = true → result = .error .invalidAccountData) ∧
        (t.owner = A → t.amount = 0 → t.frozen = false → (L umint.key).data = .mint m →
          NoDupExts t m → HasRequiredExts t m →
          result = .error (wrapErr .escrowInGoodState)))) := by
  obtain ⟨bump, hA'⟩ := authorityAddress_some.1 hA
  dsimp only
  rw [processInstruction_pack]
  have hpar : parseClose ([escrow, dest, umint, wmint, auth, prog] ++ rest) =
      .ok ⟨escrow, dest, umint, wmint, auth, prog⟩ := rfl
  simp only [dispatch, processCloseStuckEscrow, hpar, ok_bind]
  refine ⟨?_, ?_⟩
  · intro h
    have : (decide ((L escrow.key).owner = token2022Id) &&
        decide ((L umint.key).owner = token2022Id)) = false := by
      rcases h with h | h <;> simp [h]
    rw [this]; rfl
  intro ho1 ho2
  simp only [ho1, ho2, decide_true, Bool.and_self, require_true, ok_bind, hW, okOr_some, hA', hE]
  refine ⟨fun h => by simp [h], fun h1 h => by simp [h1] at hW ⊢; simp [h], fun h1 h2 h => ?_, ?_⟩
  · simp [h1, h2, h]
  · intro h1 h2 h3 ht
    have ut : unpackToken (L escrow.key).data = .ok t := by simpa using ht
    simp only [h1, h2, h3, decide_true, require_true, ok_bind]
    rw [← h3, ut]
    simp only [ok_bind]
    refine ⟨fun h => by simp [h], fun h4 h => by simp [h4, h], fun h4 h5 h => by simp [h4, h5, h],
      fun h4 h5 h6 hm hnd hreq => ?_⟩
    have um : unpackMint (L umint.key).data = .ok m := by simpa using hm
    have := (goodState_iff hnd).2 hreq
    simp [h4, h5, h6, um, this]

/-- **C31** When everything else is in order, `EscrowInGoodState` is returned exactly when the
escrow's extension set is the required one. -/
theorem close_goodState_iff {t : TokenAcct} {m : Mint}
    (ho1 : (L escrow.key).owner = token2022Id) (ho2 : (L umint.key).owner = token2022Id)
    (hW : wrappedMintAddress env.cr umint.key (L wmint.key).owner = some wmint.key)
    (hA : authorityAddress env.cr wmint.key = some auth.key)
    (hE : associatedTokenAddress env.cr auth.key umint.key token2022Id = some escrow.key)
    (ht : (L escrow.key).data = .token t) (hto : t.owner = auth.key) (ham : t.amount = 0)
    (hfr : t.frozen = false) (hm : (L umint.key).data = .mint m) (hnd : NoDupExts t m) :
    processInstruction env ([escrow, dest, umint, wmint, auth, prog] ++ rest)
      closeStuckEscrow.pack L = .error (wrapErr .escrowInGoodState) ↔ HasRequiredExts t m := by
  constructor
  · intro h
    rw [← goodState_iff hnd]
    rcases hg : escrowInGoodState t.exts (requiredEscrowExts m) with _ | _
    · exfalso
      obtain ⟨bump, hA'⟩ := authorityAddress_some.1 hA
      rw [processInstruction_pack] at h
      have hpar : parseClose ([escrow, dest, umint, wmint, auth, prog] ++ rest) =
          .ok ⟨escrow, dest, umint, wmint, auth, prog⟩ := rfl
      have ut : unpackToken (L escrow.key).data = .ok t := by simpa using ht
      have um : unpackMint (L umint.key).data = .ok m := by simpa using hm
      simp only [dispatch, processCloseStuckEscrow, hpar, ok_bind, ho1, ho2, decide_true,
        Bool.and_self, require_true, hW, okOr_some, hA', hE, ut, hto, ham, hfr, Bool.not_false,
        um, hg] at h
      simp only [signerPda, invokeToken, cpiCheck, bind_error_iff, require_error_iff,
        okOr_error_iff, wrapErr] at h
      obtain ⟨_, h⟩ | ⟨pda, _, ⟨_, h⟩ | ⟨_, _, (⟨_, h⟩ | ⟨_, _, ⟨_, h⟩ | ⟨_, _, _, h⟩⟩) | ⟨_, _, h⟩⟩⟩ := h
      · cases h
      · cases h
      · cases h
      · cases h
      · cases h
      · unfold tokenExec at h
        split at h
        · cases h
        · exact closeAccountExec_error h
    · rfl
  · intro hreq
    exact ((close_errors (E := escrow.key) hW hA hE).2 ho1 ho2).2.2.2 rfl rfl rfl ht |>.2.2.2 hto ham hfr hm hnd
      hreq

end close

/-! ## Fresh escrows and repair -/

/-- **C31** A freshly created associated token account has exactly the required extensions, each
once. -/
theorem fresh_ata_goodState {env : Env} {wallet u : Pubkey} {L L' : Ledger} {m : Mint}
    (h : ataCreate env wallet u token2022Id L = .ok L') (hm : (L u).data = .mint m)
    (hnd : (m.exts.map MintExt.tag).Nodup) :
    ∃ k t, associatedTokenAddress env.cr wallet u token2022Id = some k ∧
      (L' k).data = .token t ∧ t.mint = u ∧ t.owner = wallet ∧ NoDupExts t m ∧
      HasRequiredExts t m := by
  obtain ⟨k, m', _, h1, _, _, _, h2, _, _, h3⟩ := ataCreate_inv h
  rw [hm] at h2; cases h2
  refine ⟨k, _, h1, by rw [h3, Ledger.set_same], rfl, rfl, ⟨?_, hnd⟩, ?_⟩
  · simp only [newTokenAcct, newAcctExts, if_true]
    rw [List.nodup_append]
    refine ⟨by simp, (requiredAccountExts_nodup hnd).sublist List.filter_sublist, ?_⟩
    intro x hx y hy hxy
    simp only [List.mem_cons, List.not_mem_nil, or_false, List.mem_filter, decide_eq_true_eq] at hx hy
    exact hy.2 (hxy ▸ hx)
  · intro x
    rw [← mem_requiredEscrowExts]
    simp only [newTokenAcct, newAcctExts, if_true, requiredEscrowExts]
    by_cases hi : AcctExt.immutableOwner ∈ m.requiredAccountExts
    · rw [if_pos hi]
      simp only [List.cons_append, List.nil_append, List.mem_cons, List.mem_filter,
        List.not_mem_nil, or_false, decide_eq_true_eq]
      constructor
      · rintro (rfl | ⟨h, _⟩)
        · exact hi
        · exact h
      · intro h
        by_cases hx : x = .immutableOwner
        · exact .inl hx
        · exact .inr ⟨h, hx⟩
    · rw [if_neg hi]
      simp only [List.cons_append, List.nil_append, List.mem_cons, List.mem_filter,
        List.not_mem_nil, or_false, decide_eq_true_eq, List.mem_append]
      constructor
      · rintro (rfl | ⟨h, _⟩)
        · exact .inr rfl
        · exact .inl h
      · rintro (h | h)
        · exact .inr ⟨h, fun hx => hi (hx ▸ h)⟩
        · exact .inl h

/-- A stuck escrow: derived addresses, empty, unfrozen, no residual fees, and extensions that differ
from the required ones. `A` is a program address, hence neither the system program nor the
incinerator, and nobody can put data there. -/
structure StuckEscrow (env : Env) (L : Ledger) (u wprog W A E : Pubkey) (t : TokenAcct) (m : Mint) :
    Prop where
  addrW : wrappedMintAddress env.cr u wprog = some W
  addrA : authorityAddress env.cr W = some A
  addrE : associatedTokenAddress env.cr A u token2022Id = some E
  wOwner : (L W).owner = wprog
  uOwner : (L u).owner = token2022Id
  uData : (L u).data = .mint m
  eOwner : (L E).owner = token2022Id
  eData : (L E).data = .token t
  tOwner : t.owner = A
  tClose : t.closeAuthority = none
  empty : t.amount = 0
  thawed : t.frozen = false
  withheld : t.withheld = 0
  confidential : t.confidential = 0
  aData : (L A).data = .bytes []
  aOk : A ≠ systemId ∧ A ≠ incineratorId
  noDup : NoDupExts t m
  differs : ¬ HasRequiredExts t m

/-- **C32** Anyone can close a stuck escrow (no signature is needed) ... -/
theorem close_succeeds {env : Env} {L : Ledger} {u wprog W A E dest : Pubkey} {t : TokenAcct}
    {m : Mint} (hid : env.programId = crateId)
    (hrej : ∀ p ix sg L, env.reject p ix sg L = none)
    (c : StuckEscrow env L u wprog W A E t m) (hd1 : dest ≠ E) (hd2 : dest ≠ u) :
    processInstruction env (Build.closeStuckEscrow crateId E dest u W A).accounts
      (Build.closeStuckEscrow crateId E dest u W A).data L = .ok (closeOut L E dest) := by
  obtain ⟨bump, hA'⟩ := authorityAddress_some.1 c.addrA
  have hs : signerPda env (authoritySignerSeeds W bump) = .ok A := by
    rw [signerPda_ok_iff, hid]; exact findProgramAddress_spec hA'
  simp only [Build.closeStuckEscrow]
  rw [processInstruction_pack]
  generalize hacc : [Meta.rw E false, .rw dest false, .ro u false, .ro W false, .ro A false,
      .ro token2022Id false] = accounts
  have hpar : parseClose accounts = .ok ⟨.rw E false, .rw dest false, .ro u false, .ro W false,
      .ro A false, .ro token2022Id false⟩ := by rw [← hacc]; rfl
  have ut : unpackToken (L E).data = .ok t := by simpa using c.eData
  have um : unpackMint (L u).data = .ok m := by simpa using c.uData
  have hg : escrowInGoodState t.exts (requiredEscrowExts m) = false := by
    rw [Bool.eq_false_iff]
    exact fun h => c.differs ((goodState_iff c.noDup).1 h)
  simp only [dispatch, processCloseStuckEscrow, hpar, ok_bind, Meta.rw, Meta.ro, c.eOwner, c.uOwner,
    c.wOwner, decide_true, Bool.and_self, require_true, c.addrW, okOr_some, hA', c.addrE, ut,
    c.tOwner, c.empty, c.thawed, Bool.not_false, um, hg, hs]
  have nEU : E ≠ u := by rintro rfl; have := c.eData; rw [c.uData] at this; cases this
  have hmetas : (TokenIx.closeAccount E dest A []).metas =
      [.rw E false, .rw dest false, .ro A true] := rfl
  rw [invokeToken_enter (.inr rfl)]
  · unfold tokenExec
    rw [hrej]
    show closeAccountExec _ _ _ _ _ _ _ = _
    have hn : ownedByNobody t = false := by
      unfold ownedByNobody; rw [c.tOwner]; simp [c.aOk.1, c.aOk.2]
    have hv : validateOwner token2022Id L A A [] (signedBy (TokenIx.closeAccount E dest A []).metas) =
        .ok () := by
      rw [validateOwner_ok_iff]
      refine ⟨rfl, ?_⟩
      unfold AuthOk multisigAt
      rw [c.aData]
      have : ∀ x : Option Multisig, x = none →
          (match x with
            | some ms => (ms.signers.filter (· ∈ ([] : List Pubkey))).all
                (signedBy (TokenIx.closeAccount E dest A []).metas) = true ∧
                ms.m ≤ (ms.signers.filter (· ∈ ([] : List Pubkey))).length
            | none => signedBy (TokenIx.closeAccount E dest A []).metas A = true) := by
        rintro _ rfl
        rw [hmetas]
        simp [signedBy, Meta.ro]
      apply this
      split <;> rfl
    unfold closeAccountExec
    simp only [decide_eq_true (Ne.symm hd1), require_true, ok_bind, c.eOwner, decide_true, c.eData,
      c.empty, Bool.or_true, hn, Bool.false_eq_true, if_false, c.tClose, Option.getD_none, c.tOwner,
      hv, c.withheld, c.confidential]
    rfl
  · rw [hmetas]
    intro x hx hw
    simp only [List.mem_cons, List.not_mem_nil, or_false] at hx
    rcases hx with rfl | rfl | rfl
    · simpa [Meta.rw] using nEU
    · simpa [Meta.rw] using hd2
    · simp [Meta.ro] at hw
  · exact ⟨.ro token2022Id false, by rw [← hacc]; simp, rfl⟩
  · rw [hmetas]
    intro x hx
    simp only [List.mem_cons, List.not_mem_nil, or_false] at hx
    rcases hx with rfl | rfl | rfl
    · exact metaAllowed_of_mem (c := .rw E false) (by rw [← hacc]; simp) rfl (fun _ => rfl)
        (fun h => by simp [Meta.rw] at h)
    · exact metaAllowed_of_mem (c := .rw dest false) (by rw [← hacc]; simp) rfl (fun _ => rfl)
        (fun h => by simp [Meta.rw] at h)
    · exact metaAllowed_of_mem (c := .ro A false) (by rw [← hacc]; simp) rfl
        (fun h => by simp [Meta.ro] at h) (fun _ => .inl (by simp [Meta.ro]))

/-- **C32** ... after which the escrow can be created again, now with exactly the required
extensions; and if the mint does not freeze new accounts, any Wrap that is otherwise well-formed
succeeds, whatever its fee. -/
theorem stuck_escrow_repaired {env : Env} {L : Ledger} {u wprog W A E dest : Pubkey} {t : TokenAcct}
    {m : Mint} (hid : env.programId = crateId)
    (hrej : ∀ p ix sg L, env.reject p ix sg L = none)
    (c : StuckEscrow env L u wprog W A E t m) (hd1 : dest ≠ E) (hd2 : dest ≠ u) :
    ∃ L1 L2 t', processInstruction env (Build.closeStuckEscrow crateId E dest u W A).accounts
        (Build.closeStuckEscrow crateId E dest u W A).data L = .ok L1 ∧
      L1 dest = { L dest with lamports := (L dest).lamports + (L E).lamports } ∧
      ataCreate env A u token2022Id L1 = .ok L2 ∧
      (L2 E).owner = token2022Id ∧ (L2 E).data = .token t' ∧ t'.mint = u ∧ t'.owner = A ∧
      t'.amount = 0 ∧ HasRequiredExts t' m ∧
      (m.defaultFrozen = false → ∀ rcp src tauth members (amount : UInt64) fee s r w, amount ≠ 0 →
        CanWrapInto env L2 rcp W A token2022Id wprog src u E tauth members amount.toNat fee s r m w →
        ∃ L3, processInstruction env
          (Build.wrap crateId rcp W A token2022Id wprog src u E tauth members amount).accounts
          (Build.wrap crateId rcp W A token2022Id wprog src u E tauth members amount).data L2 =
            .ok L3) := by
  have h1 := close_succeeds hid hrej c hd1 hd2
  have nEU : u ≠ E := by rintro rfl; have := c.eData; rw [c.uData] at this; cases this
  have hu : closeOut L E dest u = L u := closeOut_other _ nEU (Ne.symm hd2)
  have hE : closeOut L E dest E = Account.empty := closeOut_same _ _ _
  have h2 := ataCreate_ok (env := env) (wallet := A) (mint := u) (prog := token2022Id) (k := E)
    (m := m) (L := closeOut L E dest) (.inr rfl) c.addrE (by rw [hE]; rfl) (by rw [hE]; rfl)
    (by rw [hu]; exact c.uOwner) (by rw [hu]; exact c.uData)
    (fun h => absurd h (by decide +kernel))
  obtain ⟨k, t', hk, hd, hm', ho', hnd', hreq⟩ := fresh_ata_goodState h2 (by rw [hu]; exact c.uData)
    c.noDup.2
  rw [c.addrE] at hk
  cases hk
  have hd' := hd
  rw [Ledger.set_same] at hd'
  injection hd' with hd'
  have hamt : t'.amount = 0 := by
    rw [← hd']
    simp only [newTokenAcct, hE, Account.empty, Nat.zero_max]
    split <;> simp
  refine ⟨_, _, t', h1, closeOut_dst _ (Ne.symm hd1), h2, by rw [Ledger.set_same], hd, hm', ho', hamt,
    hreq, ?_⟩
  intro hfr rcp src tauth members amount fee s r w hz cw
  refine wrap_succeeds (d := t') hid hz hrej ⟨cw, by rw [Ledger.set_same], hd, hm', ho', ?_, ?_, ?_⟩
  · rw [← hd']; simp [newTokenAcct, hfr]
  · by_cases hf : ∃ cfg, MintExt.transferFeeConfig cfg ∈ m.exts
    · obtain ⟨cfg, hcfg⟩ := hf
      exact .inr ((hreq _).2 (.fee hcfg))
    · left
      have := cw.feeEq
      have hn : m.transferFee? = none := by
        unfold Mint.transferFee?
        rw [List.findSome?_eq_none_iff]
        intro x hx
        split
        · rename_i cfg; exact absurd ⟨cfg, hx⟩ hf
        · rfl
      simp only [feeOf, if_true, hn] at this
      simpa using this.symm
  · have := cw.feeLe
    have ha : amount.toNat < 2 ^ 64 := amount.toNat_lt
    rw [hamt]
    simp only [u64Max]
    omega

namespace Example

/-- An escrow created before the mint's fee extension existed: `transferFeeAmount` is missing. -/
def Lstuck : Ledger := world [.transferFeeConfig feeCfg] 0 [.immutableOwner] 0

example : StuckEscrow env Lstuck u splTokenId W A E (acct u A 0 [.immutableOwner])
    (uMint [.transferFeeConfig feeCfg]) := by
  constructor
  case noDup => exact ⟨by decide, by decide⟩
  case differs =>
    intro h
    have := (h .transferFeeAmount).2 (.fee (c := feeCfg) (by simp [uMint]))
    simp [acct] at this
  all_goals decide +kernel

/-- The close instruction succeeds there and fails on the healthy world. -/
example : ok (processInstruction env (Build.closeStuckEscrow crateId E user u W A).accounts
    (Build.closeStuckEscrow crateId E user u W A).data Lstuck) = true := by decide +kernel
example : fails (processInstruction env (Build.closeStuckEscrow crateId E user u W A).accounts
    (Build.closeStuckEscrow crateId E user u W A).data
    (world [.transferFeeConfig feeCfg] 0 goodExts 0)) (wrapErr .escrowInGoodState) = true := by
  decide +kernel

end Example

end TokenWrap
