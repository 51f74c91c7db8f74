import Verif.ProcessorLemmas
import Verif.Examples
import Verif.Props.Codec
/-!
# Trailing accounts (C54)

Transfer-hook accounts, absent multisig members and anything else a caller appends after the
documented accounts do not change what a successful instruction does.
-/

namespace TokenWrap

open TokenWrapInstruction

section
variable {α β : Type}

/-- Whatever `r` achieves, `r'` achieves. -/
def OkLe (r r' : Res α) : Prop := ∀ x, r = .ok x → r' = .ok x

theorem OkLe.refl (r : Res α) : OkLe r r := fun _ h => h

theorem OkLe.bind {r r' : Res α} {f f' : α → Res β} (h : OkLe r r') (hf : ∀ a, OkLe (f a) (f' a)) :
    OkLe (r >>= f) (r' >>= f') := by
  intro x hx
  simp only [bind_ok_iff] at hx ⊢
  obtain ⟨a, h1, h2⟩ := hx
  exact ⟨a, h a h1, hf a x h2⟩

theorem OkLe.ite {c : Prop} [Decidable c] {r r' s s' : Res α} (h : OkLe r r') (h' : OkLe s s') :
    OkLe (if c then r else s) (if c then r' else s') := by
  split
  · exact h
  · exact h'

variable {accounts extra : List Meta} {env : Env} {L : Ledger}

theorem metaAllowed_append {pdas : List Pubkey} {m : Meta} (h : metaAllowed accounts pdas m = true) :
    metaAllowed (accounts ++ extra) pdas m = true := by
  simp only [metaAllowed, List.any_append, Bool.and_eq_true, Bool.or_eq_true] at h ⊢
  refine ⟨⟨.inl h.1.1, ?_⟩, ?_⟩
  · exact h.1.2.imp id .inl
  · rcases h.2 with (h | h) | h
    · exact .inl (.inl h)
    · exact .inl (.inr (.inl h))
    · exact .inr h

theorem cpiCheck_append (pdas borrowed : List Pubkey) (callee : Pubkey) (metas : List Meta) :
    OkLe (cpiCheck accounts pdas borrowed callee metas)
      (cpiCheck (accounts ++ extra) pdas borrowed callee metas) := by
  unfold cpiCheck
  refine OkLe.bind (.refl _) fun _ => OkLe.bind ?_ fun _ => ?_
  · intro x h
    rw [require_ok_iff] at h ⊢
    simp [List.any_append, h]
  · intro x h
    rw [require_ok_iff] at h ⊢
    rw [List.all_eq_true] at h ⊢
    exact fun m hm => metaAllowed_append (h m hm)

theorem invokeToken_append (pdas borrowed : List Pubkey) (prog : Pubkey) (ix : TokenIx) :
    OkLe (invokeToken env accounts pdas borrowed prog ix L)
      (invokeToken env (accounts ++ extra) pdas borrowed prog ix L) := by
  unfold invokeToken
  exact OkLe.bind (.refl _) fun _ => OkLe.bind (cpiCheck_append _ _ _ _) fun _ => .refl _

theorem invokeAllocate_append (pdas : List Pubkey) (key : Pubkey) (space : Nat) :
    OkLe (invokeAllocate accounts pdas key space L)
      (invokeAllocate (accounts ++ extra) pdas key space L) := by
  unfold invokeAllocate
  exact OkLe.bind (cpiCheck_append _ _ _ _) fun _ => .refl _

theorem invokeAssign_append (pdas : List Pubkey) (key owner : Pubkey) :
    OkLe (invokeAssign accounts pdas key owner L)
      (invokeAssign (accounts ++ extra) pdas key owner L) := by
  unfold invokeAssign
  exact OkLe.bind (cpiCheck_append _ _ _ _) fun _ => .refl _

/-- Appended accounts that did not sign are never taken for multisig members. -/
theorem extractMultisig_append {additional : List Meta} {k : Pubkey}
    (hx : ∀ m ∈ extra, m.signer = false) :
    extractMultisig L k (additional ++ extra) = extractMultisig L k additional := by
  have : ∀ ms : Multisig, (extra.filter fun m => m.signer && decide (m.key ∈ ms.signers)) = [] := by
    intro ms
    rw [List.filter_eq_nil_iff]
    intro m hm
    simp [hx m hm]
  unfold extractMultisig
  split
  · simp only [List.filter_append, this, List.append_nil]
  · rfl

theorem processWrap_append (amount : UInt64) (hx : ∀ m ∈ extra, m.signer = false) :
    OkLe (processWrap env accounts amount L) (processWrap env (accounts ++ extra) amount L) := by
  rcases accounts with _ | ⟨a, _ | ⟨b, _ | ⟨c, _ | ⟨d, _ | ⟨e, _ | ⟨f, _ | ⟨g, _ | ⟨h, _ | ⟨i, rest⟩⟩⟩⟩⟩⟩⟩⟩⟩ <;>
    first
    | (intro x hx'
       simp [processWrap, parseWrap] at hx')
      done
    | skip
  unfold processWrap
  refine OkLe.bind (.refl _) fun _ => ?_
  simp only [parseWrap, List.cons_append, ok_bind]
  refine OkLe.bind (.refl _) fun _ => OkLe.bind (.refl _) fun _ => OkLe.bind (.refl _) fun p => ?_
  refine OkLe.bind (.refl _) fun _ => OkLe.bind (.refl _) fun _ => OkLe.bind (.refl _) fun _ =>
    OkLe.bind (.refl _) fun _ => OkLe.bind (.refl _) fun _ => OkLe.bind (.refl _) fun m =>
    OkLe.bind (.refl _) fun _ => OkLe.bind ?_ fun L1 => OkLe.bind (.refl _) fun _ => ?_
  · unfold wrapTransfer
    simp only [extractMultisig_append hx]
    rw [← List.cons_append, ← List.cons_append, ← List.cons_append, ← List.cons_append,
      ← List.cons_append, ← List.cons_append, ← List.cons_append, ← List.cons_append,
      ← List.cons_append]
    exact OkLe.ite (invokeToken_append _ _ _ _) (invokeToken_append _ _ _ _)
  · rw [← List.cons_append, ← List.cons_append, ← List.cons_append, ← List.cons_append,
      ← List.cons_append, ← List.cons_append, ← List.cons_append, ← List.cons_append,
      ← List.cons_append]
    exact invokeToken_append _ _ _ _

theorem processUnwrap_append (amount : UInt64) (hx : ∀ m ∈ extra, m.signer = false) :
    OkLe (processUnwrap env accounts amount L) (processUnwrap env (accounts ++ extra) amount L) := by
  rcases accounts with _ | ⟨a, _ | ⟨b, _ | ⟨c, _ | ⟨d, _ | ⟨e, _ | ⟨f, _ | ⟨g, _ | ⟨h, _ | ⟨i, rest⟩⟩⟩⟩⟩⟩⟩⟩⟩ <;>
    first
    | (intro x hx'
       simp [processUnwrap, parseUnwrap] at hx')
      done
    | skip
  unfold processUnwrap
  refine OkLe.bind (.refl _) fun _ => ?_
  simp only [parseUnwrap, List.cons_append, ok_bind, extractMultisig_append hx]
  rw [← List.cons_append, ← List.cons_append, ← List.cons_append, ← List.cons_append,
    ← List.cons_append, ← List.cons_append, ← List.cons_append, ← List.cons_append,
    ← List.cons_append]
  exact OkLe.bind (.refl _) fun _ => OkLe.bind (.refl _) fun _ => OkLe.bind (.refl _) fun p =>
    OkLe.bind (.refl _) fun _ => OkLe.bind (.refl _) fun _ => OkLe.bind (.refl _) fun _ =>
    OkLe.bind (invokeToken_append _ _ _ _) fun L1 => OkLe.bind (.refl _) fun m =>
    OkLe.bind (.refl _) fun _ => invokeToken_append _ _ _ _

theorem processClose_append :
    OkLe (processCloseStuckEscrow env accounts L)
      (processCloseStuckEscrow env (accounts ++ extra) L) := by
  rcases accounts with _ | ⟨a, _ | ⟨b, _ | ⟨c, _ | ⟨d, _ | ⟨e, _ | ⟨f, rest⟩⟩⟩⟩⟩⟩ <;>
    first
    | (intro x hx'
       simp [processCloseStuckEscrow, parseClose] at hx')
      done
    | skip
  unfold processCloseStuckEscrow
  simp only [parseClose, List.cons_append, ok_bind]
  rw [← List.cons_append, ← List.cons_append, ← List.cons_append, ← List.cons_append,
    ← List.cons_append, ← List.cons_append]
  exact OkLe.bind (.refl _) fun _ => OkLe.bind (.refl _) fun _ => OkLe.bind (.refl _) fun _ =>
    OkLe.bind (.refl _) fun p => OkLe.bind (.refl _) fun _ => OkLe.bind (.refl _) fun _ =>
    OkLe.bind (.refl _) fun _ => OkLe.bind (.refl _) fun _ => OkLe.bind (.refl _) fun _ =>
    OkLe.bind (.refl _) fun _ => OkLe.bind (.refl _) fun _ => OkLe.bind (.refl _) fun m =>
    OkLe.bind (.refl _) fun _ => OkLe.bind (.refl _) fun _ => invokeToken_append _ _ _ _

theorem defaultInit_append (w p : Pubkey) :
    OkLe (defaultToken2022Customizer.initializeExtensions env accounts w p L)
      (defaultToken2022Customizer.initializeExtensions env (accounts ++ extra) w p L) := by
  simp only [defaultToken2022Customizer]
  exact OkLe.bind (invokeToken_append _ _ _ _) fun _ => OkLe.bind (.refl _) fun _ =>
    invokeToken_append _ _ _ _

theorem createMintInit_append (a : CreateMintAccounts) (bump : UInt8) :
    OkLe (createMintInit env defaultToken2022Customizer accounts a bump L)
      (createMintInit env defaultToken2022Customizer (accounts ++ extra) a bump L) := by
  unfold createMintInit
  exact OkLe.bind (.refl _) fun _ => OkLe.bind (.refl _) fun _ => OkLe.bind (.refl _) fun _ =>
    OkLe.bind (invokeAllocate_append _ _ _) fun _ => OkLe.bind (invokeAssign_append _ _ _) fun _ =>
    OkLe.bind (OkLe.ite (defaultInit_append _ _) (.refl _)) fun _ => OkLe.bind (.refl _) fun p =>
    OkLe.bind (.refl _) fun _ => invokeToken_append _ _ _ _

theorem createBackpointer_append (a : CreateMintAccounts) (bump : UInt8) :
    OkLe (createBackpointer env accounts a bump L)
      (createBackpointer env (accounts ++ extra) a bump L) := by
  unfold createBackpointer
  exact OkLe.bind (.refl _) fun _ => OkLe.bind (.refl _) fun _ =>
    OkLe.bind (invokeAllocate_append _ _ _) fun _ => OkLe.bind (invokeAssign_append _ _ _) fun _ =>
    OkLe.bind (.refl _) fun _ => .refl _

theorem processCreateMint_append (idem : Bool) :
    OkLe (processCreateMint env defaultToken2022Customizer accounts idem L)
      (processCreateMint env defaultToken2022Customizer (accounts ++ extra) idem L) := by
  rcases accounts with _ | ⟨a, _ | ⟨b, _ | ⟨c, _ | ⟨d, _ | ⟨e, rest⟩⟩⟩⟩⟩ <;>
    first
    | (intro x hx'
       simp [processCreateMint, parseCreateMint] at hx')
      done
    | skip
  unfold processCreateMint
  simp only [parseCreateMint, List.cons_append, ok_bind]
  rw [← List.cons_append, ← List.cons_append, ← List.cons_append, ← List.cons_append,
    ← List.cons_append]
  exact OkLe.bind (.refl _) fun _ => OkLe.bind (.refl _) fun _ => OkLe.bind (.refl _) fun _ =>
    OkLe.bind (.refl _) fun _ => OkLe.bind (.refl _) fun _ =>
    OkLe.ite (.refl _) (OkLe.bind (createMintInit_append _ _) fun _ => createBackpointer_append _ _)

theorem processPointer_append (new : Pubkey) :
    OkLe (processSetCanonicalPointer env accounts new L)
      (processSetCanonicalPointer env (accounts ++ extra) new L) := by
  rcases accounts with _ | ⟨a, _ | ⟨b, _ | ⟨c, _ | ⟨d, rest⟩⟩⟩⟩ <;>
    first
    | (intro x hx'
       simp [processSetCanonicalPointer, parsePointer] at hx')
      done
    | skip
  unfold processSetCanonicalPointer
  simp only [parsePointer, List.cons_append, ok_bind]
  rw [← List.cons_append, ← List.cons_append, ← List.cons_append, ← List.cons_append]
  refine OkLe.bind (.refl _) fun _ => OkLe.bind (.refl _) fun _ => OkLe.bind (.refl _) fun _ =>
    OkLe.bind (.refl _) fun _ => OkLe.bind (.refl _) fun _ => OkLe.bind (.refl _) fun p =>
    OkLe.bind (.refl _) fun _ => OkLe.bind ?_ fun _ => .refl _
  unfold initPointer
  exact OkLe.ite (OkLe.bind (.refl _) fun _ => OkLe.bind (.refl _) fun _ =>
    OkLe.bind (invokeAllocate_append _ _ _) fun _ => invokeAssign_append _ _ _) (.refl _)

/-! ### The metadata syncs -/

/-- An optional account that is read the same, or was left out and is now given. -/
def OptLe (o o' : Option Meta) : Prop := ∀ m, o = some m → o' = some m

theorem readMetaplex_le {u : Pubkey} {s s' : Option Meta} (h : OptLe s s') :
    OkLe (readMetaplexForMint env u s L) (readMetaplexForMint env u s' L) := by
  cases s with
  | none => intro x h; simp [readMetaplexForMint] at h
  | some s => rw [h s rfl]; exact .refl _

theorem cpiEmit_append {op md : Pubkey} :
    OkLe (cpiEmitAndDecode env accounts op md L) (cpiEmitAndDecode env (accounts ++ extra) op md L) := by
  unfold cpiEmitAndDecode
  exact OkLe.bind (cpiCheck_append _ _ _ _) fun _ => .refl _

/-- Metadata found with the given accounts is also found when more are given. -/
theorem extract_le {u : Pubkey} {s s' op op' : Option Meta} (hs : OptLe s s') (ho : OptLe op op') :
    OkLe (extractTokenMetadata env accounts u s op L)
      (extractTokenMetadata env (accounts ++ extra) u s' op' L) := by
  unfold extractTokenMetadata
  refine OkLe.ite ?_ (OkLe.ite (readMetaplex_le hs) (.refl _))
  unfold resolveToken2022Source
  refine OkLe.bind (.refl _) fun m => ?_
  split
  · exact readMetaplex_le hs
  · exact .refl _
  · refine OkLe.ite (.refl _) ?_
    cases s with
    | none => intro x h; simp at h
    | some s =>
      rw [hs s rfl]
      simp only [okOr_some, ok_bind]
      refine OkLe.bind (.refl _) fun _ => OkLe.ite (.refl _) (OkLe.ite (.refl _) ?_)
      cases op with
      | none => intro x h; simp at h
      | some o =>
        rw [ho o rfl]
        simp only [okOr_some, ok_bind]
        exact OkLe.bind (.refl _) fun _ => cpiEmit_append

theorem metaCpi_append {pda prog : Pubkey} {ix : TokenIx} :
    OkLe (metaCpi env accounts pda prog ix L) (metaCpi env (accounts ++ extra) pda prog ix L) :=
  invokeToken_append _ _ _ _

theorem updateFields_append {pda prog mint auth : Pubkey} {w s : TokenMetadata}
    (fs : List (Field × (TokenMetadata → String))) (L : Ledger) :
    OkLe (updateFieldsIfChanged env accounts pda prog mint auth w s fs L)
      (updateFieldsIfChanged env (accounts ++ extra) pda prog mint auth w s fs L) := by
  induction fs generalizing L with
  | nil => exact .refl _
  | cons f rest ih =>
    exact OkLe.bind (OkLe.ite metaCpi_append (.refl _)) fun L1 => ih L1

theorem syncAdditional_append {pda prog mint auth : Pubkey} (l : List (String × String)) (map : StrMap)
    (L : Ledger) :
    OkLe (syncAdditional env accounts pda prog mint auth l map L)
      (syncAdditional env (accounts ++ extra) pda prog mint auth l map L) := by
  induction l generalizing map L with
  | nil => exact .refl _
  | cons f rest ih =>
    exact OkLe.bind (OkLe.ite metaCpi_append (.refl _)) fun L1 => ih _ L1

theorem removeStale_append {pda prog mint auth : Pubkey} (l : List String) (L : Ledger) :
    OkLe (removeStale env accounts pda prog mint auth l L)
      (removeStale env (accounts ++ extra) pda prog mint auth l L) := by
  induction l generalizing L with
  | nil => exact .refl _
  | cons f rest ih => exact OkLe.bind metaCpi_append fun L1 => ih L1

theorem addFields_append {pda prog mint auth : Pubkey} (l : List (String × String)) (L : Ledger) :
    OkLe (addFields env accounts pda prog mint auth l L)
      (addFields env (accounts ++ extra) pda prog mint auth l L) := by
  induction l generalizing L with
  | nil => exact .refl _
  | cons f rest ih => exact OkLe.bind metaCpi_append fun L1 => ih L1

theorem optLe_get (rest extra : List Meta) (i : Nat) : OptLe rest[i]? (rest ++ extra)[i]? := by
  intro m hm
  have hi : i < rest.length := by
    rcases Nat.lt_or_ge i rest.length with h | h
    · exact h
    · rw [List.getElem?_eq_none h] at hm; cases hm
  rw [List.getElem?_append_left hi]
  exact hm

theorem parseSync22_append {a : Sync22Accounts} (h : parseSync22 accounts = .ok a) :
    ∃ s o, OptLe a.source s ∧ OptLe a.ownerProgram o ∧
      parseSync22 (accounts ++ extra) = .ok { a with source := s, ownerProgram := o } := by
  rcases accounts with _ | ⟨a1, _ | ⟨a2, _ | ⟨a3, _ | ⟨a4, rest⟩⟩⟩⟩ <;> simp only [parseSync22] at h <;>
    cases h
  exact ⟨_, _, optLe_get rest extra 0, optLe_get rest extra 1, rfl⟩

theorem parseSyncSpl_append {a : SyncSplAccounts} (h : parseSyncSpl accounts = .ok a) :
    ∃ s o, OptLe a.source s ∧ OptLe a.ownerProgram o ∧
      parseSyncSpl (accounts ++ extra) = .ok { a with source := s, ownerProgram := o } := by
  rcases accounts with _ | ⟨a1, _ | ⟨a2, _ | ⟨a3, _ | ⟨a4, _ | ⟨a5, _ | ⟨a6, _ | ⟨a7, rest⟩⟩⟩⟩⟩⟩⟩ <;>
    simp only [parseSyncSpl] at h <;> cases h
  exact ⟨_, _, optLe_get rest extra 0, optLe_get rest extra 1, rfl⟩

theorem processSync22_append :
    OkLe (processSyncToToken2022 env accounts L) (processSyncToToken2022 env (accounts ++ extra) L) := by
  intro x hx
  unfold processSyncToToken2022 at hx ⊢
  obtain ⟨a, ha, hx⟩ := bind_ok_iff.1 hx
  obtain ⟨s, o, hs, ho, hp⟩ := parseSync22_append (extra := extra) ha
  rw [hp, ok_bind]
  refine (show OkLe _ _ from ?_) x hx
  refine OkLe.bind (.refl _) fun _ => OkLe.bind (.refl _) fun _ => OkLe.bind (.refl _) fun _ =>
    OkLe.bind (.refl _) fun _ => OkLe.bind (.refl _) fun p => OkLe.bind (.refl _) fun _ =>
    OkLe.bind (extract_le hs ho) fun src => OkLe.bind (.refl _) fun m => OkLe.bind (.refl _) fun pda => ?_
  dsimp only
  split
  · exact OkLe.bind (updateFields_append _ _) fun L1 => OkLe.bind (syncAdditional_append _ _ _) fun q =>
      removeStale_append _ _
  · exact OkLe.bind metaCpi_append fun L1 => addFields_append _ _

theorem processSyncSpl_append :
    OkLe (processSyncToSplToken env accounts L) (processSyncToSplToken env (accounts ++ extra) L) := by
  intro x hx
  unfold processSyncToSplToken at hx ⊢
  obtain ⟨a, ha, hx⟩ := bind_ok_iff.1 hx
  obtain ⟨s, o, hs, ho, hp⟩ := parseSyncSpl_append (extra := extra) ha
  rw [hp, ok_bind]
  refine (show OkLe _ _ from ?_) x hx
  refine OkLe.bind (.refl _) fun _ => OkLe.bind (.refl _) fun _ => OkLe.bind (.refl _) fun _ =>
    OkLe.bind (.refl _) fun p => OkLe.bind (.refl _) fun _ => OkLe.bind (.refl _) fun _ =>
    OkLe.bind (.refl _) fun _ => OkLe.bind (.refl _) fun _ =>
    OkLe.bind (extract_le hs ho) fun src => OkLe.bind (.refl _) fun m => OkLe.bind (.refl _) fun pda =>
    OkLe.ite (OkLe.bind (cpiCheck_append _ _ _ _) fun _ => .refl _)
      (OkLe.bind (cpiCheck_append _ _ _ _) fun _ => .refl _)

end

/-- **C54** An instruction that succeeds, succeeds with the same resulting ledger when any accounts
that do not sign are appended to its account list. -/
theorem trailing_accounts_ignored {env : Env} {accounts extra : List Meta} {data : Bytes}
    {L L' : Ledger} (hx : ∀ m ∈ extra, m.signer = false)
    (h : processInstruction env accounts data L = .ok L') :
    processInstruction env (accounts ++ extra) data L = .ok L' := by
  unfold processInstruction at h ⊢
  obtain ⟨ix, hix, h⟩ := bind_ok_iff.1 h
  rw [hix, ok_bind]
  cases ix with
  | createMint i => exact processCreateMint_append i _ h
  | wrap n => exact processWrap_append n hx _ h
  | unwrap n => exact processUnwrap_append n hx _ h
  | closeStuckEscrow => exact processClose_append _ h
  | syncMetadataToToken2022 => exact processSync22_append _ h
  | syncMetadataToSplToken => exact processSyncSpl_append _ h
  | setCanonicalPointer n => exact processPointer_append n _ h

/-- The hypotheses are met by a working wrap and an appended stranger; the extra account does not
sign, so it is not taken for a multisig member. -/
example : TokenWrapInstruction.unpack (TokenWrapInstruction.wrap 1000).pack
      = .ok (TokenWrapInstruction.wrap 1000)
    ∧ Example.ok (processInstruction Example.env Example.wrapAccounts
        (TokenWrapInstruction.wrap 1000).pack Example.L0) = true
    ∧ Example.ok (processInstruction Example.env
        (Example.wrapAccounts ++ [⟨Example.issuer, false, true⟩])
        (TokenWrapInstruction.wrap 1000).pack Example.L0) = true := by
  refine ⟨unpack_pack _, ?_, ?_⟩ <;> decide +kernel

end TokenWrap
