import Verif.Processor
import Verif.TokenLemmas
import Verif.PdaLemmas
import Verif.Props.Codec
/-! # Inversion lemmas for the processor model -/

set_option linter.unusedSimpArgs false

namespace TokenWrap

/-- Turn `do`-block success into the conjunction of its steps. -/
macro "inv_ok" "at" h:ident : tactic =>
  `(tactic| simp only [bind_ok_iff, require_ok_iff, okOr_ok_iff, pure_ok_iff, decide_eq_true_eq,
      unpackToken_ok_iff, unpackMint_ok_iff, ne_eq, decide_not, Bool.not_eq_true',
      decide_eq_false_iff_not, Bool.not_eq_eq_eq_not, Bool.not_true, Bool.not_false] at $h:ident)

/-! ## Dispatch -/

/-- What `process_instruction` does with an instruction, ignoring the encoding. -/
def dispatch (env : Env) (accounts : List Meta) (L : Ledger) : TokenWrapInstruction → Res Ledger
  | .createMint idempotent =>
    processCreateMint env defaultToken2022Customizer accounts idempotent L
  | .wrap amount => processWrap env accounts amount L
  | .unwrap amount => processUnwrap env accounts amount L
  | .closeStuckEscrow => processCloseStuckEscrow env accounts L
  | .syncMetadataToToken2022 => processSyncToToken2022 env accounts L
  | .syncMetadataToSplToken => processSyncToSplToken env accounts L
  | .setCanonicalPointer newProgramId => processSetCanonicalPointer env accounts newProgramId L

theorem processInstruction_pack (env : Env) (accounts : List Meta) (ix : TokenWrapInstruction)
    (L : Ledger) : processInstruction env accounts ix.pack L = dispatch env accounts L ix := by
  unfold processInstruction
  rw [unpack_pack]
  cases ix <;> rfl

theorem processInstruction_ok {env : Env} {accounts : List Meta} {input : Bytes} {L L' : Ledger}
    (h : processInstruction env accounts input L = .ok L') :
    ∃ ix, input = TokenWrapInstruction.pack ix ∧ dispatch env accounts L ix = .ok L' := by
  cases hu : TokenWrapInstruction.unpack input with
  | error e => simp [processInstruction, hu] at h
  | ok ix =>
    have := (unpack_eq_ok_iff input ix).1 hu
    refine ⟨ix, this, ?_⟩
    rw [this, processInstruction_pack] at h
    exact h

/-! ## Signing -/

theorem signerPda_ok_iff {env : Env} {seeds : List Bytes} {k : Pubkey} :
    signerPda env seeds = .ok k ↔ createProgramAddress env.cr seeds env.programId = some k := by
  simp [signerPda]

/-! ## Wrap -/

theorem parseWrap_ok_iff {accounts : List Meta} {a : WrapAccounts} :
    parseWrap accounts = .ok a ↔
      accounts = [a.recipient, a.wrappedMint, a.authority, a.unwrappedTokenProgram,
        a.wrappedTokenProgram, a.unwrappedTokenAccount, a.unwrappedMint, a.escrow,
        a.transferAuthority] ++ a.additional := by
  unfold parseWrap
  split
  · constructor
    · intro h; cases h; rfl
    · intro h; cases a; simp at h ⊢; obtain ⟨h1, h2, h3, h4, h5, h6, h7, h8, h9, h10⟩ := h
      exact ⟨h1, h2, h3, h4, h5, h6, h7, h8, h9, h10⟩
  · rename_i hno
    constructor
    · intro h; cases h
    · intro h; exact absurd h (by simpa using hno _ _ _ _ _ _ _ _ _ _)

/-- The validated context of a successful Wrap. -/
structure WrapCtx (env : Env) (accounts : List Meta) (amount : UInt64) (L L' : Ledger)
    (a : WrapAccounts) (esc : TokenAcct) (m : Mint) (L1 : Ledger) (pda : Pubkey) : Prop where
  accounts_eq : accounts = [a.recipient, a.wrappedMint, a.authority, a.unwrappedTokenProgram,
        a.wrappedTokenProgram, a.unwrappedTokenAccount, a.unwrappedMint, a.escrow,
        a.transferAuthority] ++ a.additional
  pos : amount ≠ 0
  mint : wrappedMintAddress env.cr a.unwrappedMint.key a.wrappedTokenProgram.key =
    some a.wrappedMint.key
  auth : authorityAddress env.cr a.wrappedMint.key = some a.authority.key
  escrow : associatedTokenAddress env.cr a.authority.key a.unwrappedMint.key
    a.unwrappedTokenProgram.key = some a.escrow.key
  escData : (L a.escrow.key).data = .token esc
  escOwner : esc.owner = a.authority.key
  uMint : (L a.unwrappedMint.key).data = .mint m
  feeLe : wrapFee env m amount.toNat ≤ amount.toNat
  transfer : wrapTransfer env accounts a m amount.toNat (wrapFee env m amount.toNat) L = .ok L1
  pdaEq : ∃ bump, authorityWithSeed env.cr a.wrappedMint.key = some (a.authority.key, bump) ∧
    signerPda env (authoritySignerSeeds a.wrappedMint.key bump) = .ok pda
  mintTo : invokeToken env accounts [pda] [a.unwrappedMint.key] a.wrappedTokenProgram.key
    (.mintTo a.wrappedMint.key a.recipient.key a.authority.key []
      (amount.toNat - wrapFee env m amount.toNat)) L1 = .ok L'

theorem processWrap_inv {env : Env} {accounts : List Meta} {amount : UInt64} {L L' : Ledger}
    (h : processWrap env accounts amount L = .ok L') :
    ∃ a esc m L1 pda, WrapCtx env accounts amount L L' a esc m L1 pda := by
  unfold processWrap at h
  inv_ok at h
  obtain ⟨_, hz, a, ha, em, hem, _, rfl, ⟨ea, bump⟩, hea, h⟩ := h
  dsimp only at h
  obtain ⟨_, rfl, ee, hee, _, rfl, esc, hesc, _, hown, m, hm, _, hfee, L1, htr, pda, hpda, hmt⟩ := h
  exact ⟨a, esc, m, L1, pda, ⟨parseWrap_ok_iff.1 ha, hz, hem, authorityAddress_some.2 ⟨_, hea⟩, hee,
    hesc, hown, hm, hfee, htr, ⟨bump, hea, hpda⟩, hmt⟩⟩

/-! ## Unwrap -/

theorem parseUnwrap_ok_iff {accounts : List Meta} {a : UnwrapAccounts} :
    parseUnwrap accounts = .ok a ↔
      accounts = [a.escrow, a.recipient, a.authority, a.unwrappedMint, a.wrappedTokenProgram,
        a.unwrappedTokenProgram, a.wrappedTokenAccount, a.wrappedMint, a.transferAuthority] ++
        a.additional := by
  unfold parseUnwrap
  split
  · constructor
    · intro h; cases h; rfl
    · intro h; cases a; simp at h ⊢; obtain ⟨h1, h2, h3, h4, h5, h6, h7, h8, h9, h10⟩ := h
      exact ⟨h1, h2, h3, h4, h5, h6, h7, h8, h9, h10⟩
  · rename_i hno
    constructor
    · intro h; cases h
    · intro h; exact absurd h (by simpa using hno _ _ _ _ _ _ _ _ _ _)

/-- The validated context of a successful Unwrap. -/
structure UnwrapCtx (env : Env) (accounts : List Meta) (amount : UInt64) (L L' : Ledger)
    (a : UnwrapAccounts) (m : Mint) (L1 : Ledger) (pda : Pubkey) : Prop where
  accounts_eq : accounts = [a.escrow, a.recipient, a.authority, a.unwrappedMint,
    a.wrappedTokenProgram, a.unwrappedTokenProgram, a.wrappedTokenAccount, a.wrappedMint,
    a.transferAuthority] ++ a.additional
  pos : amount ≠ 0
  mint : wrappedMintAddress env.cr a.unwrappedMint.key a.wrappedTokenProgram.key =
    some a.wrappedMint.key
  auth : authorityAddress env.cr a.wrappedMint.key = some a.authority.key
  escrow : associatedTokenAddress env.cr a.authority.key a.unwrappedMint.key
    a.unwrappedTokenProgram.key = some a.escrow.key
  burn : invokeToken env accounts [] [] a.wrappedTokenProgram.key
    (.burn a.wrappedTokenAccount.key a.wrappedMint.key a.transferAuthority.key
      (extractMultisig L a.transferAuthority.key a.additional) amount.toNat) L = .ok L1
  uMint : (L1 a.unwrappedMint.key).data = .mint m
  pdaEq : ∃ bump, authorityWithSeed env.cr a.wrappedMint.key = some (a.authority.key, bump) ∧
    signerPda env (authoritySignerSeeds a.wrappedMint.key bump) = .ok pda
  transfer : invokeToken env accounts [pda] [a.unwrappedMint.key] a.unwrappedTokenProgram.key
    (.transferChecked a.escrow.key a.unwrappedMint.key a.recipient.key a.authority.key
      (extractMultisig L1 a.authority.key a.additional) amount.toNat m.decimals) L1 = .ok L'

theorem processUnwrap_inv {env : Env} {accounts : List Meta} {amount : UInt64} {L L' : Ledger}
    (h : processUnwrap env accounts amount L = .ok L') :
    ∃ a m L1 pda, UnwrapCtx env accounts amount L L' a m L1 pda := by
  unfold processUnwrap at h
  inv_ok at h
  obtain ⟨_, hz, a, ha, em, hem, _, rfl, ⟨ea, bump⟩, hea, h⟩ := h
  dsimp only at h
  obtain ⟨_, rfl, ee, hee, _, rfl, L1, hburn, m, hm, pda, hpda, htr⟩ := h
  exact ⟨a, m, L1, pda, ⟨parseUnwrap_ok_iff.1 ha, hz, hem, authorityAddress_some.2 ⟨_, hea⟩, hee,
    hburn, hm, ⟨bump, hea, hpda⟩, htr⟩⟩

end TokenWrap
