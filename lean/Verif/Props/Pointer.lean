import Verif.CreateMintLemmas
import Verif.CpiLemmas
import Verif.Examples
/-!
# C33: SetCanonicalPointer

Account order: unwrapped mint's authority, pointer, unwrapped mint, system program.
-/

set_option linter.unusedSimpArgs false

namespace TokenWrap

open TokenWrapInstruction

/-- Everything a successful SetCanonicalPointer establishes and does. `created` tells whether the
pointer account was made by this instruction. -/
structure PointerEffect (env : Env) (accounts : List Meta) (p : Pubkey) (L L' : Ledger)
    (a : PointerAccounts) (m : Mint) : Prop where
  accounts_eq : ∃ rest, accounts =
    [a.mintAuthority, a.pointer, a.unwrappedMint, a.systemProgram] ++ rest
  signer : a.mintAuthority.signer = true
  uOwner : (L a.unwrappedMint.key).owner = splTokenId ∨ (L a.unwrappedMint.key).owner = token2022Id
  uData : (L a.unwrappedMint.key).data = .mint m
  auth : m.mintAuthority = some a.mintAuthority.key
  pointer : canonicalPointerAddress env.cr a.unwrappedMint.key = some a.pointer.key
  final : (((L a.pointer.key).data = .bytes [] ∧ (L a.pointer.key).owner = systemId ∧
        env.rentMin 32 ≤ (L a.pointer.key).lamports) ∧
      L' = L.set a.pointer.key ⟨(L a.pointer.key).lamports, env.programId, .bytes p.bytes⟩) ∨
    ((L a.pointer.key).data.len = 32 ∧ (L a.pointer.key).owner = env.programId ∧
      L' = L.set a.pointer.key ⟨(L a.pointer.key).lamports, env.programId, .bytes p.bytes⟩) ∨
    ((L a.pointer.key).data = .bytes p.bytes ∧ L' = L)
  pdaEq : ∃ bump, canonicalPointerWithSeed env.cr a.unwrappedMint.key = some (a.pointer.key, bump)

theorem parsePointer_ok_iff {accounts : List Meta} {a : PointerAccounts} :
    parsePointer accounts = .ok a ↔ ∃ rest,
      accounts = [a.mintAuthority, a.pointer, a.unwrappedMint, a.systemProgram] ++ rest := by
  unfold parsePointer
  split
  · rename_i a1 a2 a3 a4 rest
    constructor
    · intro h; cases h; exact ⟨rest, rfl⟩
    · rintro ⟨r, h⟩; cases a; simp at h ⊢; obtain ⟨h1, h2, h3, h4, h5⟩ := h
      exact ⟨h1, h2, h3, h4⟩
  · rename_i hno
    constructor
    · intro h; cases h
    · rintro ⟨r, h⟩; exact absurd h (by simpa using hno _ _ _ _ _)

theorem processPointer_effect {env : Env} {accounts : List Meta} {p : Pubkey} {L L' : Ledger}
    (h : processSetCanonicalPointer env accounts p L = .ok L') :
    ∃ a m, PointerEffect env accounts p L L' a m := by
  unfold processSetCanonicalPointer at h
  inv_ok at h
  obtain ⟨a, ha, _, hs, _, ho, m, hm, ma, hma, _, rfl, ⟨ep, bump⟩, hep, h⟩ := h
  dsimp only at h
  obtain ⟨_, rfl, L1, h1, _, h32, hw⟩ := h
  simp only [Bool.or_eq_true, decide_eq_true_eq] at ho
  refine ⟨a, m, ⟨parsePointer_ok_iff.1 ha, hs, ho, hm, hma, canonicalPointerAddress_some.2 ⟨_, hep⟩,
    ?_, ⟨bump, hep⟩⟩⟩
  unfold initPointer at h1
  unfold writeOwn at hw
  simp only [has32, decide_eq_true_eq] at h32
  split at h1
  · left
    inv_ok at h1
    obtain ⟨_, hr, pda, hpda, L2, hal, has⟩ := h1
    obtain ⟨_, d1, d2, e1⟩ := invokeAllocate_inv hal
    obtain ⟨_, e2⟩ := invokeAssign_inv has
    refine ⟨⟨d1, d2, hr⟩, ?_⟩
    split at hw
    · rename_i hsame
      cases hw
      rw [e2, e1] at hsame ⊢
      simp only [Ledger.set_same, Ledger.setData_same] at hsame ⊢
      funext x
      simp only [Ledger.set_apply, Ledger.setData_apply]
      split
      · rw [hsame]
      · rfl
    · inv_ok at hw
      obtain ⟨_, _, _, _, hw⟩ := hw
      rw [← hw, e2, e1]
      funext x
      simp only [Ledger.set_apply, Ledger.setData_apply]
      split
      · simp
      · rfl
  · cases h1
    right
    split at hw
    · rename_i hsame
      cases hw
      exact .inr ⟨hsame, rfl⟩
    · left
      inv_ok at hw
      obtain ⟨_, _, _, hown, hw⟩ := hw
      refine ⟨h32, hown, ?_⟩
      rw [← hw, ← hown]
      rfl

section pointer

variable {env : Env} {L L' : Ledger} {ma ptr umint sys : Meta} {rest : List Meta} {p : Pubkey}

/-- **C33** A successful SetCanonicalPointer was signed by the unwrapped mint's current mint
authority and given the derived pointer; the pointer then holds the given program id; its lamports
and every other account are unchanged. -/
theorem pointer_set_by_mint_authority
    (h : processInstruction env ([ma, ptr, umint, sys] ++ rest) (setCanonicalPointer p).pack L =
      .ok L') :
    ma.signer = true ∧
    (∃ m, (L umint.key).data = .mint m ∧ m.mintAuthority = some ma.key) ∧
    ((L umint.key).owner = splTokenId ∨ (L umint.key).owner = token2022Id) ∧
    canonicalPointerAddress env.cr umint.key = some ptr.key ∧
    (L' ptr.key).data = .bytes p.bytes ∧ (L' ptr.key).lamports = (L ptr.key).lamports ∧
    ((L ptr.key).data = .bytes [] → (L' ptr.key).owner = env.programId) ∧
    ((L ptr.key).data ≠ .bytes [] → (L' ptr.key).owner = (L ptr.key).owner) ∧
    OnlyChanged [ptr.key] L L' := by
  rw [processInstruction_pack] at h
  obtain ⟨a, m, c⟩ := processPointer_effect h
  obtain ⟨r, ha⟩ := c.accounts_eq
  simp only [List.cons_append, List.nil_append, List.cons.injEq] at ha
  obtain ⟨rfl, rfl, rfl, rfl, rfl⟩ := ha
  refine ⟨c.signer, ⟨m, c.uData, c.auth⟩, c.uOwner, c.pointer, ?_⟩
  have hp : p.bytes ≠ [] := by
    intro hb; have := p.2; rw [show p.1 = p.bytes from rfl, hb] at this; cases this
  have only : ∀ x, OnlyChanged [a.pointer.key] L (L.set a.pointer.key x) := by
    intro x k hk
    simp only [List.mem_cons, List.not_mem_nil, or_false] at hk
    exact Ledger.set_ne _ _ hk
  rcases c.final with ⟨⟨h1, h2, _⟩, h3⟩ | ⟨h1, h2, h3⟩ | ⟨h1, h3⟩
  · rw [h3]
    exact ⟨by simp, by simp, by simp, by simp [h1], only _⟩
  · rw [h3]
    exact ⟨by simp, by simp, by simp, by simp [h2], only _⟩
  · rw [h3]
    exact ⟨h1, rfl, fun h => absurd (h1.symm.trans h) (by simpa using hp), fun _ => rfl,
      fun _ _ => rfl⟩

/-- **C33** The checks in order and their errors. -/
theorem pointer_errors {P : Pubkey} {m : Mint}
    (hP : canonicalPointerAddress env.cr umint.key = some P) :
    let result := processInstruction env ([ma, ptr, umint, sys] ++ rest)
      (setCanonicalPointer p).pack L
    (ma.signer = false → result = .error .missingRequiredSignature) ∧
    (ma.signer = true →
      ((L umint.key).owner ≠ splTokenId → (L umint.key).owner ≠ token2022Id →
        result = .error .invalidAccountOwner) ∧
      ((L umint.key).owner = splTokenId ∨ (L umint.key).owner = token2022Id →
        ((∀ m, (L umint.key).data ≠ .mint m) →
          result = .error .invalidAccountData ∨ result = .error .uninitializedAccount) ∧
        ((L umint.key).data = .mint m →
          (m.mintAuthority = none → result = .error .invalidAccountData) ∧
          (∀ k, m.mintAuthority = some k → k ≠ ma.key → result = .error .incorrectAuthority) ∧
          (m.mintAuthority = some ma.key → ptr.key ≠ P → result = .error .invalidArgument) ∧
          (m.mintAuthority = some ma.key → ptr.key = P → (L ptr.key).data.len = 0 →
            (L ptr.key).lamports < env.rentMin 32 →
            result = .error .accountNotRentExempt)))) := by
  obtain ⟨b, hP'⟩ := canonicalPointerAddress_some.1 hP
  dsimp only
  rw [processInstruction_pack]
  have hpar : parsePointer ([ma, ptr, umint, sys] ++ rest) = .ok ⟨ma, ptr, umint, sys⟩ := rfl
  simp only [dispatch, processSetCanonicalPointer, hpar, ok_bind]
  refine ⟨fun h => by simp [h], fun hs => ?_⟩
  simp only [hs, require_true, ok_bind]
  refine ⟨fun h1 h2 => by simp [h1, h2], fun ho => ?_⟩
  have ho' : (decide ((L umint.key).owner = splTokenId) ||
      decide ((L umint.key).owner = token2022Id)) = true := by simpa using ho
  simp only [ho', require_true, ok_bind]
  refine ⟨fun hn => ?_, fun hm => ?_⟩
  · have : unpackMint (L umint.key).data = .error .invalidAccountData ∨
        unpackMint (L umint.key).data = .error .uninitializedAccount := by
      exact unpackMint_error hn
    rcases this with h | h <;> rw [h]
    · exact .inl rfl
    · exact .inr rfl
  · have um : unpackMint (L umint.key).data = .ok m := by simpa using hm
    simp only [um, ok_bind]
    refine ⟨fun h => by simp [h], fun k hk hne => by simp [hk, hne], fun h hne => ?_,
      fun h he hl hr => ?_⟩
    · simp [h, hP', hne]
    · subst he
      simp only [h, okOr_some, ok_bind, decide_true, require_true, hP', initPointer, hl, if_true]
      have : decide (env.rentMin 32 ≤ (L ptr.key).lamports) = false := by simp; omega
      rw [this]; rfl

/-- **C33** Conversely, for the right authority, mint and pointer the built instruction succeeds:
the pointer is either a funded empty address or an existing pointer account. -/
theorem pointer_succeeds {u k P : Pubkey} {m : Mint} (hid : env.programId = crateId)
    (ho : (L u).owner = splTokenId ∨ (L u).owner = token2022Id) (hm : (L u).data = .mint m)
    (hk : m.mintAuthority = some k) (hP : canonicalPointerAddress env.cr u = some P)
    (hptr : ((L P).data = .bytes [] ∧ (L P).owner = systemId ∧ env.rentMin 32 ≤ (L P).lamports) ∨
      ((L P).owner = crateId ∧ ∃ q : Pubkey, (L P).data = .bytes q.bytes)) :
    processInstruction env (Build.setCanonicalPointer crateId k P u p).accounts
      (Build.setCanonicalPointer crateId k P u p).data L =
      .ok (L.set P ⟨(L P).lamports, crateId, .bytes p.bytes⟩) := by
  obtain ⟨b, hP'⟩ := canonicalPointerAddress_some.1 hP
  simp only [Build.setCanonicalPointer]
  rw [processInstruction_pack]
  generalize hacc : [Meta.ro k true, .rw P false, .ro u false, .ro systemId false] = accounts
  have hpar : parsePointer accounts = .ok ⟨.ro k true, .rw P false, .ro u false,
      .ro systemId false⟩ := by rw [← hacc]; rfl
  have ho' : (decide ((L u).owner = splTokenId) || decide ((L u).owner = token2022Id)) = true := by
    simpa using ho
  have um : unpackMint (L u).data = .ok m := by simpa using hm
  simp only [dispatch, processSetCanonicalPointer, hpar, ok_bind, Meta.ro, Meta.rw, require_true,
    ho', um, hk, okOr_some, decide_true, hP']
  have hs : signerPda env (canonicalPointerSignerSeeds u b) = .ok P := by
    rw [signerPda_ok_iff, hid]; exact findProgramAddress_spec hP'
  have h1 : ∃ c ∈ accounts, c.key = systemId :=
    ⟨.ro systemId false, by rw [← hacc]; simp, rfl⟩
  have hc : Meta.rw P false ∈ accounts := by rw [← hacc]; simp
  rcases hptr with ⟨d, o, r⟩ | ⟨o, q, d⟩
  · have hi : initPointer env accounts ⟨⟨k, true, false⟩, ⟨P, false, true⟩, ⟨u, false, false⟩,
        ⟨systemId, false, false⟩⟩ b L =
        .ok (L.set P ⟨(L P).lamports, crateId, .bytes (List.replicate 32 0)⟩) := by
      have hl : (L P).data.len = 0 := by rw [d]; rfl
      simp only [initPointer, hl, if_true, decide_eq_true r, require_true, ok_bind, hs]
      rw [invokeAllocate_ok (k := P) h1 hc rfl rfl d o, ok_bind,
        invokeAssign_ok (k := P) h1 hc rfl rfl (by simp [o])]
      congr 1
      funext x
      simp only [Ledger.set_apply, Ledger.setData_apply, hid, if_true]
      split <;> rfl
    rw [hi, ok_bind]
    have : has32 (.bytes (List.replicate 32 0)) = true := by
      simp [has32, Data.len]
    simp only [Ledger.set_same, this, require_true, ok_bind, writeOwn]
    split
    · rename_i he
      rw [← he]
    · simp only [require_true, ok_bind, hid, decide_true]
      show Except.ok _ = _
      congr 1
      funext x
      simp only [Ledger.set_apply, Ledger.setData_apply]
      split <;> simp
  · have hl : (L P).data.len = 32 := by rw [d]; exact q.2
    have hi : initPointer env accounts ⟨⟨k, true, false⟩, ⟨P, false, true⟩, ⟨u, false, false⟩,
        ⟨systemId, false, false⟩⟩ b L = .ok L := by
      simp only [initPointer, hl]; rfl
    rw [hi, ok_bind]
    simp only [has32, hl, decide_true, require_true, ok_bind, writeOwn]
    split
    · rename_i he
      congr 1
      rw [← he, ← o]
      exact (Ledger.set_self L P).symm
    · simp only [require_true, ok_bind, hid, o, decide_true]
      show Except.ok _ = _
      congr 1
      rw [← o]
      rfl

end pointer

namespace Example

/-- pointer of the unwrapped mint -/
def P : Pubkey := (canonicalPointerAddress toyCrypto u).getD default

/-- The pointer address has been funded but nothing is there yet. -/
def Lptr : Ledger := L0.set P ⟨100, systemId, .bytes []⟩

example : canonicalPointerAddress env.cr u = some P := by decide +kernel
example : ok (processInstruction env (Build.setCanonicalPointer crateId issuer P u src).accounts
    (Build.setCanonicalPointer crateId issuer P u src).data Lptr) = true := by decide +kernel
example : fails (processInstruction env (Build.setCanonicalPointer crateId user P u src).accounts
    (Build.setCanonicalPointer crateId user P u src).data Lptr) .incorrectAuthority = true := by
  decide +kernel
example : (Lptr u).owner = token2022Id ∧ (uMint [.transferFeeConfig feeCfg]).mintAuthority = some issuer ∧
    (Lptr P).data = .bytes [] ∧ env.rentMin 32 ≤ (Lptr P).lamports := by decide +kernel

end Example

end TokenWrap
