import Verif.ProcessorLemmas
/-! # When CPIs go through -/

set_option linter.unusedSimpArgs false

namespace TokenWrap

theorem cpiCheck_ok {caller : List Meta} {pdas : List Pubkey} {callee : Pubkey} {metas : List Meta}
    {borrowed : List Pubkey} (h0 : ∀ m ∈ metas, m.writable = true → m.key ∉ borrowed)
    (h1 : ∃ c ∈ caller, c.key = callee) (h2 : ∀ m ∈ metas, metaAllowed caller pdas m = true) :
    cpiCheck caller pdas borrowed callee metas = .ok () := by
  unfold cpiCheck
  have e1 : (metas.all fun m => !m.writable || decide (m.key ∉ borrowed)) = true := by
    rw [List.all_eq_true]
    intro m hm
    cases hw : m.writable
    · rfl
    · simpa using h0 m hm hw
  have e2 : (caller.any fun c => decide (c.key = callee)) = true := by
    obtain ⟨c, hc, he⟩ := h1
    exact List.any_eq_true.2 ⟨c, hc, by simpa using he⟩
  have e3 : (metas.all (metaAllowed caller pdas)) = true := List.all_eq_true.2 h2
  rw [e1, e2, e3]; rfl

theorem metaAllowed_of_mem {caller : List Meta} {pdas : List Pubkey} {c m : Meta}
    (hc : c ∈ caller) (hk : c.key = m.key) (hw : m.writable = true → c.writable = true)
    (hs : m.signer = true → m.key ∈ pdas ∨ c.signer = true) : metaAllowed caller pdas m = true := by
  unfold metaAllowed
  simp only [Bool.and_eq_true, List.any_eq_true, decide_eq_true_eq, Bool.or_eq_true,
    Bool.not_eq_true']
  refine ⟨⟨⟨c, hc, hk⟩, ?_⟩, ?_⟩
  · cases hmw : m.writable
    · exact .inl rfl
    · exact .inr ⟨c, hc, hk, hw hmw⟩
  · cases hms : m.signer
    · exact .inl (.inl rfl)
    · rcases hs hms with h | h
      · exact .inr h
      · exact .inl (.inr ⟨c, hc, hk, h⟩)

theorem invokeAllocate_ok {caller : List Meta} {k : Pubkey} {space : Nat} {L : Ledger} {c : Meta}
    (h1 : ∃ c ∈ caller, c.key = systemId) (hc : c ∈ caller) (hk : c.key = k)
    (hw : c.writable = true) (hd : (L k).data = .bytes []) (ho : (L k).owner = systemId) :
    invokeAllocate caller [k] k space L = .ok (L.setData k (.bytes (List.replicate space 0))) := by
  unfold invokeAllocate
  rw [cpiCheck_ok (by simp) h1 (by
    intro m hm
    simp only [List.mem_cons, List.not_mem_nil, or_false] at hm
    subst hm
    exact metaAllowed_of_mem hc hk (fun _ => hw) (fun _ => .inl (by simp)))]
  simp [sysAllocate, hd, ho]
  rfl

theorem invokeAssign_ok {caller : List Meta} {k o : Pubkey} {L : Ledger} {c : Meta}
    (h1 : ∃ c ∈ caller, c.key = systemId) (hc : c ∈ caller) (hk : c.key = k)
    (hw : c.writable = true) (ho : (L k).owner = systemId) :
    invokeAssign caller [k] k o L = .ok (L.set k { L k with owner := o }) := by
  unfold invokeAssign
  rw [cpiCheck_ok (by simp) h1 (by
    intro m hm
    simp only [List.mem_cons, List.not_mem_nil, or_false] at hm
    subst hm
    exact metaAllowed_of_mem hc hk (fun _ => hw) (fun _ => .inl (by simp)))]
  simp only [ok_bind, sysAssign]
  by_cases h : (L k).owner = o
  · rw [if_pos h, ← h]
    exact congrArg _ (Ledger.set_self L k).symm
  · rw [if_neg h]
    simp [ho]
    rfl

/-- A CPI that asks only for write access to `k` and no signature goes through to the token
program. -/
theorem invokeToken_ok {env : Env} {caller : List Meta} {prog k : Pubkey} {ix : TokenIx} {L : Ledger}
    {c : Meta} (hp : prog = splTokenId ∨ prog = token2022Id) (h1 : ∃ c ∈ caller, c.key = prog)
    (hc : c ∈ caller) (hk : c.key = k) (hw : c.writable = true)
    (hm : ix.metas = [.rw k false]) :
    invokeToken env caller [] [] prog ix L = tokenExec env prog ix (signedBy ix.metas) L := by
  unfold invokeToken
  have : isTokenProgram prog = true := by
    rcases hp with h | h <;> simp [isTokenProgram, h]
  rw [this, cpiCheck_ok (by simp) h1 (by
    intro m hm'
    rw [hm] at hm'
    simp only [List.mem_cons, List.not_mem_nil, or_false] at hm'
    subst hm'
    exact metaAllowed_of_mem hc hk (fun _ => hw) (fun h => by simp [Meta.rw] at h))]
  rfl

/-- General form: the token program is entered when nothing borrowed is to be written and every
privilege is covered. -/
theorem invokeToken_enter {env : Env} {caller : List Meta} {pdas borrowed : List Pubkey}
    {prog : Pubkey} {ix : TokenIx} {L : Ledger}
    (hp : prog = splTokenId ∨ prog = token2022Id)
    (h0 : ∀ m ∈ ix.metas, m.writable = true → m.key ∉ borrowed)
    (h1 : ∃ c ∈ caller, c.key = prog)
    (h2 : ∀ m ∈ ix.metas, metaAllowed caller pdas m = true) :
    invokeToken env caller pdas borrowed prog ix L =
      tokenExec env prog ix (signedBy ix.metas) L := by
  unfold invokeToken
  have : isTokenProgram prog = true := by
    rcases hp with h | h <;> simp [isTokenProgram, h]
  rw [this, cpiCheck_ok h0 h1 h2]
  rfl

/-- Who may spend from an account: its owner, a delegate with allowance, or the permanent
delegate. -/
def CanSpend (t : TokenAcct) (pd : Option Pubkey) (auth : Pubkey) (amount : Nat) : Prop :=
  pd = some auth ∨ (t.delegate = some auth ∧ amount ≤ t.delegatedAmount) ∨
    (t.delegate ≠ some auth ∧ t.owner = auth)

theorem spendAuth_ok {prog : Pubkey} {L : Ledger} {t : TokenAcct} {pd : Option Pubkey}
    {auth : Pubkey} {signers : List Pubkey} {signed : Pubkey → Bool} {amount : Nat}
    (h : CanSpend t pd auth amount) (ha : AuthOk prog L auth signers signed) :
    ∃ t', spendAuth prog L t pd auth signers signed amount = .ok t' := by
  have hv : validateOwner prog L auth auth signers signed = .ok () := validateOwner_ok_iff.2 ⟨rfl, ha⟩
  unfold spendAuth
  by_cases hp : pd = some auth
  · rw [if_pos hp, hv]; exact ⟨t, rfl⟩
  · rw [if_neg hp]
    rcases h with h | ⟨h1, h2⟩ | ⟨h1, h2⟩
    · exact absurd h hp
    · rw [if_pos h1, hv]
      simp only [ok_bind, decide_eq_true h2, require_true]
      exact ⟨_, rfl⟩
    · rw [if_neg h1, h2, hv]; exact ⟨t, rfl⟩

/-- `auth` approves an instruction built for it with the given multisig members: either it is an
ordinary signer (no members given, no multisig at its address), or it is a multisig of `prog` and at
least `m` of its member positions are given. -/
def BuiltApproval (prog : Pubkey) (L : Ledger) (auth : Pubkey) (members : List Pubkey) : Prop :=
  (members = [] ∧ ∀ ms, (L auth).data ≠ .multisig ms) ∨
  (∃ ms, (L auth).owner = prog ∧ (L auth).data = .multisig ms ∧ 1 ≤ ms.m ∧
    ms.m ≤ (ms.signers.filter (· ∈ members)).length)

/-- The signer list extracted from a built instruction authorises in the CPI. -/
theorem builtApproval_auth {prog : Pubkey} {L : Ledger} {auth : Pubkey} {members : List Pubkey}
    {metas : List Meta} (hp : prog = splTokenId ∨ prog = token2022Id)
    (h : BuiltApproval prog L auth members) :
    let signers := extractMultisig L auth (members.map fun k => .ro k true)
    AuthOk prog L auth signers (signedBy (metas ++ authMetas auth signers)) ∧
    (∀ s ∈ signers, s ∈ members) ∧ (signers.isEmpty = true → members.isEmpty = true) := by
  dsimp only
  rcases h with ⟨rfl, h⟩ | ⟨ms, h1, h2, h3, h4⟩
  · have he : extractMultisig L auth [] = [] := by
      unfold extractMultisig
      split
      · split <;> rfl
      · rfl
    simp only [List.map_nil, he]
    refine ⟨?_, by simp, by simp⟩
    unfold AuthOk multisigAt
    have : ∀ x : Option Multisig, x = none →
        (match x with
          | some ms => (ms.signers.filter (· ∈ ([] : List Pubkey))).all
              (signedBy (metas ++ authMetas auth [])) = true ∧
              ms.m ≤ (ms.signers.filter (· ∈ ([] : List Pubkey))).length
          | none => signedBy (metas ++ authMetas auth []) auth = true) := by
      rintro _ rfl
      simp [signedBy, authMetas, Meta.ro]
    apply this
    split
    · split
      · rename_i ms hms; exact absurd hms (h ms)
      · rfl
    · rfl
  · have htp : isTokenProgram (L auth).owner = true := by
      rw [h1]; rcases hp with h | h <;> simp [isTokenProgram, h]
    have he : extractMultisig L auth (members.map fun k => .ro k true) =
        members.filter (· ∈ ms.signers) := by
      unfold extractMultisig
      rw [h2]
      simp only [htp, if_true, List.filter_map, List.map_map]
      rw [show ((fun m : Meta => m.key) ∘ fun k => Meta.ro k true) = id from rfl, List.map_id]
      congr 1
    rw [he]
    have hfilter : ms.signers.filter (· ∈ members.filter (· ∈ ms.signers)) =
        ms.signers.filter (· ∈ members) := by
      apply List.filter_congr
      intro x hx
      simp [hx]
    refine ⟨?_, fun s hs => (List.mem_filter.1 hs).1, ?_⟩
    · unfold AuthOk multisigAt
      rw [if_pos h1, h2]
      dsimp only
      rw [hfilter]
      refine ⟨?_, h4⟩
      rw [List.all_eq_true]
      intro x hx
      have hx' := List.mem_filter.1 hx
      simp only [signedBy, authMetas, List.any_append, List.any_cons, List.any_map, Bool.or_eq_true]
      right; right
      rw [List.any_eq_true]
      exact ⟨x, List.mem_filter.2 ⟨by simpa using hx'.2, by simpa using hx'.1⟩, by simp [Meta.ro]⟩
    · intro hemp
      cases hm : members with
      | nil => rfl
      | cons a b =>
        exfalso
        have hpos : 0 < (ms.signers.filter (· ∈ members)).length := by omega
        obtain ⟨x, hx⟩ := List.exists_mem_of_length_pos hpos
        have hx' := List.mem_filter.1 hx
        have : x ∈ members.filter (· ∈ ms.signers) :=
          List.mem_filter.2 ⟨by simpa using hx'.2, by simpa using hx'.1⟩
        rw [List.isEmpty_iff.1 hemp] at this
        cases this

end TokenWrap
