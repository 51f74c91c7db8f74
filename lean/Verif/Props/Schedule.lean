import Verif.Locality
import Verif.Props.Atomic
import Verif.Props.TwoPairs
/-!
# Locality and scheduling (C85, C86)

The cluster runs transactions in an order nobody controls, and runs transactions whose accounts do
not conflict at the same time.  What an instruction does depends only on the accounts named in it,
and it changes only those it names as writable; so transactions without conflicts do the same in
every order, and at the same time as one after the other.

`OnlySees env accounts` (Locality.lean) says of the *other* programs (token programs, Metaplex,
metadata programs) that they see only accounts of the instruction that calls them.
-/

namespace TokenWrap

section
variable {env : Env} {accounts : List Meta} {input : Bytes} {L L' M : Ledger}

/-- **C85** An instruction changes only accounts that it names as writable. -/
theorem changes_only_writable_accounts (h : processInstruction env accounts input L = .ok M)
    (k : Pubkey) (hk : ∀ m ∈ accounts, m.key = k → m.writable = false) : M k = L k := by
  refine processInstruction_wr input M h k ?_
  rintro ⟨m, hm, rfl, hw⟩
  rw [hk m hm rfl] at hw
  cases hw

/-- **C85** What an instruction does depends only on the accounts it names: on two ledgers that
agree on these, it fails with the same error or succeeds on both, and then leaves the same in every
account it names and leaves every other account alone. -/
theorem depends_only_on_named_accounts (hv : OnlySees env accounts)
    (h : ∀ m ∈ accounts, L' m.key = L m.key) :
    (∃ e, processInstruction env accounts input L = .error e ∧
      processInstruction env accounts input L' = .error e) ∨
    ∃ M M', processInstruction env accounts input L = .ok M ∧
      processInstruction env accounts input L' = .ok M' ∧
      (∀ m ∈ accounts, M' m.key = M m.key) ∧
      ∀ k, (∀ m ∈ accounts, m.key ≠ k) → M k = L k ∧ M' k = L' k := by
  have hl := processInstruction_local hv (L := L) (L' := L') (by rintro k ⟨m, hm, rfl⟩; exact h m hm)
    input
  generalize hx : processInstruction env accounts input L = x at hl
  generalize hy : processInstruction env accounts input L' = y at hl
  cases hl with
  | err e => exact .inl ⟨e, rfl, rfl⟩
  | @ok M M' hM =>
    refine .inr ⟨M, M', rfl, rfl, fun m hm => hM _ ⟨m, hm, rfl⟩, fun k hk => ⟨?_, ?_⟩⟩
    · exact changes_only_writable_accounts hx k fun m hm he => absurd he (hk m hm)
    · exact changes_only_writable_accounts hy k fun m hm he => absurd he (hk m hm)

end

/-! ## Transactions -/

/-- A transaction names an account as writable. -/
def Writes (t : List Call) (k : Pubkey) : Prop := ∃ c ∈ t, WritableIn c.accounts k

/-- A transaction names an account. -/
def Names (t : List Call) (k : Pubkey) : Prop := ∃ c ∈ t, Named c.accounts k

/-- The scheduler's rule: two transactions conflict when an account that one of them names as
writable is named by the other. -/
structure NoConflict (t t' : List Call) : Prop where
  left : ∀ k, Writes t k → ¬ Names t' k
  right : ∀ k, Writes t' k → ¬ Names t k

/-- Running transactions one after the other; a failed one leaves no trace. -/
def runAll (env : Env) : List (List Call) → Ledger → Ledger
  | [], L => L
  | t :: rest, L => runAll env rest (committed L (runCalls env t L))

/-- The other programs see only accounts of the instruction that calls them, for every instruction
of a transaction. -/
def OnlySeesTx (env : Env) (t : List Call) : Prop := ∀ c ∈ t, OnlySees env c.accounts

section
variable {env : Env} {t t' : List Call} {L L' M : Ledger}

theorem NoConflict.symm (h : NoConflict t t') : NoConflict t' t := ⟨h.right, h.left⟩

theorem WritableIn.named {accounts : List Meta} {k : Pubkey} (h : WritableIn accounts k) :
    Named accounts k := ⟨h.choose, h.choose_spec.1, h.choose_spec.2.1⟩

theorem Writes.names {k : Pubkey} (h : Writes t k) : Names t k :=
  ⟨h.choose, h.choose_spec.1, h.choose_spec.2.named⟩

theorem runCalls_frame (h : runCalls env t L = .ok M) : Frame (Writes t) L M := by
  induction t generalizing L with
  | nil => cases h; exact .refl
  | cons c rest ih =>
    obtain ⟨L1, h1, h2⟩ := bind_ok_iff.1 h
    intro k hk
    rw [ih h2 k fun ⟨c', hc', hw⟩ => hk ⟨c', .tail _ hc', hw⟩,
      processInstruction_wr _ _ h1 k fun hw => hk ⟨c, .head _, hw⟩]

theorem runCalls_local {S : Pubkey → Prop} (hv : OnlySeesTx env t) (hS : ∀ k, Names t k → S k)
    (h : Agree S L L') : Rel (Agree S) (runCalls env t L) (runCalls env t L') := by
  induction t generalizing L L' with
  | nil => exact .ok h
  | cons c rest ih =>
    unfold runCalls
    have hn : ∀ k, Named c.accounts k → S k := fun k hk => hS k ⟨c, .head _, hk⟩
    have hl := processInstruction_local (hv c (.head _)) (L := L) (L' := L')
      (fun k hk => h k (hn k hk)) c.data
    generalize hx : processInstruction env c.accounts c.data L = x at hl
    generalize hy : processInstruction env c.accounts c.data L' = y at hl
    cases hl with
    | err e => exact .err e
    | @ok M M' hM =>
      refine ih (fun c' hc' => hv c' (.tail _ hc')) (fun k ⟨c', hc', hk⟩ => hS k ⟨c', .tail _ hc', hk⟩) ?_
      intro k hk
      by_cases hw : WritableIn c.accounts k
      · exact hM k hw.named
      · rw [processInstruction_wr _ _ hx k hw, processInstruction_wr _ _ hy k hw]
        exact h k hk

theorem committed_frame : Frame (Writes t) L (committed L (runCalls env t L)) := by
  cases h : runCalls env t L with
  | error e => exact .refl
  | ok M => exact runCalls_frame h

theorem committed_local {S : Pubkey → Prop} (hv : OnlySeesTx env t) (hS : ∀ k, Names t k → S k)
    (h : Agree S L L') :
    Agree S (committed L (runCalls env t L)) (committed L' (runCalls env t L')) := by
  have hl := runCalls_local hv hS h
  generalize runCalls env t L = x at hl
  generalize runCalls env t L' = y at hl
  cases hl with
  | err e => exact h
  | ok hM => exact hM

/-- A transaction without conflicts leaves everything the other one names as it is. -/
theorem NoConflict.agree (h : NoConflict t t') :
    Agree (Names t') L (committed L (runCalls env t L)) :=
  fun k hk => committed_frame k fun hw => h.left k hw hk

/-- **C86** Transactions without conflicts do not affect one another's outcome: after the other one,
succeeded or not, a transaction fails with an error if and only if it would have without it. -/
theorem outcome_unaffected (hv : OnlySeesTx env t) (h : NoConflict t t') (e : Err) :
    runCalls env t (committed L (runCalls env t' L)) = .error e ↔ runCalls env t L = .error e := by
  have hl := runCalls_local hv (fun k hk => hk) (h.symm.agree (env := env) (L := L))
  generalize runCalls env t L = x at hl
  generalize runCalls env t (committed L (runCalls env t' L)) = y at hl
  cases hl with
  | err e => rfl
  | ok _ => simp

/-- **C86** Two transactions without conflicts leave the same ledger in either order. -/
theorem transactions_commute (hv : OnlySeesTx env t) (hv' : OnlySeesTx env t')
    (h : NoConflict t t') : runAll env [t, t'] L = runAll env [t', t] L := by
  funext k
  simp only [runAll]
  have e1 := committed_local hv (fun k hk => hk) (h.symm.agree (env := env) (L := L))
  have e2 := committed_local hv' (fun k hk => hk) (h.agree (env := env) (L := L))
  by_cases hw : Writes t k
  · rw [committed_frame (t := t') k fun hw' => h.left k hw hw'.names]
    exact (e1 k hw.names).symm
  · rw [committed_frame (t := t) (L := committed L (runCalls env t' L)) k hw]
    by_cases hw' : Writes t' k
    · exact e2 k hw'.names
    · rw [committed_frame (t := t') k hw', committed_frame (t := t) k hw,
        committed_frame (t := t') k hw']

theorem runAll_frame {txs : List (List Call)} {k : Pubkey} (h : ∀ t ∈ txs, ¬ Writes t k) :
    runAll env txs L k = L k := by
  induction txs generalizing L with
  | nil => rfl
  | cons t rest ih =>
    rw [runAll, ih fun t' ht' => h t' (.tail _ ht')]
    exact committed_frame k (h t (.head _))

theorem runAll_agree {txs : List (List Call)} (h : ∀ t' ∈ txs, NoConflict t' t) :
    Agree (Names t) L (runAll env txs L) :=
  fun k hk => runAll_frame fun t' ht' hw => (h t' ht').left k hw hk

/-- **C86** Transactions without conflicts can run at the same time: after running a batch of them
one after the other, each account that one of them names as writable is as if that transaction had
run alone, directly on the ledger before the batch, and every other account is as before. -/
theorem parallel_eq_sequential {txs : List (List Call)} (hv : ∀ t ∈ txs, OnlySeesTx env t)
    (hp : txs.Pairwise NoConflict) (L : Ledger) :
    (∀ t ∈ txs, ∀ k, Writes t k → runAll env txs L k = committed L (runCalls env t L) k) ∧
    ∀ k, (∀ t ∈ txs, ¬ Writes t k) → runAll env txs L k = L k := by
  refine ⟨?_, fun k hk => runAll_frame hk⟩
  induction txs generalizing L with
  | nil => intro t ht; cases ht
  | cons t rest ih =>
    obtain ⟨h1, h2⟩ := List.pairwise_cons.1 hp
    intro t' ht' k hk
    rw [runAll]
    rcases List.mem_cons.1 ht' with rfl | ht'
    · exact runAll_frame fun t'' ht'' hw => (h1 t'' ht'').right k hw hk.names
    · rw [ih (fun x hx => hv x (.tail _ hx)) h2 _ t' ht' k hk]
      exact committed_local (hv t' (.tail _ ht')) (fun _ h => h) ((h1 t' ht').agree) k hk.names

/-- **C86** ... and each of them has the outcome it would have had alone. -/
theorem batch_outcome {before : List (List Call)} (hv : OnlySeesTx env t)
    (h : ∀ t' ∈ before, NoConflict t' t) (e : Err) :
    runCalls env t (runAll env before L) = .error e ↔ runCalls env t L = .error e := by
  have hl := runCalls_local hv (fun k hk => hk) (runAll_agree (env := env) (L := L) h)
  generalize runCalls env t L = x at hl
  generalize runCalls env t (runAll env before L) = y at hl
  cases hl with
  | err e => rfl
  | ok _ => simp

/-- **C86** The order in which transactions without conflicts run does not matter. -/
theorem schedule_irrelevant {txs txs' : List (List Call)} (hv : ∀ t ∈ txs, OnlySeesTx env t)
    (hp : txs.Pairwise NoConflict) (ho : txs.Perm txs') (L : Ledger) :
    runAll env txs L = runAll env txs' L := by
  have hp' : txs'.Pairwise NoConflict := ho.pairwise hp fun h => h.symm
  have a := parallel_eq_sequential hv hp L
  have b := parallel_eq_sequential (fun t ht => hv t (ho.mem_iff.2 ht)) hp' L
  funext k
  by_cases h : ∃ t ∈ txs, Writes t k
  · obtain ⟨t, ht, hw⟩ := h
    rw [a.1 t ht k hw, b.1 t (ho.mem_iff.1 ht) k hw]
  · rw [a.2 k fun t ht hw => h ⟨t, ht, hw⟩,
      b.2 k fun t ht hw => h ⟨t, ho.mem_iff.2 ht, hw⟩]

end

/-! ## A concrete batch -/

namespace Example.Hist.Two.Batch

open TokenWrapInstruction

/-- Wrap for the first pair, in a transaction of its own ... -/
def t1 : List Call := [⟨wrapAccs, (wrap 1000).pack⟩]
/-- ... a metadata sync for the second pair ... -/
def t2 : List Call := [⟨syncAccs2, syncMetadataToSplToken.pack⟩]
/-- ... and an attempt of a stranger to set the canonical pointer. -/
def t3 : List Call := [⟨(Build.setCanonicalPointer crateId (.lit 66) (.lit 67) u splTokenId).accounts,
  (setCanonicalPointer splTokenId).pack⟩]

/-- Decidable form of `NoConflict`. -/
theorem noConflict_of {t t' : List Call}
    (h : ∀ c ∈ t, ∀ m ∈ c.accounts, ∀ c' ∈ t', ∀ m' ∈ c'.accounts, m'.key = m.key →
      m.writable = false ∧ m'.writable = false) : NoConflict t t' where
  left := by
    rintro k ⟨c, hc, m, hm, rfl, hw⟩ ⟨c', hc', m', hm', he⟩
    rw [(h c hc m hm c' hc' m' hm' he).1] at hw
    cases hw
  right := by
    rintro k ⟨c', hc', m', hm', rfl, hw⟩ ⟨c, hc, m, hm, he⟩
    rw [(h c hc m hm c' hc' m' hm' he.symm).2] at hw
    cases hw

theorem sees (accounts : List Meta) : OnlySees env accounts :=
  ⟨fun _ _ _ _ _ _ => rfl, fun _ _ _ _ _ _ => rfl, fun _ _ _ _ _ => rfl⟩

theorem noConflict : [t1, t2, t3].Pairwise NoConflict := by
  refine .cons ?_ (.cons ?_ (.cons ?_ .nil))
  · intro t ht
    rcases List.mem_cons.1 ht with rfl | ht
    · exact noConflict_of (by decide +kernel)
    · cases List.mem_singleton.1 ht
      exact noConflict_of (by decide +kernel)
  · intro t ht
    cases List.mem_singleton.1 ht
    exact noConflict_of (by decide +kernel)
  · intro t ht; cases ht

-- the three share the unwrapped mint; the first two go through, the third fails
example : Names t1 u ∧ Names t2 u ∧ Names t3 u :=
  ⟨⟨_, .head _, .ro u false, by decide +kernel, rfl⟩, ⟨_, .head _, .ro u false, by decide +kernel, rfl⟩,
    ⟨_, .head _, .ro u false, by decide +kernel, rfl⟩⟩
example : ok (runCalls env t1 L12) = true ∧ ok (runCalls env t2 L12) = true ∧
    ok (runCalls env t3 L12) = false := by decide +kernel

-- so they can be run in any order
example : runAll env [t1, t2, t3] L12 = runAll env [t3, t2, t1] L12 :=
  schedule_irrelevant (fun _ _ _ _ => sees _) noConflict (List.reverse_perm [t1, t2, t3]).symm _

-- ... and the wrap has its effect
example : balanceOf (runAll env [t3, t2, t1] L12) rcp = balanceOf L12 rcp + 1000 := by decide +kernel

-- conflicting transactions do not commute: two wraps that together exceed the source's balance
example : ok (runCalls env [⟨wrapAccs, (wrap 2600).pack⟩] L12) = true ∧
    balanceOf (runAll env [[⟨wrapAccs, (wrap 2600).pack⟩], [⟨wrapAccs, (wrap 1000).pack⟩]] L12) rcp ≠
    balanceOf (runAll env [[⟨wrapAccs, (wrap 1000).pack⟩], [⟨wrapAccs, (wrap 2600).pack⟩]] L12) rcp := by
  decide +kernel

-- a ledger that differs only in an account not named: same outcome
example : ∃ M M', processInstruction env wrapAccs (wrap 1000).pack L12 = .ok M ∧
    processInstruction env wrapAccs (wrap 1000).pack (L12.setLamports rcp2 7) = .ok M' ∧
    M rcp2 ≠ M' rcp2 ∧ M' rcp = M rcp := by
  rcases depends_only_on_named_accounts (env := env) (accounts := wrapAccs) (input := (wrap 1000).pack)
    (L := L12) (L' := L12.setLamports rcp2 7) (sees _)
    (fun m hm => Ledger.setLamports_ne _ _ (by revert m; decide +kernel)) with
    ⟨e, he, _⟩ | ⟨M, M', h, h', ha, hf⟩
  · have : ok (processInstruction env wrapAccs (wrap 1000).pack L12) = true := by decide +kernel
    rw [he] at this; cases this
  · refine ⟨M, M', h, h', ?_, ha (.rw rcp false) (by decide +kernel)⟩
    obtain ⟨f1, f2⟩ := hf rcp2 (by decide +kernel)
    rw [f1, f2]
    decide +kernel

end Example.Hist.Two.Batch

end TokenWrap
