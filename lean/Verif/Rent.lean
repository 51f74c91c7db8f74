import Verif.Props.Atomic
/-!
# The runtime's rent rule

After the last instruction of a transaction the runtime compares every writable account with what it
was before the transaction and refuses the whole transaction if an account that exists would no longer
be rent exempt.  The instruction documentation relies on it: "The client is responsible for funding the
wrapped mint account with enough lamports to cover the rent for the additional space"
(/repo/program/src/instruction.rs:124-127, /repo/README.md:74, 82).  The program itself checks rent
only when it creates accounts (/repo/program/src/processor.rs:128-136, 175-183, 851-862).

The rule is the Agave runtime's `RentState` / `transition_allowed` (external, trusted).
-/

namespace TokenWrap

/-- What the runtime distinguishes. -/
inductive RentState
  /-- the account does not exist (no lamports) -/
  | uninitialized
  /-- it has lamports, but fewer than its size asks for -/
  | rentPaying (size lamports : Nat)
  | rentExempt
deriving DecidableEq, Repr

/-- `RentState::from_account`. -/
def rentStateOf (env : Env) (a : Account) : RentState :=
  if a.lamports = 0 then .uninitialized
  else if env.rentMin a.data.len ≤ a.lamports then .rentExempt
  else .rentPaying a.data.len a.lamports

/-- `RentState::transition_allowed(pre, post)`: an account may end a transaction below the minimum only
if it was below it before, has the same size and was not credited. -/
def rentTransition : RentState → RentState → Bool
  | _, .uninitialized => true
  | _, .rentExempt => true
  | .rentPaying size lamports, .rentPaying size' lamports' => size' = size && lamports' ≤ lamports
  | _, .rentPaying .. => false

/-- The runtime's check of one account. -/
def RentOkAt (env : Env) (L L' : Ledger) (k : Pubkey) : Prop :=
  rentTransition (rentStateOf env (L k)) (rentStateOf env (L' k)) = true

/-- The runtime accepts the accounts at the end of a transaction that led from `L` to `L'`
(`check_rent_state`, which does not look at the incinerator).  Accounts that are not writable did not
change, so the rule may be stated for all of them. -/
def RentOk (env : Env) (L L' : Ledger) : Prop := ∀ k, k ≠ incineratorId → RentOkAt env L L' k

open Classical in
/-- What is left of a transaction of Token Wrap instructions, with the rent rule at the end. -/
noncomputable def settle (env : Env) (cs : List Call) (L : Ledger) : Ledger :=
  if RentOk env L (committed L (runCalls env cs L)) then committed L (runCalls env cs L) else L

/-- The account holds at least the minimum for its size. -/
def RentExempt (env : Env) (a : Account) : Prop := env.rentMin a.data.len ≤ a.lamports

/-! ## The rule -/

section
variable {env : Env} {L L' L2 : Ledger} {k : Pubkey}

theorem rentTransition_refl (r : RentState) : rentTransition r r = true := by
  cases r <;> simp [rentTransition]

theorem rentTransition_trans {a b c : RentState} (h1 : rentTransition a b = true)
    (h2 : rentTransition b c = true) : rentTransition a c = true := by
  cases a <;> cases b <;> cases c <;> simp_all [rentTransition] <;> omega

theorem rentOk_refl (env : Env) (L : Ledger) : RentOk env L L := fun _ _ => rentTransition_refl _

/-- Transactions that respect the rule one by one respect it together. -/
theorem rentOk_trans (h1 : RentOk env L L') (h2 : RentOk env L' L2) : RentOk env L L2 :=
  fun k hk => rentTransition_trans (h1 k hk) (h2 k hk)

/-- An account that ends up with the minimum, or without lamports, is fine whatever it was. -/
theorem rentOkAt_of_post (h : (L' k).lamports = 0 ∨ RentExempt env (L' k)) : RentOkAt env L L' k := by
  unfold RentOkAt
  have : rentStateOf env (L' k) = .uninitialized ∨ rentStateOf env (L' k) = .rentExempt := by
    unfold rentStateOf
    rcases h with h | h
    · rw [if_pos h]; exact .inl rfl
    · split
      · exact .inl rfl
      · rw [if_pos (by exact h)]; exact .inr rfl
  rcases this with h | h <;> rw [h] <;> cases rentStateOf env (L k) <;> rfl

/-- An account of unchanged size and lamports is fine. -/
theorem rentOkAt_of_same (h1 : (L' k).lamports = (L k).lamports)
    (h2 : (L' k).data.len = (L k).data.len) : RentOkAt env L L' k := by
  unfold RentOkAt
  have : rentStateOf env (L' k) = rentStateOf env (L k) := by
    unfold rentStateOf; rw [h1, h2]
  rw [this]
  exact rentTransition_refl _

/-- For an account that is rent exempt before, the rule says exactly that it is so afterwards or gone. -/
theorem rentOkAt_iff_of_exempt (h : RentExempt env (L k)) :
    RentOkAt env L L' k ↔ (L' k).lamports = 0 ∨ RentExempt env (L' k) := by
  refine ⟨fun hr => ?_, rentOkAt_of_post⟩
  unfold RentOkAt at hr
  have hs : rentStateOf env (L k) = .uninitialized ∨ rentStateOf env (L k) = .rentExempt := by
    unfold rentStateOf
    split
    · exact .inl rfl
    · rw [if_pos (by exact h)]; exact .inr rfl
  by_cases h0 : (L' k).lamports = 0
  · exact .inl h0
  · right
    by_cases he : RentExempt env (L' k)
    · exact he
    · have hp : rentStateOf env (L' k) = .rentPaying (L' k).data.len (L' k).lamports := by
        unfold rentStateOf
        rw [if_neg h0, if_neg (by exact he)]
      rw [hp] at hr
      rcases hs with hs | hs <;> rw [hs] at hr <;> cases hr

/-- The same for an account that has no lamports before. -/
theorem rentOkAt_iff_of_new (h : (L k).lamports = 0) :
    RentOkAt env L L' k ↔ (L' k).lamports = 0 ∨ RentExempt env (L' k) := by
  refine ⟨fun hr => ?_, rentOkAt_of_post⟩
  unfold RentOkAt at hr
  have hs : rentStateOf env (L k) = .uninitialized := by unfold rentStateOf; rw [if_pos h]
  by_cases h0 : (L' k).lamports = 0
  · exact .inl h0
  · right
    by_cases he : RentExempt env (L' k)
    · exact he
    · have hp : rentStateOf env (L' k) = .rentPaying (L' k).data.len (L' k).lamports := by
        unfold rentStateOf
        rw [if_neg h0, if_neg (by exact he)]
      rw [hp, hs] at hr
      cases hr

/-- The rule in full: the account is gone, or rent exempt, or was below the minimum before, kept its size
and was not credited. -/
theorem rentOkAt_iff :
    RentOkAt env L L' k ↔ (L' k).lamports = 0 ∨ RentExempt env (L' k) ∨
      ((L k).lamports ≠ 0 ∧ ¬ RentExempt env (L k) ∧ (L' k).data.len = (L k).data.len ∧
        (L' k).lamports ≤ (L k).lamports) := by
  by_cases h0 : (L' k).lamports = 0
  · exact iff_of_true (rentOkAt_of_post (.inl h0)) (.inl h0)
  by_cases he : RentExempt env (L' k)
  · exact iff_of_true (rentOkAt_of_post (.inr he)) (.inr (.inl he))
  have hp : rentStateOf env (L' k) = .rentPaying (L' k).data.len (L' k).lamports := by
    unfold rentStateOf
    rw [if_neg h0, if_neg (by exact he)]
  unfold RentOkAt
  rw [hp]
  by_cases h1 : (L k).lamports = 0
  · have : rentStateOf env (L k) = .uninitialized := by unfold rentStateOf; rw [if_pos h1]
    rw [this]
    simp [rentTransition, h0, he, h1]
  · by_cases h2 : RentExempt env (L k)
    · have : rentStateOf env (L k) = .rentExempt := by
        unfold rentStateOf; rw [if_neg h1, if_pos (by exact h2)]
      rw [this]
      simp [rentTransition, h0, he, h2]
    · have : rentStateOf env (L k) = .rentPaying (L k).data.len (L k).lamports := by
        unfold rentStateOf; rw [if_neg h1, if_neg (by exact h2)]
      rw [this]
      simp [rentTransition, h0, he, h1, h2]

/-- Nothing that exists loses its rent exemption: an exempt account is exempt or gone afterwards. -/
theorem RentOk.exempt (h : RentOk env L L') (hk : k ≠ incineratorId) (he : RentExempt env (L k)) :
    (L' k).lamports = 0 ∨ RentExempt env (L' k) :=
  (rentOkAt_iff_of_exempt he).1 (h k hk)

end

end TokenWrap
