import Mathlib.Algebra.BigOperators.Group.Finset.Basic
import Mathlib.Algebra.Order.BigOperators.Group.Finset
import Verif.Props.Schedule
import Verif.Props.CreateMint
import Verif.Props.CliJourney
/-!
# C98: lamports are neither created nor destroyed

The runtime refuses an instruction that changes the total number of lamports; this file shows that no
Token Wrap instruction, and no transaction of the clients, needs to be refused for that.
-/

namespace TokenWrap

open TokenWrapInstruction
open scoped BigOperators

/-- Spec: the total of the lamports in the accounts of `S`. -/
def lamportsIn (L : Ledger) (S : Finset Pubkey) : Nat := ∑ k ∈ S, (L k).lamports

/-- Spec: finitely many accounts changed their lamports, and every collection of accounts that includes
them has the same total before and after. -/
def LamportsConserved (L L' : Ledger) : Prop :=
  (∃ S : Finset Pubkey, ∀ k, k ∉ S → (L' k).lamports = (L k).lamports) ∧
  ∀ S : Finset Pubkey, (∀ k, k ∉ S → (L' k).lamports = (L k).lamports) →
    lamportsIn L' S = lamportsIn L S

section
variable {env : Env} {L L1 L' : Ledger}

/-- One collection is enough. -/
theorem conserved_of {S : Finset Pubkey} (h1 : ∀ k, k ∉ S → (L' k).lamports = (L k).lamports)
    (h2 : lamportsIn L' S = lamportsIn L S) : LamportsConserved L L' := by
  refine ⟨⟨S, h1⟩, fun T hT => ?_⟩
  have key : ∀ U : Finset Pubkey, (∀ k, k ∉ U → (L' k).lamports = (L k).lamports) →
      (lamportsIn L' (U ∪ S ∪ T) = lamportsIn L (U ∪ S ∪ T) ↔ lamportsIn L' U = lamportsIn L U) := by
    intro U hU
    have hsub : U ⊆ U ∪ S ∪ T := fun k hk => Finset.mem_union_left _ (Finset.mem_union_left _ hk)
    unfold lamportsIn
    rw [← Finset.sum_sdiff hsub, ← Finset.sum_sdiff hsub (f := fun k => (L k).lamports)]
    have : ∑ k ∈ (U ∪ S ∪ T) \ U, (L' k).lamports = ∑ k ∈ (U ∪ S ∪ T) \ U, (L k).lamports :=
      Finset.sum_congr rfl fun k hk => hU k (Finset.mem_sdiff.1 hk).2
    rw [this]
    exact ⟨Nat.add_left_cancel, fun h => by rw [h]⟩
  have hS := (key S h1).2 h2
  have hT' := key T hT
  have e : T ∪ S ∪ T = S ∪ S ∪ T := by
    ext k; simp only [Finset.mem_union]; tauto
  rw [e] at hT'
  exact hT'.1 hS

theorem conserved_of_same (h : ∀ k, (L' k).lamports = (L k).lamports) : LamportsConserved L L' :=
  conserved_of (S := ∅) (fun k _ => h k) rfl

theorem conserved_refl (L : Ledger) : LamportsConserved L L := conserved_of_same fun _ => rfl

theorem conserved_trans (h1 : LamportsConserved L L1) (h2 : LamportsConserved L1 L') :
    LamportsConserved L L' := by
  obtain ⟨⟨S, hS⟩, f1⟩ := h1
  obtain ⟨⟨T, hT⟩, f2⟩ := h2
  refine conserved_of (S := S ∪ T) (fun k hk => ?_) ?_
  · rw [Finset.mem_union, not_or] at hk
    rw [hT k hk.2, hS k hk.1]
  · rw [f2 _ fun k hk => hT k fun h => hk (Finset.mem_union_right _ h),
      f1 _ fun k hk => hS k fun h => hk (Finset.mem_union_left _ h)]

/-- A payment from one account to another. -/
theorem conserved_move {a b : Pubkey} {n : Nat} (hne : a ≠ b) (hn : n ≤ (L a).lamports)
    (h1 : (L' a).lamports = (L a).lamports - n) (h2 : (L' b).lamports = (L b).lamports + n)
    (h3 : ∀ k, k ≠ a → k ≠ b → (L' k).lamports = (L k).lamports) : LamportsConserved L L' := by
  refine conserved_of (S := {a, b}) (fun k hk => ?_) ?_
  · simp only [Finset.mem_insert, Finset.mem_singleton, not_or] at hk
    exact h3 k hk.1 hk.2
  · unfold lamportsIn
    rw [Finset.sum_pair hne, Finset.sum_pair hne, h1, h2]
    omega

theorem conserved_setData (L : Ledger) (k : Pubkey) (d : Data) : LamportsConserved L (L.setData k d) :=
  conserved_of_same fun x => by rw [Ledger.setData_apply]; split <;> simp_all

theorem conserved_set {k : Pubkey} {a : Account} (h : a.lamports = (L k).lamports) :
    LamportsConserved L (L.set k a) :=
  conserved_of_same fun x => by rw [Ledger.set_apply]; split <;> simp_all

theorem transferred_conserved {src dst : Pubkey} {s d : TokenAcct} {n fee : Nat}
    (h : Transferred L L1 src dst s d n fee) : LamportsConserved L L1 := by
  rcases h with ⟨_, rfl⟩ | ⟨hne, h⟩
  · exact conserved_refl _
  · obtain ⟨_, _, _, _, _, _, _, e3, e4⟩ := transferMove_inv hne h
    by_cases hn : s.isNative = none
    · obtain ⟨m1, m2⟩ := e4 hn
      refine conserved_of_same fun k => ?_
      by_cases k1 : k = src
      · subst k1; exact m1
      · by_cases k2 : k = dst
        · subst k2; exact m2
        · rw [e3 k k1 k2]
    · obtain ⟨m0, m1, m2⟩ := transferMove_native hne h hn
      exact conserved_move hne m0 m1 m2 fun k k1 k2 => by rw [e3 k k1 k2]

/-! ## Token Wrap -/

theorem createMint_conserved {accounts : List Meta} {idem : Bool} (c : Shipped)
    (h : processCreateMint env c.model accounts idem L = .ok L') : LamportsConserved L L' := by
  obtain ⟨a, ctx, _⟩ := processCreateMint_inv h
  obtain ⟨r, ha⟩ := ctx.accounts_eq
  rw [ha] at h
  obtain ⟨_, ⟨_, rfl, _⟩ | ⟨mb, bb, L1, _, _, h1, h2⟩⟩ := createMint_cases h
  · exact conserved_refl _
  · obtain ⟨m, A, space, i1, i2, i3, i4, i5, _, _, i8, _, _, i11⟩ := createMint_fresh c.spec h1 h2
    dsimp only at i8 i11
    rw [i11]
    refine conserved_trans (conserved_set (k := a.wrappedMint.key) (by exact rfl)) (conserved_set ?_)
    rw [Ledger.set_ne _ _ (Ne.symm i8)]

theorem dispatch_conserved {accounts : List Meta} {ix : TokenWrapInstruction}
    (h : dispatch env accounts L ix = .ok L') : LamportsConserved L L' := by
  cases ix with
  | createMint idem => exact createMint_conserved .default h
  | wrap amount =>
    obtain ⟨a, m, w, s, d, s', r, L1, e⟩ := processWrap_effect h
    rw [e.final]
    exact conserved_trans (transferred_conserved e.tr.moved)
      (conserved_trans (conserved_setData _ _ _) (conserved_setData _ _ _))
  | unwrap amount =>
    obtain ⟨a, m, w, t, t', e, e', d, fee, L1, ef⟩ := processUnwrap_effect h
    refine conserved_trans ?_ (transferred_conserved ef.moved)
    rw [ef.mid]
    exact conserved_trans (conserved_setData _ _ _) (conserved_setData _ _ _)
  | closeStuckEscrow =>
    obtain ⟨a, t, m, pda, e⟩ := processClose_effect h
    rw [e.final]
    refine conserved_move (n := (L a.escrow.key).lamports) e.ne (Nat.le_refl _) ?_ ?_ ?_
    · rw [closeOut_same, Nat.sub_self]; rfl
    · rw [closeOut_dst L e.ne]
    · intro k k1 k2; rw [closeOut_other L k1 k2]
  | syncMetadataToToken2022 =>
    obtain ⟨a, src, m, m', e⟩ := processSync22_effect h
    rw [e.final]
    exact conserved_setData _ _ _
  | syncMetadataToSplToken =>
    obtain ⟨a, src, d, e⟩ := processSyncSpl_effect h
    rcases e.run with ⟨_, hr⟩ | ⟨_, hr⟩
    · obtain ⟨_, _, _, _, _, _, _, _, h9, h10⟩ := mplCreate_inv hr
      rw [h10]
      by_cases hAX : a.authority.key = a.metaplexMetadata.key
      · refine conserved_of_same fun k => ?_
        rw [Ledger.set_apply]
        split
        · rename_i hk
          subst hk
          rw [← hAX, Ledger.setLamports_same]
          have := h9.2
          rw [← hAX] at this
          dsimp only
          omega
        · rename_i hk
          rw [hAX, Ledger.setLamports_ne _ _ hk]
      · refine conserved_move hAX h9.2 ?_ ?_ ?_
        · rw [Ledger.set_ne _ _ hAX, Ledger.setLamports_same]
        · rw [Ledger.set_same, Ledger.setLamports_ne _ _ (Ne.symm hAX)]
        · intro k k1 k2
          rw [Ledger.set_ne _ _ k2, Ledger.setLamports_ne _ _ k1]
    · obtain ⟨_, md, h2, _, _, _, _, h7⟩ := mplUpdate_inv hr
      rw [h7]
      exact conserved_setData _ _ _
  | setCanonicalPointer p =>
    obtain ⟨a, m, e⟩ := processPointer_effect h
    rcases e.final with ⟨_, h4⟩ | ⟨_, _, h4⟩ | ⟨_, rfl⟩
    · rw [h4]; exact conserved_set rfl
    · rw [h4]; exact conserved_set rfl
    · exact conserved_refl _

/-- **C98** No Token Wrap instruction creates or destroys lamports. -/
theorem lamports_conserved {accounts : List Meta} {input : Bytes}
    (h : processInstruction env accounts input L = .ok L') : LamportsConserved L L' := by
  obtain ⟨ix, _, h⟩ := processInstruction_ok h
  exact dispatch_conserved h

/-- **C98** In terms of the instruction alone: the accounts it names, each counted once, hold the same
number of lamports together before and after. -/
theorem lamports_conserved_named {accounts : List Meta} {input : Bytes}
    (h : processInstruction env accounts input L = .ok L') :
    lamportsIn L' (accounts.map (·.key)).toFinset = lamportsIn L (accounts.map (·.key)).toFinset := by
  refine (lamports_conserved h).2 _ fun k hk => ?_
  rw [changes_only_writable_accounts h k]
  intro m hm he
  exact absurd (List.mem_toFinset.2 (List.mem_map.2 ⟨m, hm, he⟩)) hk

/-! ## Client transactions -/

theorem sysTransfer_conserved {src dst : Pubkey} {n : Nat} (h : sysTransfer src dst n L = .ok L') :
    LamportsConserved L L' := by
  unfold sysTransfer at h
  simp only [bind_ok_iff, require_ok_iff, pure_ok_iff, decide_eq_true_eq] at h
  obtain ⟨_, _, _, hn, rfl⟩ := h
  by_cases hne : src = dst
  · subst hne
    refine conserved_of_same fun k => ?_
    rw [Ledger.setLamports_same, Ledger.setLamports_apply]
    split
    · rename_i hk; subst hk; dsimp only; omega
    · rename_i hk; rw [Ledger.setLamports_ne _ _ hk]
  · refine conserved_move hne hn ?_ ?_ ?_
    · rw [Ledger.setLamports_ne _ _ hne, Ledger.setLamports_same]
    · rw [Ledger.setLamports_same, Ledger.setLamports_ne _ _ (Ne.symm hne)]
    · intro k k1 k2
      rw [Ledger.setLamports_ne _ _ k2, Ledger.setLamports_ne _ _ k1]

/-- The payer of an associated token account is not that account (it signs, and the address has no key
pair). -/
def PayersAreOthers (env : Env) (ixs : List ClientIx) : Prop :=
  ∀ payer wallet mint prog, ClientIx.createAta payer wallet mint prog ∈ ixs →
    associatedTokenAddress env.cr wallet mint prog ≠ some payer

theorem ataCreatePaid_conserved {payer wallet mint prog : Pubkey}
    (hp : associatedTokenAddress env.cr wallet mint prog ≠ some payer)
    (h : ataCreatePaid env payer wallet mint prog L = .ok L') : LamportsConserved L L' := by
  unfold ataCreatePaid at h
  obtain ⟨k, hk, h⟩ := bind_ok_iff.1 h
  rw [okOr_ok_iff] at hk
  have hne : payer ≠ k := fun e => hp (by rw [hk, e])
  dsimp only at h
  have key : ∀ {Lf : Ledger}, LamportsConserved L Lf → env.rentMin (ataLen prog mint Lf) ≤ (Lf k).lamports →
      ataCreate env wallet mint prog Lf = .ok L' → LamportsConserved L L' := by
    intro Lf hc hl hr
    obtain ⟨k', m, _, hk', _, _, _, _, _, _, rfl⟩ := ataCreate_inv hr
    cases hk.symm.trans hk'
    exact conserved_trans hc (conserved_set (by dsimp only; omega))
  split at h
  · rename_i h0
    obtain ⟨Lf, h1, h2⟩ := bind_ok_iff.1 h
    rw [pure_ok_iff] at h1
    subst h1
    exact key (conserved_refl _) (by omega) h2
  · obtain ⟨Lf, h1, h2⟩ := bind_ok_iff.1 h
    refine key (sysTransfer_conserved h1) ?_ h2
    unfold sysTransfer at h1
    simp only [bind_ok_iff, require_ok_iff, pure_ok_iff] at h1
    obtain ⟨_, _, _, _, rfl⟩ := h1
    have e1 : ataLen prog mint ((L.setLamports payer ((L payer).lamports -
        (env.rentMin (ataLen prog mint L) - (L k).lamports))).setLamports k
        ((L.setLamports payer ((L payer).lamports - (env.rentMin (ataLen prog mint L) -
        (L k).lamports)) k).lamports + (env.rentMin (ataLen prog mint L) - (L k).lamports))) =
        ataLen prog mint L := by
      unfold ataLen
      have : ∀ x, (((L.setLamports payer ((L payer).lamports -
        (env.rentMin (ataLen prog mint L) - (L k).lamports))).setLamports k
        ((L.setLamports payer ((L payer).lamports - (env.rentMin (ataLen prog mint L) -
        (L k).lamports)) k).lamports + (env.rentMin (ataLen prog mint L) - (L k).lamports))) x).data =
          (L x).data := by
        intro x
        rw [Ledger.setLamports_apply]
        split
        · rename_i hx; subst hx; rw [Ledger.setLamports_ne _ _ (Ne.symm hne)]
        · rw [Ledger.setLamports_apply]; split
          · rename_i hx; subst hx; rfl
          · rfl
      unfold ataLen at this
      rw [this]
    rw [e1, Ledger.setLamports_same, Ledger.setLamports_ne _ _ (Ne.symm hne)]
    dsimp only
    omega

/-- **C98** No transaction of the clients - payments, creations of associated token accounts, Token
Wrap instructions - creates or destroys lamports (transaction fees are not modelled). -/
theorem client_lamports_conserved : ∀ {ixs : List ClientIx} {L : Ledger}, PayersAreOthers env ixs →
    runClient env ixs L = .ok L' → LamportsConserved L L'
  | [], L, _, h => by cases h; exact conserved_refl _
  | ix :: ixs, L, hp, h => by
    simp only [runClient] at h
    obtain ⟨L1, h1, h2⟩ := bind_ok_iff.1 h
    refine conserved_trans ?_ (client_lamports_conserved
      (fun a b c d hm => hp a b c d (List.mem_cons_of_mem _ hm)) h2)
    cases ix with
    | transfer s d n => exact sysTransfer_conserved h1
    | call ix => exact lamports_conserved h1
    | createAta p w m g => exact ataCreatePaid_conserved (hp _ _ _ _ (List.mem_cons_self ..)) h1

end

/-! ## Examples -/

namespace Example.Lamports

open Example

-- closing a stuck escrow: 270 lamports of escrow and destination, before and after
example : LamportsConserved Lstuck (get (processInstruction env
    (Build.closeStuckEscrow crateId E user u W A).accounts
    (Build.closeStuckEscrow crateId E user u W A).data Lstuck)) :=
  lamports_conserved (get_eq (by decide +kernel))
example : (Lstuck E).lamports ≠ 0 ∧ (get (processInstruction env
    (Build.closeStuckEscrow crateId E user u W A).accounts
    (Build.closeStuckEscrow crateId E user u W A).data Lstuck) E).lamports = 0 := by decide +kernel

/-- A payer with 1000 lamports creates the wrapped mint. -/
def Lpay : Ledger := fun k =>
  if k = u then ⟨200, token2022Id, .mint (uMint [.transferFeeConfig feeCfg])⟩
  else if k = user then ⟨1000, systemId, .bytes []⟩
  else Account.empty

def ixs : List ClientIx := ((cliCreateMint env user u token2022Id false Lpay).toOption).getD []

example : LamportsConserved Lpay (get (runClient env ixs Lpay)) :=
  client_lamports_conserved (env := env) (ixs := ixs)
    (fun p w m g h => by
      have : ∀ x ∈ ixs, (match x with | .createAta .. => false | _ => true) = true := by decide +kernel
      cases this _ h)
    (get_eq (by decide +kernel))
example : (get (runClient env ixs Lpay) user).lamports = 800 ∧
    (get (runClient env ixs Lpay) W22).lamports = 100 ∧
    (get (runClient env ixs Lpay) B22).lamports = 100 := by decide +kernel
-- without the money it fails
example : ok (runClient env ixs (Lpay.set user ⟨150, systemId, .bytes []⟩)) = false := by decide +kernel

end Example.Lamports

end TokenWrap
