import Verif.Props.NeverBlockedExample
/-!
# Decimals can diverge (C70)

`decimals_agree_always` (C53) needs that the unwrapped mint has no close authority.  Here is why.
-/

set_option linter.unusedSimpArgs false

namespace TokenWrap.Example.Hist.Recreate

open TokenWrap.Example (ok get get_eq)
open TokenWrap.Example.Hist.Stuck (byIssuer byIssuer_signs)

def mintAccs : List Meta := (Build.createMint crateId W B u token2022Id false).accounts
def L1 := get (processInstruction env mintAccs (TokenWrapInstruction.createMint false).pack Stuck.L0)
def ix2 : TokenIx := .closeAccount u user issuer []
def L2 := get (tokenExec env token2022Id ix2 byIssuer L1)
def L3 := L2.setLamports u 200
def space : Nat := mintAccountLen []
def L4 := get (sysAllocate (fun k => k = u) u space L3)
def L5 := get (sysAssign (fun k => k = u) u token2022Id L4)
def ix6 : TokenIx := .initializeMint2 u issuer none 9
def L6 := get (tokenExec env token2022Id ix6 (fun _ => false) L5)

variable {ok' : Act → Ledger → Prop}

theorem st1 : Step cr ok' (.tokenWrap env mintAccs (TokenWrapInstruction.createMint false).pack)
    Stuck.L0 L1 :=
  .tokenWrap rfl rfl (signs_of (by decide +kernel)) (get_eq (by decide +kernel)) rent_pos
theorem st2 : Step cr ok' (.token env token2022Id ix2 byIssuer) L1 L2 :=
  .base (.token (by decide) byIssuer_signs (get_eq (by decide +kernel)) rent_pos)
theorem st3 : Step cr ok' .lamports L2 L3 := by
  refine .base (.lamports (fun k => ?_) (fun k h => ?_))
  · have gen : ∀ (X : Ledger) (k : Pubkey), ((X.setLamports u 200) k).owner = (X k).owner ∧
        ((X.setLamports u 200) k).data = (X k).data := by
      intro X k; rw [Ledger.setLamports_apply]; split
      · rename_i hk; subst hk; exact ⟨rfl, rfl⟩
      · exact ⟨rfl, rfl⟩
    exact gen L2 k
  · exfalso
    unfold L3 at h
    rw [Ledger.setLamports_apply] at h
    split at h
    · rename_i hk
      have : (L2 u).lamports = 0 := by decide +kernel
      subst hk
      rw [this] at h; exact Nat.not_lt_zero _ h
    · exact Nat.lt_irrefl _ h
theorem st4 : Step cr ok' (.allocate u space) L3 L4 :=
  .base (.allocate (.keypair (by decide +kernel)) (get_eq (by decide +kernel)))
theorem st5 : Step cr ok' (.assign u token2022Id) L4 L5 :=
  .base (.assign (.keypair (by decide +kernel)) ⟨List.replicate space 0, by decide +kernel,
    by decide +kernel⟩ (get_eq (by decide +kernel)))
theorem st6 : Step cr ok' (.token env token2022Id ix6 (fun _ => false)) L5 L6 :=
  .base (.token (by decide) (by simp) (get_eq (by decide +kernel)) rent_pos)

def tr6 : List Act :=
  [.token env token2022Id ix6 (fun _ => false), .assign u token2022Id, .allocate u space, .lamports,
   .token env token2022Id ix2 byIssuer,
   .tokenWrap env mintAccs (TokenWrapInstruction.createMint false).pack]

theorem hist6 : History cr (fun _ _ => True) Stuck.L0 tr6 L6 :=
  .step (.step (.step (.step (.step (.step .start
    trivial st1) trivial st2) trivial st3) trivial st4) trivial st5) trivial st6

end TokenWrap.Example.Hist.Recreate

namespace TokenWrap

open Example.Hist in
/-- **C70** There is a pair and a history from a fresh state (create the wrapped mint; the unwrapped
mint's close authority closes the empty unwrapped mint and initialises it again) after which both mints
exist with different decimals; and CreateMint, even the idempotent one, does not repair it. -/
theorem decimals_can_diverge :
    ∃ (cr : Crypto) (s : Setting cr) (L0 L : Ledger) (trace : List Act) (u w : Mint),
      Fresh s L0 ∧ History cr (fun _ _ => True) L0 trace L ∧
      (L s.u).data = .mint u ∧ (L s.W).data = .mint w ∧ u.decimals ≠ w.decimals ∧
      ∀ env : Env, env.cr = cr → env.programId = crateId →
        processInstruction env (Build.createMint crateId s.W s.B s.u s.wp true).accounts
          (Build.createMint crateId s.W s.B s.u s.wp true).data L = .ok L := by
  have hw : (Recreate.L6 s.W).data = .mint wMint0 := by decide +kernel
  refine ⟨cr, s, Stuck.L0, Recreate.L6, Recreate.tr6,
    { mintAuthority := some issuer, supply := 0, decimals := 9, freezeAuthority := none, exts := [] }, wMint0,
    Stuck.fresh, Recreate.hist6, by decide +kernel, hw, by decide, ?_⟩
  intro env' hcr hid
  exact creation_idempotent_always Stuck.fresh Recreate.hist6 hcr hid hw (by decide +kernel)

end TokenWrap
