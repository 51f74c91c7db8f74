import Verif.Props.MintLife
import Verif.Props.NeverBlockedExample
/-!
# Conservation on a concrete history
-/

set_option maxRecDepth 4000

namespace TokenWrap.Example.Hist

open TokenWrap.Example (ok get get_eq)

theorem u_not_native : s.u ∉ nativeMints := by decide +kernel

/-- 5000 tokens exist, all in one account. -/
theorem conserved : Conserved s.u L0 := by
  refine ⟨{src}, ?_, by decide +kernel⟩
  intro k hk
  have hk : k ≠ src := by simpa using hk
  unfold tokensAt tokensIn
  split
  · split
    · rename_i t hd
      rcases L0_token hd with rfl | rfl
      · exact absurd rfl hk
      · have h2 : (L0 sol).data = .token solAcct := by decide +kernel
        rw [h2] at hd; cases hd
        exact if_neg (by decide +kernel)
    · rename_i m hd
      split
      · rename_i hu; rw [hu] at hd
        have h2 : (L0 s.u).data = .mint (TokenWrap.Example.uMint []) := by decide +kernel
        rw [h2] at hd; cases hd; rfl
      · rfl
    · rename_i n e hd
      split
      · rename_i hu; rw [hu] at hd
        have h2 : (L0 s.u).data = .mint (TokenWrap.Example.uMint []) := by decide +kernel
        rw [h2] at hd; cases hd
      · rfl
    · rfl
  · rfl

theorem noHolder : ∀ k t, isTokenProgram (L0 k).owner = true → (L0 k).data = .token t →
    t.mint ≠ s.W := by
  intro k t _ hd
  rcases L0_token hd with rfl | rfl
  · have h2 : (L0 src).data = .token (TokenWrap.Example.acct u user 5000 []) := by decide +kernel
    rw [h2] at hd; cases hd; decide +kernel
  · have h2 : (L0 sol).data = .token solAcct := by decide +kernel
    rw [h2] at hd; cases hd; decide +kernel

-- C68: after wrapping 1000, 5000 tokens in two accounts
example : Conserved s.u L7 := tokens_conserved u_not_native conserved fresh.funds hist7
example : tokensAt s.u L7 src = 4000 ∧ tokensAt s.u L7 Es = 1000 ∧ mintSupply s.u L7 = 5000 := by
  decide +kernel
example : Conserved s.u L7 :=
  token_wrap_conserves (accounts := wrapAccs) (L := L6) u_not_native
    (tokens_conserved u_not_native conserved fresh.funds hist6) (hist6.funds fresh.funds) rfl rent_pos
    (show r7 = .ok L7 from get_eq (by decide +kernel))
example : balanceOf L7 s.Es + balanceOf L7 s.Et ≤ mintSupply s.u L7 :=
  escrowed_within_unwrapped_supply fresh u_not_native conserved hist7
example : supplyOf L7 s.W ≤ mintSupply s.u L7 :=
  wrapped_within_unwrapped_supply fresh u_not_native conserved hist7'
example := unwrapped_mint_outlives_wrapped fresh u_not_native conserved hist7' (by decide +kernel)
-- C66: wrapping all 4000 remaining tokens
example : ∃ L', processInstruction env
      (Build.wrap crateId rcp s.W s.A splTokenId s.wp src s.u (s.escrowFor splTokenId) user []
        4000).accounts
      (Build.wrap crateId rcp s.W s.A splTokenId s.wp src s.u (s.escrowFor splTokenId) user []
        4000).data L7 = .ok L' := by
  refine wrap_never_blocked_room (t := TokenWrap.Example.acct u user 4000 [])
    (m := TokenWrap.Example.uMint []) (e := TokenWrap.Example.acct u A 1000 [])
    (r := TokenWrap.Example.acct W user 1000 []) (w := { wMint0 with supply := 1000 }) fresh u_not_native conserved
    plain.stable hist7' rfl rfl (fun _ _ _ _ => rfl) (by decide +kernel) (by decide) (by decide +kernel)
    (by decide +kernel) rfl (by decide +kernel) rfl (by decide)
    (.inr (.inr ⟨by decide, rfl⟩)) (.inl ⟨rfl, ?_⟩) (by decide +kernel) (by decide) (fun _ => rfl) ?_
    (by decide +kernel) rfl (.inl rfl) ⟨by decide +kernel, by decide +kernel, rfl⟩ rfl
  · intro ms; have : (L7 user).data = .bytes [] := by decide +kernel
    rw [this]; simp
  · intro c hc; cases hc
-- C69
example : Conserved s.W L7 ∧ mintSupply s.W L7 = supplyOf L7 s.W := wrapped_supply_exact fresh noHolder hist7
example : tokensAt s.W L7 rcp = 1000 ∧ supplyOf L7 s.W = 1000 := by decide +kernel
example := all_holders_covered fresh noHolder hist7'
example : ¬ ∀ k, tokensAt s.W L7 k = 0 := fun h =>
  absurd ((wrapped_supply_zero_iff fresh noHolder hist7).2 h) (by decide +kernel)

-- C70: step 8 (unwrapping 300 of 1000) with tokens in escrow
example := unwrapped_mint_stays_while_escrowed (act := .tokenWrap env unwrapAccs (TokenWrapInstruction.unwrap 300).pack)
  fresh (.inr conserved) hist7 (hist7.plain fresh.funds plain).2.noPD.idle st8 (by decide +kernel)
-- C71: that step and the wrapped mint, whose supply changes
example := token_wrap_keeps_mints (env := env) (accounts := unwrapAccs) (L := L7) (L' := L8) (k := W)
  (m := { wMint0 with supply := 1000 }) rfl (by decide +kernel) (by decide +kernel) (show r8 = .ok L8 from get_eq (by decide +kernel))
-- C71: and the unwrapped mint, which is on the curve and so not a derived address
example := token_wrap_keeps_unwrapped_mints (env := env) (accounts := unwrapAccs) (L := L7) (L' := L8)
  (k := u) (m := TokenWrap.Example.uMint []) rfl (by decide +kernel) (by decide +kernel)
  (fun _ _ h => absurd (pda_off_curve (i := .wrappedMint _ _) h) (by decide +kernel)) (show r8 = .ok L8 from get_eq (by decide +kernel))

end TokenWrap.Example.Hist
