import Verif.Conserve
import Verif.Props.NeverBlocked
/-!
# No tokens out of nothing (C68, C69)

`Conserved u L`: the tokens of mint `u` recorded in all accounts add up exactly to the supply the mint
shows.  This holds on chain for every mint that is not native SOL; Token Wrap keeps it for every mint,
and so does every history.
-/

set_option linter.unusedSimpArgs false

namespace TokenWrap

open scoped BigOperators

section
variable {cr : Crypto} {s : Setting cr} {ok : Act → Ledger → Prop} {L0 L L' : Ledger} {trace : List Act}
  {act : Act} {env : Env}

/-- What is recorded in any accounts together is at most the supply. -/
theorem Conserved.sum_le {u : Pubkey} (h : Conserved u L) (S : Finset Pubkey) :
    ∑ k ∈ S, tokensAt u L k ≤ mintSupply u L := by
  classical
  obtain ⟨F, hout, hsum⟩ := h
  have : ∑ k ∈ S, tokensAt u L k ≤ ∑ k ∈ F ∪ S, tokensAt u L k :=
    Finset.sum_le_sum_of_subset Finset.subset_union_right
  have : ∑ k ∈ F ∪ S, tokensAt u L k = ∑ k ∈ F, tokensAt u L k := by
    refine (Finset.sum_subset Finset.subset_union_left ?_).symm
    intro k _ hk; exact hout k hk
  omega

theorem Conserved.pair_le {u k l : Pubkey} (h : Conserved u L) (hne : k ≠ l) :
    tokensAt u L k + tokensAt u L l ≤ mintSupply u L := by
  classical
  have := h.sum_le {k, l}
  rwa [Finset.sum_pair hne] at this

theorem tokensAt_token {u k : Pubkey} {t : TokenAcct} (ho : isTokenProgram (L k).owner = true)
    (hd : (L k).data = .token t) (hm : t.mint = u) : t.amount ≤ tokensAt u L k := by
  unfold tokensAt
  rw [tokensIn_token ho hd, if_pos hm]; omega

theorem EscrowOk.le_tokensAt {u A p E : Pubkey} (h : EscrowOk u A p E L)
    (hp : isTokenProgram p = true) : balanceOf L E ≤ tokensAt u L E := by
  rcases h with hb | ⟨ho, t, ht, hm, _⟩
  · rw [balanceOf_blank hb]; exact Nat.zero_le _
  · rw [balanceOf_token ht]
    exact tokensAt_token (by rw [ho]; exact hp) ht hm

/-- A supply above 0 is recorded in a mint. -/
theorem mint_of_supply {u : Pubkey} (h : 0 < mintSupply u L) :
    ∃ m, isTokenProgram (L u).owner = true ∧ (L u).data = .mint m ∧ m.supply = mintSupply u L := by
  unfold mintSupply supplyIn at *
  split at h
  · rename_i ho
    split at h
    · rename_i m hm
      exact ⟨m, ho, hm, by rw [if_pos ho]⟩
    · cases h
  · cases h

/-! ## C68: unwrapped tokens -/

/-- **C68** No instruction of Token Wrap, with whatever accounts and data, creates or destroys tokens of
any mint except by changing the mint's recorded supply by the same amount. -/
theorem token_wrap_conserves {u : Pubkey} {accounts : List Meta} {data : Bytes} (hu : u ∉ nativeMints)
    (hc : Conserved u L) (hf : Funds L) (hid : env.programId = crateId)
    (hr : ∀ n, 0 < env.rentMin n) (hx : processInstruction env accounts data L = .ok L') :
    Conserved u L' :=
  .instr hu ⟨hc, hf⟩ hid hr hx

/-- **C68** In every history, for every mint but native SOL, the tokens in all accounts add up exactly
to the supply, if they did at the start. -/
theorem tokens_conserved {u : Pubkey} (hu : u ∉ nativeMints) (hc : Conserved u L0) (hf : Funds L0)
    (h : History cr ok L0 trace L) : Conserved u L :=
  (ConsFunds.history hu ⟨hc, hf⟩ h).1

/-- **C68** In every history, the escrows hold no more than the unwrapped supply. -/
theorem escrowed_within_unwrapped_supply (h0 : Fresh s L0) (hu : s.u ∉ nativeMints)
    (hc : Conserved s.u L0) (h : History cr ok L0 trace L) :
    balanceOf L s.Es + balanceOf L s.Et ≤ mintSupply s.u L := by
  have hi := h.inv' h0
  have h1 := hi.es.le_tokensAt (by decide +kernel)
  have h2 := hi.et.le_tokensAt (by decide +kernel)
  have h3 := (tokens_conserved hu hc h0.funds h).pair_le s.Es_ne_Et
  omega

/-- **C68** If no permanent delegate of the unwrapped mint acts, there are never more wrapped tokens
than unwrapped tokens. -/
theorem wrapped_within_unwrapped_supply (h0 : Fresh s L0) (hu : s.u ∉ nativeMints)
    (hc : Conserved s.u L0) (h : History cr (PDIdle cr s.u) L0 trace L) :
    supplyOf L s.W ≤ mintSupply s.u L := by
  have := always_backed h0 h
  have := escrowed_within_unwrapped_supply h0 hu hc h
  omega

/-- **C68** While wrapped tokens exist, the unwrapped mint exists, even if it has a close authority: it
is a mint of a token program with at least that supply. -/
theorem unwrapped_mint_outlives_wrapped (h0 : Fresh s L0) (hu : s.u ∉ nativeMints)
    (hc : Conserved s.u L0) (h : History cr (PDIdle cr s.u) L0 trace L) (pos : 0 < supplyOf L s.W) :
    ∃ m, ((L s.u).owner = splTokenId ∨ (L s.u).owner = token2022Id) ∧ (L s.u).data = .mint m ∧
      supplyOf L s.W ≤ m.supply := by
  have hle := wrapped_within_unwrapped_supply h0 hu hc h
  obtain ⟨m, ho, hm, hs⟩ := mint_of_supply (L := L) (u := s.u) (by omega)
  exact ⟨m, by simpa [isTokenProgram] using ho, hm, by omega⟩

/-- **C66** Wrapping, without a condition on the room in the escrow: the tokens being wrapped and those
in the escrow are both part of the unwrapped supply, a 64-bit number. -/
theorem wrap_never_blocked_room {p : Pubkey} {dec : UInt8} {src rcp tauth : Pubkey}
    {members : List Pubkey} {t e r : TokenAcct} {amount : UInt64} {m w : Mint}
    (h0 : Fresh s L0) (hu : s.u ∉ nativeMints) (hc : Conserved s.u L0)
    (hm : StableMint p s.u dec L0) (h : History cr (PDIdle cr s.u) L0 trace L)
    (hcr : env.cr = cr) (hid : env.programId = crateId)
    (hrej : ∀ p ix sg L, env.reject p ix sg L = none)
    (created : (L s.W).data = .mint w) (pos : amount ≠ 0)
    (srcOwner : (L src).owner = p) (srcData : (L src).data = .token t) (srcMint : t.mint = s.u)
    (notEscrow : src ≠ s.escrowFor p)
    (thawed : t.frozen = false) (enough : amount.toNat ≤ t.amount)
    (spend : CanSpend t m.permanentDelegate? tauth amount.toNat)
    (approval : BuiltApproval p L tauth members)
    (umint : (L s.u).data = .mint m) (supply : m.supply ≤ u64Max)
    (spl : p = splTokenId → m.exts = []) (fees : FeesValid m)
    (escData : (L (s.escrowFor p)).data = .token e) (escThawed : e.frozen = false)
    (escFee : m.transferFee? = none ∨ AcctExt.transferFeeAmount ∈ e.exts)
    (recv : HoldsWrapped s L rcp r) (rThawed : r.frozen = false) :
    ∃ L', processInstruction env
      (Build.wrap crateId rcp s.W s.A p s.wp src s.u (s.escrowFor p) tauth members amount).accounts
      (Build.wrap crateId rcp s.W s.A p s.wp src s.u (s.escrowFor p) tauth members amount).data L =
        .ok L' := by
  refine wrap_never_blocked h0 hm h hcr hid hrej created pos srcOwner srcData srcMint thawed enough
    spend approval umint spl fees escData escThawed escFee ?_ recv rThawed
  have hpl := (h.stable h0.funds hm).2
  have hp : isTokenProgram p = true := by rcases hpl.1 with rfl | rfl <;> decide +kernel
  have h1 := tokensAt_token (by rw [srcOwner]; exact hp) srcData srcMint
  have h2 := ((h.inv' h0).escrowFor hpl.1).le_tokensAt hp
  rw [balanceOf_token escData] at h2
  have h3 := (tokens_conserved hu hc h0.funds h).pair_le notEscrow
  have h4 : mintSupply s.u L = m.supply := by
    unfold mintSupply; exact supplyIn_mint (by rw [hpl.2.1]; exact hp) umint
  omega

/-! ## C69: wrapped tokens -/

/-- The wrapped mint is no native mint. -/
theorem Fresh.W_not_native (h : Fresh s L0) : s.W ∉ nativeMints := by
  intro hn
  obtain ⟨_, _, _, _, _, _, m, hm, _⟩ := h.funds.native s.W hn
  rw [h.W.2] at hm; cases hm

/-- Nothing of the pair exists, and no token account of either token program names the wrapped mint. -/
theorem Fresh.conserved (h : Fresh s L0)
    (hn : ∀ k t, isTokenProgram (L0 k).owner = true → (L0 k).data = .token t → t.mint ≠ s.W) :
    Conserved s.W L0 := by
  have hw : isTokenProgram (L0 s.W).owner = false := by rw [h.W.1]; exact system_not_token
  refine ⟨∅, fun k _ => ?_, ?_⟩
  · unfold tokensAt
    by_cases hk : k = s.W
    · rw [hk]; exact tokensIn_owner hw
    · cases ho : isTokenProgram (L0 k).owner with
      | false => exact tokensIn_owner ho
      | true =>
        unfold tokensIn
        rw [if_pos ho]
        cases hd : (L0 k).data with
        | token t => simp [hn k t ho hd]
        | _ => simp [hk]
  · unfold mintSupply; rw [supplyIn_owner hw]; rfl

/-- **C69** In every history, the wrapped supply is exactly the sum of what all wrapped token accounts
hold: no wrapped token is missing, none is counted twice. -/
theorem wrapped_supply_exact (h0 : Fresh s L0)
    (hn : ∀ k t, isTokenProgram (L0 k).owner = true → (L0 k).data = .token t → t.mint ≠ s.W)
    (h : History cr ok L0 trace L) : Conserved s.W L ∧ mintSupply s.W L = supplyOf L s.W := by
  refine ⟨tokens_conserved h0.W_not_native (h0.conserved hn) h0.funds h, ?_⟩
  rcases (h.inv' h0).w with ⟨hb, _⟩ | hw
  · rw [supplyOf_blank hb]
    exact supplyIn_owner (by rw [hb.1]; exact system_not_token)
  · obtain ⟨m, hm, _⟩ := hw.mint
    rw [supplyOf_mint hm]
    exact supplyIn_mint (by rw [hw.owner]; rcases s.wpOk with h | h <;> rw [h] <;> decide +kernel) hm

/-- **C69** The whole wrapped supply is held by some finite set of accounts, and what those accounts
hold together is covered by the escrows (if no permanent delegate acts). -/
theorem all_holders_covered (h0 : Fresh s L0)
    (hn : ∀ k t, isTokenProgram (L0 k).owner = true → (L0 k).data = .token t → t.mint ≠ s.W)
    (h : History cr (PDIdle cr s.u) L0 trace L) :
    ∃ F : Finset Pubkey, (∀ k, k ∉ F → tokensAt s.W L k = 0) ∧
      ∑ k ∈ F, tokensAt s.W L k = supplyOf L s.W ∧
      ∑ k ∈ F, tokensAt s.W L k ≤ balanceOf L s.Es + balanceOf L s.Et := by
  obtain ⟨⟨F, h1, h2⟩, h3⟩ := wrapped_supply_exact h0 hn h
  refine ⟨F, h1, h2.trans h3, ?_⟩
  rw [h2, h3]; exact always_backed h0 h

/-- **C69** The wrapped supply is 0 exactly if nobody holds a wrapped token. -/
theorem wrapped_supply_zero_iff (h0 : Fresh s L0)
    (hn : ∀ k t, isTokenProgram (L0 k).owner = true → (L0 k).data = .token t → t.mint ≠ s.W)
    (h : History cr ok L0 trace L) : supplyOf L s.W = 0 ↔ ∀ k, tokensAt s.W L k = 0 := by
  obtain ⟨⟨F, h1, h2⟩, h3⟩ := wrapped_supply_exact h0 hn h
  rw [← h3, ← h2]
  constructor
  · intro hz k
    by_cases hk : k ∈ F
    · exact Finset.sum_eq_zero_iff.1 hz k hk
    · exact h1 k hk
  · intro hz; exact Finset.sum_eq_zero fun k _ => hz k

end

end TokenWrap
