import Verif.Clients
import Verif.Props.CreateMint
/-!
# Properties of the clients (C48)
-/

namespace TokenWrap

open TokenWrapInstruction

/-! ## create-mint -/

/-- Lamports a list of client instructions sends to `dst`. -/
def sentTo (dst : Pubkey) : List ClientIx → Nat
  | [] => 0
  | .transfer _ d n :: rest => (if d = dst then n else 0) + sentTo dst rest
  | _ :: rest => sentTo dst rest

/-- Only positive transfers from `payer` to the two addresses, then the call. -/
theorem cliFund_eq_jsFund (payer dst : Pubkey) (rent lamports : Nat) :
    cliFund payer dst rent lamports = jsFund payer dst rent lamports := by
  unfold cliFund jsFund
  by_cases h : lamports < rent
  · rw [if_pos h, if_pos (by omega)]
  · rw [if_neg h, if_neg (by omega)]

/-- **C48** The JavaScript and the Rust client send the same instructions. -/
theorem js_createMint_eq_cli (env : Env) (payer u wprog : Pubkey) (idem : Bool) (L : Ledger) :
    jsCreateMint env payer u wprog idem L = cliCreateMint env payer u wprog idem L := by
  unfold jsCreateMint cliCreateMint
  refine bind_congr fun w => bind_congr fun b => ?_
  simp only [cliFund_eq_jsFund]
  unfold cliMintSize jsMintSize
  by_cases h : wprog = token2022Id
  · rw [if_pos h, if_pos h]; rfl
  · rw [if_neg h, if_neg h]; rfl

/-- Size of the wrapped mint account, from the documentation: 82 bytes, or a Token-2022 mint with a
ConfidentialTransferMint (65 bytes) and a MetadataPointer (64 bytes). -/
def specMintSize (wprog : Pubkey) : Nat :=
  if wprog = token2022Id then 165 + 1 + (2 + 2 + 65) + (2 + 2 + 64) else 82

theorem cliMintSize_eq (wprog : Pubkey) : cliMintSize wprog = .ok (specMintSize wprog) := by
  unfold cliMintSize specMintSize
  by_cases h : wprog = token2022Id
  · rw [if_pos h, if_pos h]; rfl
  · rw [if_neg h, if_neg h]

theorem cliCreateMint_ok {env : Env} {payer u wprog W B : Pubkey} {idem : Bool} {L : Ledger}
    (hW : wrappedMintAddress env.cr u wprog = some W) (hB : backpointerAddress env.cr W = some B) :
    cliCreateMint env payer u wprog idem L = .ok
      (cliFund payer W (env.rentMin (specMintSize wprog)) (L W).lamports ++
        cliFund payer B (env.rentMin 32) (L B).lamports ++
        [.call (Build.createMint crateId W B u wprog idem)]) := by
  unfold cliCreateMint
  simp only [hW, hB, okOr_some, ok_bind, cliMintSize_eq]
  rfl

theorem sentTo_append (dst : Pubkey) (a b : List ClientIx) :
    sentTo dst (a ++ b) = sentTo dst a + sentTo dst b := by
  induction a with
  | nil => simp [sentTo]
  | cons x xs ih => cases x <;> simp [sentTo, ih, Nat.add_assoc]

theorem sentTo_fund (payer dst k : Pubkey) (rent lamports : Nat) :
    sentTo k (cliFund payer dst rent lamports) = if dst = k then rent - lamports else 0 := by
  unfold cliFund
  by_cases h : 0 < rent - lamports
  · rw [if_pos h]; simp [sentTo]
  · rw [if_neg h]; simp only [sentTo]; split <;> omega

/-- **C48** The funding is exactly what is missing: each of the two accounts receives rent minus
what it has (nothing if it has enough), no transfer of zero lamports is sent, and the last
instruction creates the mint with the derived addresses. -/
theorem createMint_funding_exact {env : Env} {payer u wprog W B : Pubkey} {idem : Bool}
    {L : Ledger} {ixs : List ClientIx}
    (hW : wrappedMintAddress env.cr u wprog = some W) (hB : backpointerAddress env.cr W = some B)
    (hne : W ≠ B) (h : cliCreateMint env payer u wprog idem L = .ok ixs) :
    sentTo W ixs = env.rentMin (specMintSize wprog) - (L W).lamports ∧
    sentTo B ixs = env.rentMin 32 - (L B).lamports ∧
    (∀ k, k ≠ W → k ≠ B → sentTo k ixs = 0) ∧
    (∀ s d n, ClientIx.transfer s d n ∈ ixs → s = payer ∧ 0 < n ∧ (d = W ∨ d = B)) ∧
    (env.rentMin (specMintSize wprog) ≤ (L W).lamports → env.rentMin 32 ≤ (L B).lamports →
      ixs = [.call (Build.createMint crateId W B u wprog idem)]) ∧
    ixs.getLast? = some (.call (Build.createMint crateId W B u wprog idem)) := by
  rw [cliCreateMint_ok hW hB, Except.ok.injEq] at h
  subst h
  refine ⟨?_, ?_, ?_, ?_, ?_, ?_⟩
  · simp [sentTo_append, sentTo_fund, sentTo, hne.symm]
  · simp [sentTo_append, sentTo_fund, sentTo, hne]
  · intro k h1 h2
    simp [sentTo_append, sentTo_fund, sentTo, h1.symm, h2.symm]
  · intro s d n hm
    have hf : ∀ dst rent lam, ClientIx.transfer s d n ∈ cliFund payer dst rent lam →
        s = payer ∧ 0 < n ∧ d = dst := by
      intro dst rent lam hx
      unfold cliFund at hx
      by_cases h : 0 < rent - lam
      · rw [if_pos h] at hx
        simp only [List.mem_cons, ClientIx.transfer.injEq, List.not_mem_nil, or_false] at hx
        obtain ⟨rfl, rfl, rfl⟩ := hx
        exact ⟨rfl, h, rfl⟩
      · rw [if_neg h] at hx; cases hx
    simp only [List.append_assoc, List.mem_append, List.mem_cons, List.not_mem_nil, or_false,
      reduceCtorEq] at hm
    rcases hm with hm | hm
    · obtain ⟨a, b, c⟩ := hf _ _ _ hm; exact ⟨a, b, .inl c⟩
    · obtain ⟨a, b, c⟩ := hf _ _ _ hm; exact ⟨a, b, .inr c⟩
  · intro h1 h2
    unfold cliFund
    rw [if_neg (by omega), if_neg (by omega)]
    rfl
  · simp

/-- Funding one account. -/
theorem runClient_fund {env : Env} {payer dst : Pubkey} {rent : Nat} {rest : List ClientIx}
    {L : Ledger} (hp : (L payer).owner = systemId) (hd : (L payer).data = .bytes [])
    (hne : payer ≠ dst) (hl : rent - (L dst).lamports ≤ (L payer).lamports) :
    runClient env (cliFund payer dst rent (L dst).lamports ++ rest) L =
      runClient env rest ((L.setLamports payer ((L payer).lamports - (rent - (L dst).lamports))
        ).setLamports dst (max rent (L dst).lamports)) := by
  unfold cliFund
  by_cases h : 0 < rent - (L dst).lamports
  · rw [if_pos h]
    have e : (L dst).lamports + (rent - (L dst).lamports) = max rent (L dst).lamports := by omega
    simp only [List.singleton_append, runClient, runClientIx, sysTransfer, hp, hd, decide_true,
      Bool.and_self, require_true, ok_bind, hl, pure, Except.pure,
      Ledger.setLamports_ne _ _ hne.symm, e]
  · rw [if_neg h]
    have e1 : rent - (L dst).lamports = 0 := by omega
    have e2 : max rent (L dst).lamports = (L dst).lamports := by omega
    rw [List.nil_append, e1, e2, Nat.sub_zero]
    congr 1
    funext k
    simp only [Ledger.setLamports_apply]
    by_cases h1 : k = dst
    · subst h1; rw [if_pos rfl, if_neg hne.symm]
    · rw [if_neg h1]
      by_cases h2 : k = payer
      · subst h2; rw [if_pos rfl]
      · rw [if_neg h2]

/-- **C48** What the clients send makes both rent checks of CreateMint pass: for every balance the
two accounts may already have and every rent schedule, the transaction goes through, provided only
that the payer can pay the difference, the two accounts are still unused and the token program
raises no objection. -/
theorem createMint_transaction_succeeds {env : Env} {payer u wprog W B A : Pubkey} {idem : Bool}
    {L : Ledger} {ixs : List ClientIx} {um : Mint}
    (hid : env.programId = crateId)
    (hrej : ∀ ix s L, env.reject wprog ix s L = none)
    (hp : wprog = splTokenId ∨ wprog = token2022Id)
    (hW : wrappedMintAddress env.cr u wprog = some W) (hB : backpointerAddress env.cr W = some B)
    (hA : authorityAddress env.cr W = some A) (hne : W ≠ B)
    (uo : (L u).owner = splTokenId ∨ (L u).owner = token2022Id) (ud : (L u).data = .mint um)
    (we : (L W).owner = systemId ∧ (L W).data = .bytes [])
    (be : (L B).owner = systemId ∧ (L B).data = .bytes [])
    (po : (L payer).owner = systemId ∧ (L payer).data = .bytes [])
    (pW : payer ≠ W) (pB : payer ≠ B)
    (hl : (env.rentMin (specMintSize wprog) - (L W).lamports) + (env.rentMin 32 - (L B).lamports) ≤
      (L payer).lamports)
    (h : cliCreateMint env payer u wprog idem L = .ok ixs) :
    ∃ L', runClient env ixs L = .ok L' := by
  rw [cliCreateMint_ok hW hB, Except.ok.injEq] at h
  subst h
  rw [List.append_assoc, runClient_fund po.1 po.2 pW (by omega)]
  generalize hL1 : (L.setLamports payer ((L payer).lamports -
    (env.rentMin (specMintSize wprog) - (L W).lamports))).setLamports W
      (max (env.rentMin (specMintSize wprog)) (L W).lamports) = L1
  have hP1 : L1 payer = ⟨(L payer).lamports - (env.rentMin (specMintSize wprog) - (L W).lamports),
      systemId, .bytes []⟩ := by
    rw [← hL1, Ledger.setLamports_ne _ _ pW, Ledger.setLamports_same]; dsimp only; rw [po.1, po.2]
  have hW1 : L1 W = ⟨max (env.rentMin (specMintSize wprog)) (L W).lamports, systemId,
      .bytes []⟩ := by
    rw [← hL1, Ledger.setLamports_same, Ledger.setLamports_ne _ _ pW.symm]; dsimp only; rw [we.1, we.2]
  have ho1 : ∀ k, k ≠ payer → k ≠ W → L1 k = L k := by
    intro k h1 h2
    rw [← hL1, Ledger.setLamports_ne _ _ h2, Ledger.setLamports_ne _ _ h1]
  have hB1 : L1 B = L B := ho1 B pB.symm hne.symm
  have := runClient_fund (env := env) (payer := payer) (dst := B) (rent := env.rentMin 32)
    (rest := [.call (Build.createMint crateId W B u wprog idem)]) (L := L1) (by rw [hP1])
    (by rw [hP1]) pB (by rw [hP1, hB1]; dsimp only; omega)
  rw [hB1] at this
  rw [this]
  generalize hL2 : (L1.setLamports payer _).setLamports B _ = L2
  have hW2 : L2 W = ⟨max (env.rentMin (specMintSize wprog)) (L W).lamports, systemId,
      .bytes []⟩ := by
    rw [← hL2, Ledger.setLamports_ne _ _ hne, Ledger.setLamports_ne _ _ pW.symm, hW1]
  have hB2 : L2 B = ⟨max (env.rentMin 32) (L B).lamports, systemId, .bytes []⟩ := by
    rw [← hL2, Ledger.setLamports_same, Ledger.setLamports_ne _ _ pB.symm, hB1]; dsimp only; rw [be.1, be.2]
  have hu2 : (L2 u).owner = (L u).owner ∧ (L2 u).data = (L u).data := by
    have h1 : u ≠ payer := by rintro rfl; rw [po.2] at ud; cases ud
    have h2 : u ≠ W := by rintro rfl; rw [we.2] at ud; cases ud
    have h3 : u ≠ B := by rintro rfl; rw [be.2] at ud; cases ud
    rw [← hL2, Ledger.setLamports_ne _ _ h3, Ledger.setLamports_ne _ _ h1, ho1 u h1 h2]
    exact ⟨rfl, rfl⟩
  have hmain := createMint_succeeds .default (env := env) (L := L2) (idem := idem)
    (wmint := .rw W false) (bp := .rw B false) (umint := .ro u false) (sys := .ro systemId false)
    (wprog := .ro wprog false) (rest := []) (um := um) (A := A) hid hrej hW hB hA hne hp rfl rfl rfl
    (by rw [show (Meta.ro u false).key = u from rfl, hu2.1]; exact uo)
    (by rw [show (Meta.ro u false).key = u from rfl, hu2.2]; exact ud) hW2 hB2
    (by
      refine Nat.le_trans (Nat.le_of_eq ?_) (Nat.le_max_left _ _)
      congr 1)
    (Nat.le_max_left _ _)
  obtain ⟨L', hL'⟩ := hmain
  refine ⟨L', ?_⟩
  have hpack := processInstruction_pack env
    ([.rw W false, .rw B false, .ro u false, .ro systemId false, .ro wprog false] ++ [])
    (createMint idem) L2
  show runClientIx env (.call (Build.createMint crateId W B u wprog idem)) L2 >>= _ = _
  rw [show runClientIx env (.call (Build.createMint crateId W B u wprog idem)) L2 = .ok L' from ?_]
  · rfl
  · exact hpack.trans hL'

/-! ## Concrete instances -/

namespace Example

/-- A payer with 1000 lamports and an unwrapped mint; the wrapped mint address already holds 30
lamports, the backpointer more than enough. -/
def unfunded : Ledger := fun k =>
  if k = u then ⟨200, token2022Id, .mint (uMint [])⟩
  else if k = W22 then ⟨30, systemId, .bytes []⟩
  else if k = B22 then ⟨101, systemId, .bytes []⟩
  else if k = user then ⟨1000, systemId, .bytes []⟩
  else Account.empty

example : cliCreateMint env user u token2022Id false unfunded =
    .ok [.transfer user W22 70, .call (Build.createMint crateId W22 B22 u token2022Id false)] := by
  decide +kernel

example : ∃ L', runClient env
    [.transfer user W22 70, .call (Build.createMint crateId W22 B22 u token2022Id false)]
    unfunded = .ok L' :=
  createMint_transaction_succeeds (payer := user) (u := u) (wprog := token2022Id) (W := W22)
    (B := B22) (A := (authorityAddress toyCrypto W22).getD default) (idem := false) (um := uMint [])
    rfl (fun _ _ _ => rfl) (.inr rfl) (by decide +kernel) (by decide +kernel) (by decide +kernel)
    (by decide +kernel) (by decide +kernel) (by decide +kernel) (by decide +kernel)
    (by decide +kernel) (by decide +kernel) (by decide +kernel) (by decide +kernel)
    (by decide +kernel) (by decide +kernel)

end Example

end TokenWrap
