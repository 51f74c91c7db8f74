import Verif.Props.Rent
import Verif.Props.CliSync
import Verif.Props.Clients
/-!
# C96, continued: `create-mint` followed by `sync-metadata-to-token2022`

Both clients fund the new wrapped mint with exactly the minimum for its size without metadata
(/repo/clients/cli/src/create_mint.rs:119-146, /repo/clients/js/src/create-mint.ts:62-84), and neither
client's sync sends any lamports (/repo/clients/cli/src/sync_metadata_to_token2022.rs:109-196).
-/

namespace TokenWrap

open TokenWrapInstruction

variable {env : Env} {L L1 L2 : Ledger}

/-- A successful run that starts with funding `dst`: the other accounts than payer and `dst` are as
before, and `dst` has what it had or the rent. -/
theorem runClient_fund_inv {payer dst : Pubkey} {rent : Nat} {rest : List ClientIx} {n : Nat}
    (hn : n = (L dst).lamports) (hne : payer ≠ dst)
    (h : runClient env (cliFund payer dst rent n ++ rest) L = .ok L1) :
    ∃ Lf, runClient env rest Lf = .ok L1 ∧ (∀ k, k ≠ payer → k ≠ dst → Lf k = L k) ∧
      Lf dst = { L dst with lamports := max rent (L dst).lamports } := by
  subst hn
  unfold cliFund at h
  by_cases hr : 0 < rent - (L dst).lamports
  · rw [if_pos hr] at h
    simp only [List.singleton_append, runClient, runClientIx] at h
    obtain ⟨Lf, h1, h2⟩ := bind_ok_iff.1 h
    unfold sysTransfer at h1
    simp only [bind_ok_iff, require_ok_iff, pure_ok_iff] at h1
    obtain ⟨_, _, _, _, rfl⟩ := h1
    refine ⟨_, h2, fun k k1 k2 => ?_, ?_⟩
    · rw [Ledger.setLamports_ne _ _ k2, Ledger.setLamports_ne _ _ k1]
    · rw [Ledger.setLamports_same, Ledger.setLamports_ne _ _ hne.symm]
      have : (L dst).lamports + (rent - (L dst).lamports) = max rent (L dst).lamports := by omega
      rw [this]
  · rw [if_neg hr] at h
    have : max rent (L dst).lamports = (L dst).lamports := by omega
    exact ⟨L, h, fun _ _ _ => rfl, by rw [this]⟩

/-- **C96** After `create-mint` for Token-2022 (CLI or JS: C55) the wrapped mint holds exactly the minimum for
its 303 bytes if it held no more before, and has no metadata. -/
theorem create_mint_leaves_minimum {payer u W B : Pubkey} {idem : Bool} {ixs : List ClientIx}
    (hW : wrappedMintAddress env.cr u token2022Id = some W) (hB : backpointerAddress env.cr W = some B)
    (pW : payer ≠ W) (pB : payer ≠ B) (hnew : (L W).data = .bytes [] ∧ (L W).owner = systemId)
    (hlow : (L W).lamports ≤ env.rentMin 303)
    (hixs : cliCreateMint env payer u token2022Id idem L = .ok ixs)
    (hrun : runClient env ixs L = .ok L1) :
    ∃ m, (L1 W).lamports = env.rentMin 303 ∧ (L1 W).data = .mint m ∧ (L1 W).data.len = 303 ∧
      m.tokenMetadata? = none := by
  rw [cliCreateMint_ok hW hB] at hixs
  cases hixs
  rw [List.append_assoc] at hrun
  obtain ⟨La, hrun, ha1, ha2⟩ := runClient_fund_inv rfl pW hrun
  by_cases hWB : W = B
  · -- then CreateMint fails
    subst hWB
    obtain ⟨Lb, hb⟩ : ∃ Lb, processInstruction env (Build.createMint crateId W W u token2022Id idem).accounts
        (Build.createMint crateId W W u token2022Id idem).data Lb = .ok L1 ∧
        (Lb W).data = .bytes [] ∧ (Lb W).owner = systemId := by
      unfold cliFund at hrun
      split at hrun
      · simp only [List.singleton_append, runClient, runClientIx] at hrun
        obtain ⟨Lb, h1, h2⟩ := bind_ok_iff.1 hrun
        obtain ⟨L3, h3, h4⟩ := bind_ok_iff.1 h2
        cases h4
        refine ⟨Lb, h3, ?_⟩
        unfold sysTransfer at h1
        simp only [bind_ok_iff, require_ok_iff, pure_ok_iff] at h1
        obtain ⟨_, _, _, _, rfl⟩ := h1
        rw [Ledger.setLamports_same, Ledger.setLamports_ne _ _ pW.symm, ha2]
        exact hnew
      · rw [List.nil_append] at hrun
        refine ⟨La, runClient_call.1 hrun, ?_⟩
        rw [ha2]; exact hnew
    obtain ⟨hb, hb1, hb2⟩ := hb
    simp only [Build.createMint] at hb
    rw [processInstruction_pack] at hb
    obtain ⟨_, ⟨_, rfl, q, _⟩ | ⟨mb, bb, L', _, _, h1, h2⟩⟩ := createMint_cases (rest := []) hb
    · rw [show (Meta.rw W false).key = W from rfl, hb1] at q
      rcases q with q | q <;> exact absurd q (Nat.lt_irrefl 0)
    · obtain ⟨m, A, space, i1, i2, i3, i4, i5, i6, i7, i8, _⟩ := createMint_fresh Shipped.default.spec h1 h2
      exact absurd rfl i8
  · have hLaB : La B = L B := ha1 B pB.symm (Ne.symm hWB)
    obtain ⟨Lb, hrun, hb1, hb2⟩ := runClient_fund_inv (by rw [hLaB]) pB hrun
    have hrun := runClient_call.1 hrun
    have hbW : Lb W = { L W with lamports := max (env.rentMin 303) (L W).lamports } := by
      rw [hb1 W pW.symm hWB, ha2]
      rfl
    have hmax : max (env.rentMin 303) (L W).lamports = env.rentMin 303 := by omega
    rw [hmax] at hbW
    simp only [Build.createMint] at hrun
    rw [processInstruction_pack] at hrun
    obtain ⟨_, ⟨_, rfl, _, q, _⟩ | ⟨mb, bb, L', _, _, h1, h2⟩⟩ := createMint_cases (rest := []) hrun
    · rw [show (Meta.rw W false).key = W from rfl, hbW] at q
      exact absurd (hnew.2.symm.trans q) (by decide)
    · obtain ⟨m, A, space, i1, i2, i3, i4, i5, i6, i7, i8, i9, i10, i11⟩ :=
        createMint_fresh Shipped.default.spec h1 h2
      dsimp only at i11
      rw [show (Meta.rw W false).key = W from rfl, show (Meta.rw B false).key = B from rfl] at i11
      have hfin : L1 W = ⟨env.rentMin 303, token2022Id, .mint
          { mintAuthority := some A
            supply := 0
            decimals := m.decimals
            freezeAuthority := Shipped.default.freeze m
            exts := Shipped.default.exts A W }⟩ := by
        rw [i11, Ledger.set_ne _ _ hWB, Ledger.set_same, hbW]
        rfl
      exact ⟨_, by rw [hfin], by rw [hfin], by rw [hfin]; rfl, rfl⟩

/-- **C96** Therefore no sync of that wrapped mint, in whatever transaction of one instruction, is accepted
right afterwards. -/
theorem create_then_sync_refused (hmono : ∀ m n, m < n → env.rentMin m < env.rentMin n)
    {payer u W B : Pubkey} {idem : Bool} {ixs : List ClientIx} {accounts : List Meta}
    (hW : wrappedMintAddress env.cr u token2022Id = some W) (hB : backpointerAddress env.cr W = some B)
    (pW : payer ≠ W) (pB : payer ≠ B) (hi : W ≠ incineratorId)
    (hnew : (L W).data = .bytes [] ∧ (L W).owner = systemId)
    (hlow : (L W).lamports ≤ env.rentMin 303)
    (hixs : cliCreateMint env payer u token2022Id idem L = .ok ixs)
    (hrun : runClient env ixs L = .ok L1)
    (hacc : accounts.head?.map (·.key) = some W)
    (hsync : processInstruction env accounts syncMetadataToToken2022.pack L1 = .ok L2) :
    ¬ RentOk env L1 L2 ∧ settle env [⟨accounts, syncMetadataToToken2022.pack⟩] L1 = L1 := by
  obtain ⟨m, h1, h2, h3, h4⟩ := create_mint_leaves_minimum hW hB pW pB hnew hlow hixs hrun
  obtain ⟨W', rest, m', rfl, h5, h6⟩ := sync22_right_after_create_refused hmono hsync
  have : W'.key = W := by simpa using hacc
  rw [this] at h5 h6
  rw [h2] at h5
  cases h5
  refine h6 hi ?_ (by rw [h1, h3]) h4
  have := hmono 302 303 (by decide)
  omega

/-- **C96** In particular not the one `sync-metadata-to-token2022` sends. -/
theorem cli_create_then_sync_refused (hmono : ∀ m n, m < n → env.rentMin m < env.rentMin n)
    {payer u W B : Pubkey} {signer : CliSigner} {source program : Option Pubkey} {tx : CliTx}
    {idem : Bool} {ixs : List ClientIx} {demoted : List Pubkey}
    (hW : wrappedMintAddress env.cr u token2022Id = some W) (hB : backpointerAddress env.cr W = some B)
    (pW : payer ≠ W) (pB : payer ≠ B) (hi : W ≠ incineratorId)
    (hnew : (L W).data = .bytes [] ∧ (L W).owner = systemId)
    (hlow : (L W).lamports ≤ env.rentMin 303)
    (hixs : cliCreateMint env payer u token2022Id idem L = .ok ixs)
    (hrun : runClient env ixs L = .ok L1)
    (htx : cliSync22 env signer u source program L1 = .ok tx)
    (hsync : tx.message.run env demoted L1 = .ok L2) : ¬ RentOk env L1 L2 := by
  obtain ⟨W', A, k, hW', hA, hk, hso, hpay, hins, _⟩ := cli_sync22_transaction htx
  cases hW.symm.trans hW'
  have hm : tx.message = ⟨signer.key, [.call (Build.syncMetadataToToken2022 crateId W A u k program)]⟩ := by
    rw [CliTx.message, hpay, hins]
  rw [hm] at hsync
  obtain ⟨f, hf, hs⟩ := run_single_keys hsync
  refine (create_then_sync_refused hmono hW hB pW pB hi hnew hlow hixs hrun ?_ hs).1
  simp only [Build.syncMetadataToToken2022, List.cons_append, List.map_cons, List.head?_cons,
    Option.map_some, hf]
  rfl

/-! ## Example -/

namespace Example.Rent

open Example

/-- A mint with metadata, a rich payer, and nothing at the derived addresses. -/
def Lnew : Ledger := fun k =>
  if k = u then ⟨500, token2022Id, .mint (uMint [.metadataPointer none (some u), .tokenMetadata md0])⟩
  else if k = user then ⟨100000, systemId, .bytes []⟩
  else Account.empty

def newIxs : List ClientIx := ((cliCreateMint renv user u token2022Id false Lnew).toOption).getD []
def Lmade : Ledger := get (runClient renv newIxs Lnew)
def syncRun : Res Ledger := processInstruction renv syncIx.accounts syncIx.data Lmade

example : ¬ RentOk renv Lmade (get syncRun) ∧
    settle renv [⟨syncIx.accounts, syncIx.data⟩] Lmade = Lmade := by
  have h1 : cliCreateMint renv user u token2022Id false Lnew = .ok newIxs := by decide +kernel
  have h2 : runClient renv newIxs Lnew = .ok Lmade := get_eq (by decide +kernel)
  have h3 : syncRun = .ok (get syncRun) := get_eq (by decide +kernel)
  exact create_then_sync_refused (L := Lnew) (B := B22) (W := Ws) (fun m n h => Nat.succ_lt_succ h)
    (by decide +kernel) (by decide +kernel) (by decide +kernel) (by decide +kernel) (by decide +kernel)
    (by decide +kernel) (by decide +kernel) h1 h2 (by decide +kernel) h3

end Example.Rent

end TokenWrap
