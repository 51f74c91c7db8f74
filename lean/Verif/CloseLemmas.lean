import Verif.ProcessorLemmas
import Verif.Ata
/-! # Effects of CloseStuckEscrow and of ATA creation -/

set_option linter.unusedSimpArgs false

namespace TokenWrap

theorem closeAccountExec_inv {prog : Pubkey} {signed : Pubkey → Bool} {L L' : Ledger}
    {acct dst auth : Pubkey} {signers : List Pubkey}
    (h : closeAccountExec prog signed L acct dst auth signers = .ok L') :
    acct ≠ dst ∧ (L acct).owner = prog ∧ L' = closeOut L acct dst ∧
    ((∃ t, (L acct).data = .token t ∧ (t.isNative.isSome = true ∨ t.amount = 0) ∧
        ((ownedByNobody t = true ∧ dst = incineratorId) ∨
          (t.closeAuthority.getD t.owner = auth ∧ AuthOk prog L auth signers signed)) ∧
        t.withheld = 0 ∧ t.confidential = 0) ∨
     (∃ m ca, (L acct).data = .mint m ∧ prog = token2022Id ∧ m.closeAuthority? = some ca ∧
        ca = auth ∧ AuthOk prog L auth signers signed ∧ m.supply = 0)) := by
  unfold closeAccountExec at h
  simp only [bind_ok_iff, require_ok_iff, decide_eq_true_eq] at h
  obtain ⟨_, h1, _, h2, h⟩ := h
  refine ⟨h1, h2, ?_⟩
  split at h
  · rename_i t ht
    simp only [bind_ok_iff, require_ok_iff, decide_eq_true_eq, pure_ok_iff, Bool.or_eq_true] at h
    obtain ⟨_, h3, _, h4, _, h5, _, h6, h7⟩ := h
    refine ⟨h7.symm, .inl ⟨t, ht, h3, ?_, h5, h6⟩⟩
    split at h4
    · rename_i hn
      simp only [require_ok_iff, decide_eq_true_eq] at h4
      exact .inl ⟨hn, h4⟩
    · exact .inr (validateOwner_ok_iff.1 h4)
  · rename_i m hm
    simp only [bind_ok_iff, require_ok_iff, decide_eq_true_eq, pure_ok_iff, okOr_ok_iff,
      validateOwner_ok_iff] at h
    obtain ⟨_, h3, ca, h4, _, ⟨h5, h5'⟩, _, h6, h7⟩ := h
    exact ⟨h7.symm, .inr ⟨m, ca, hm, h3, h4, h5, h5', h6⟩⟩
  · cases h

theorem closeOut_same (L : Ledger) (acct dst : Pubkey) : closeOut L acct dst acct = Account.empty := by
  simp [closeOut]

theorem closeOut_dst (L : Ledger) {acct dst : Pubkey} (h : acct ≠ dst) :
    closeOut L acct dst dst = { L dst with lamports := (L dst).lamports + (L acct).lamports } := by
  simp [closeOut, Ledger.set_apply, Ne.symm h]

theorem closeOut_other (L : Ledger) {acct dst k : Pubkey} (h1 : k ≠ acct) (h2 : k ≠ dst) :
    closeOut L acct dst k = L k := by
  simp [closeOut, Ledger.set_apply, Ledger.setLamports_apply, h1, h2]

theorem parseClose_ok_iff {accounts : List Meta} {a : CloseAccounts} :
    parseClose accounts = .ok a ↔ ∃ rest,
      accounts = [a.escrow, a.destination, a.unwrappedMint, a.wrappedMint, a.authority,
        a.token2022Program] ++ rest := by
  unfold parseClose
  split
  · rename_i a1 a2 a3 a4 a5 a6 rest
    constructor
    · intro h; cases h; exact ⟨rest, rfl⟩
    · rintro ⟨r, h⟩; cases a; simp at h ⊢; obtain ⟨h1, h2, h3, h4, h5, h6, h7⟩ := h
      exact ⟨h1, h2, h3, h4, h5, h6⟩
  · rename_i hno
    constructor
    · intro h; cases h
    · rintro ⟨r, h⟩; exact absurd h (by simpa using hno _ _ _ _ _ _ _)

/-- Everything a successful CloseStuckEscrow establishes and does. -/
structure CloseEffect (env : Env) (accounts : List Meta) (L L' : Ledger) (a : CloseAccounts)
    (t : TokenAcct) (m : Mint) (pda : Pubkey) : Prop where
  accounts_eq : ∃ rest, accounts = [a.escrow, a.destination, a.unwrappedMint, a.wrappedMint,
    a.authority, a.token2022Program] ++ rest
  eOwner : (L a.escrow.key).owner = token2022Id
  uOwner : (L a.unwrappedMint.key).owner = token2022Id
  mint : wrappedMintAddress env.cr a.unwrappedMint.key (L a.wrappedMint.key).owner =
    some a.wrappedMint.key
  auth : authorityAddress env.cr a.wrappedMint.key = some a.authority.key
  escrow : associatedTokenAddress env.cr a.authority.key a.unwrappedMint.key token2022Id =
    some a.escrow.key
  eData : (L a.escrow.key).data = .token t
  tOwner : t.owner = a.authority.key
  empty : t.amount = 0
  thawed : t.frozen = false
  uData : (L a.unwrappedMint.key).data = .mint m
  stuck : escrowInGoodState t.exts (requiredEscrowExts m) = false
  withheld : t.withheld = 0
  confidential : t.confidential = 0
  pdaEq : ∃ bump, authorityWithSeed env.cr a.wrappedMint.key = some (a.authority.key, bump) ∧
    signerPda env (authoritySignerSeeds a.wrappedMint.key bump) = .ok pda
  cpi : invokeToken env accounts [pda] [a.unwrappedMint.key] token2022Id
    (.closeAccount a.escrow.key a.destination.key a.authority.key []) L = .ok L'
  ne : a.escrow.key ≠ a.destination.key
  destNeU : a.destination.key ≠ a.unwrappedMint.key
  final : L' = closeOut L a.escrow.key a.destination.key

theorem processClose_effect {env : Env} {accounts : List Meta} {L L' : Ledger}
    (h : processCloseStuckEscrow env accounts L = .ok L') :
    ∃ a t m pda, CloseEffect env accounts L L' a t m pda := by
  unfold processCloseStuckEscrow at h
  inv_ok at h
  obtain ⟨a, ha, _, ho, em, hem, _, hm, ⟨ea, bump⟩, hea, h⟩ := h
  dsimp only at h
  obtain ⟨_, hA, ee, hee, _, hE, t, ht, _, hto, _, ham, _, hfr, m, hum, _, hst, pda, hpda, hcpi⟩ := h
  subst hm; subst hA; subst hE
  simp only [Bool.and_eq_true, decide_eq_true_eq] at ho
  have hcpi' := hcpi
  rw [ho.1] at hcpi'
  rw [ho.2] at hee
  obtain ⟨h1, h2, h3, h4, h5⟩ := invokeToken_inv hcpi'
  have hrej := tokenExec_not_rejected h5
  unfold tokenExec at h5
  rw [hrej] at h5
  obtain ⟨c1, c2, c3, c4⟩ := closeAccountExec_inv h5
  clear h5 hrej
  have hw : t.withheld = 0 ∧ t.confidential = 0 := by
    rcases c4 with ⟨t', ht', _, _, w1, w2⟩ | ⟨m', ca, hm', _⟩
    · rw [ht] at ht'; cases ht'; exact ⟨w1, w2⟩
    · rw [ht] at hm'; cases hm'
  have hd := h2 (.rw a.destination.key false) (by simp [TokenIx.metas]) rfl
  exact ⟨a, t, m, pda, ⟨parseClose_ok_iff.1 ha, ho.1, ho.2, hem, authorityAddress_some.2 ⟨_, hea⟩,
    hee, ht, hto, ham, hfr, hum, hst, hw.1, hw.2, ⟨bump, hea, hpda⟩, hcpi', c1,
    by simpa [Meta.rw] using hd, c3⟩⟩

theorem initializeAccount3Exec_inv {env : Env} {prog : Pubkey} {L L' : Ledger}
    {acct mint owner : Pubkey} {extra : List AcctExt}
    (h : initializeAccount3Exec env prog L acct mint owner extra = .ok L') :
    (L acct).owner = prog ∧ ∃ b m, (L acct).data = .bytes b ∧ b.all (· = 0) = true ∧
      165 ≤ b.length ∧ (L mint).owner = prog ∧
      (L mint).data = .mint m ∧ (prog = splTokenId → m.exts = []) ∧
      L' = L.setData acct (.token
        (newTokenAcct (env.rentMin b.length) prog (L acct).lamports mint m owner extra)) ∧
      env.rentMin b.length ≤ (L acct).lamports := by
  unfold initializeAccount3Exec at h
  simp only [bind_ok_iff, require_ok_iff, decide_eq_true_eq] at h
  obtain ⟨_, h1, h⟩ := h
  refine ⟨h1, ?_⟩
  split at h
  · rename_i b hb
    simp only [bind_ok_iff, require_ok_iff, decide_eq_true_eq, Bool.and_eq_true, getMint_ok_iff,
      pure_ok_iff] at h
    obtain ⟨_, h2, _, h7, m, ⟨h3, h4, h5⟩, _, h2', h6⟩ := h
    exact ⟨b, m, hb, h2, roomFor_ge h2', h3, h4, h5, h6.symm, h7⟩
  · cases h

theorem ataLen_ge (prog mint : Pubkey) (L : Ledger) : 165 ≤ ataLen prog mint L := by
  unfold ataLen
  split
  · exact tokenAccountLen_ge _
  · exact Nat.le_refl _

/-- Effect of creating an associated token account. -/
theorem ataCreate_inv {env : Env} {wallet mint prog : Pubkey} {L L' : Ledger}
    (h : ataCreate env wallet mint prog L = .ok L') :
    ∃ k m, (prog = splTokenId ∨ prog = token2022Id) ∧
      associatedTokenAddress env.cr wallet mint prog = some k ∧
      (L k).owner = systemId ∧ (L k).data = .bytes [] ∧
      (L mint).owner = prog ∧ (L mint).data = .mint m ∧ (prog = splTokenId → m.exts = []) ∧
      mint ≠ k ∧
      L' = L.set k ⟨max (L k).lamports (env.rentMin (ataLen prog mint L)), prog, .token (newTokenAcct (env.rentMin (ataLen prog mint L)) prog
        (max (L k).lamports (env.rentMin (ataLen prog mint L))) mint m wallet [.immutableOwner])⟩ := by
  unfold ataCreate at h
  simp only [bind_ok_iff, require_ok_iff, okOr_ok_iff, Bool.and_eq_true, decide_eq_true_eq] at h
  obtain ⟨_, h1, k, h2, _, ⟨h3, h4⟩, h5⟩ := h
  obtain ⟨_, b, m, i1, i2, i3, i4, i5, i6, i7, _⟩ := initializeAccount3Exec_inv h5
  have hbl : b.length = ataLen prog mint L := by
    rw [Ledger.set_same] at i1; injection i1 with i1; rw [← i1, List.length_replicate]
  have hne : mint ≠ k := by
    rintro rfl; simp at i5
  rw [Ledger.set_ne _ _ hne] at i4 i5
  refine ⟨k, m, by simpa [isTokenProgram] using h1, h2, h3, h4, i4, i5, i6, hne, ?_⟩
  rw [i7, hbl]
  funext x
  simp only [Ledger.setData_apply, Ledger.set_apply, if_true]
  split <;> rfl

theorem ataCreate_ok {env : Env} {wallet mint prog k : Pubkey} {m : Mint} {L : Ledger}
    (hp : prog = splTokenId ∨ prog = token2022Id)
    (hk : associatedTokenAddress env.cr wallet mint prog = some k)
    (ho : (L k).owner = systemId) (hd : (L k).data = .bytes [])
    (mo : (L mint).owner = prog) (md : (L mint).data = .mint m)
    (me : prog = splTokenId → m.exts = []) :
    ataCreate env wallet mint prog L = .ok (L.set k ⟨max (L k).lamports (env.rentMin (ataLen prog mint L)), prog,
      .token (newTokenAcct (env.rentMin (ataLen prog mint L)) prog
        (max (L k).lamports (env.rentMin (ataLen prog mint L))) mint m wallet [.immutableOwner])⟩) := by
  have hne : mint ≠ k := by rintro rfl; rw [hd] at md; cases md
  have e1 : isTokenProgram prog = true := by rcases hp with h | h <;> simp [isTokenProgram, h]
  have e2 : ∀ n : Nat, ((List.replicate n (0 : UInt8)).all fun x => decide (x = 0)) = true := by
    intro n; simp [List.all_replicate]
  unfold ataCreate
  simp only [e1, require_true, ok_bind, hk, okOr_some, ho, hd, decide_true, Bool.and_self]
  have hn' : roomFor prog (newAcctExts prog m [.immutableOwner]) (ataLen prog mint L) = true := by
    unfold ataLen roomFor
    rw [md]
    dsimp only
    split
    · simp [tokenAccountLen_ne]
    · rename_i h
      simp [newAcctExts, h, tokenAccountLen]
  generalize ataLen prog mint L = n at hn'
  replace e2 := e2 n
  unfold initializeAccount3Exec
  have e3 : getMint prog (L.set k ⟨max (L k).lamports (env.rentMin n), prog,
      .bytes (List.replicate n 0)⟩) mint = .ok m := by
    rw [getMint_ok_iff, Ledger.set_ne _ _ hne]; exact ⟨mo, md, me⟩
  simp only [Ledger.set_same, decide_true, require_true, ok_bind, List.length_replicate, e2,
    Bool.true_and, e3, hn', Nat.le_max_right]
  show Except.ok _ = _
  congr 1
  funext x
  simp only [Ledger.setData_apply, Ledger.set_apply, if_true]
  split <;> rfl

/-- The same with the payer: it loses what the account lacks of its rent-exempt minimum. -/
theorem ataCreatePaid_ok {env : Env} {payer wallet mint prog k : Pubkey} {m : Mint} {L : Ledger}
    (hp : prog = splTokenId ∨ prog = token2022Id)
    (hk : associatedTokenAddress env.cr wallet mint prog = some k)
    (ho : (L k).owner = systemId) (hd : (L k).data = .bytes [])
    (mo : (L mint).owner = prog) (md : (L mint).data = .mint m)
    (me : prog = splTokenId → m.exts = [])
    (po : (L payer).owner = systemId) (pd : (L payer).data = .bytes []) (pk : payer ≠ k)
    (pl : env.rentMin (ataLen prog mint L) - (L k).lamports ≤ (L payer).lamports) :
    ataCreatePaid env payer wallet mint prog L = .ok ((L.setLamports payer ((L payer).lamports -
      (env.rentMin (ataLen prog mint L) - (L k).lamports))).set k
      ⟨max (L k).lamports (env.rentMin (ataLen prog mint L)), prog,
      .token (newTokenAcct (env.rentMin (ataLen prog mint L)) prog
        (max (L k).lamports (env.rentMin (ataLen prog mint L))) mint m wallet [.immutableOwner])⟩) := by
  have hne : mint ≠ k := by rintro rfl; rw [hd] at md; cases md
  have hnp : mint ≠ payer := by rintro rfl; rw [pd] at md; cases md
  unfold ataCreatePaid
  rw [hk, okOr_some, ok_bind]
  by_cases h0 : env.rentMin (ataLen prog mint L) - (L k).lamports = 0
  · simp only [h0, if_true]
    show (Except.ok L >>= fun L1 => ataCreate env wallet mint prog L1) = _
    rw [ok_bind, ataCreate_ok hp hk ho hd mo md me]
    congr 1
    have : L.setLamports payer ((L payer).lamports - 0) = L := by
      funext x; simp only [Ledger.setLamports_apply]; split
      · rename_i hx; subst hx; rfl
      · rfl
    rw [this]
  · simp only [h0, if_false]
    generalize hn : env.rentMin (ataLen prog mint L) - (L k).lamports = n at *
    have hs : sysTransfer payer k n L =
        .ok ((L.setLamports payer ((L payer).lamports - n)).setLamports k ((L k).lamports + n)) := by
      unfold sysTransfer
      have e1 : ((L payer).owner = systemId && (L payer).data = .bytes []) = true := by simp [po, pd]
      simp only [e1, require_true, ok_bind, pl, decide_true]
      show Except.ok _ = _
      simp only [Ledger.setLamports_apply, if_neg (Ne.symm pk)]
    rw [hs, ok_bind]
    generalize hL1 : (L.setLamports payer ((L payer).lamports - n)).setLamports k
      ((L k).lamports + n) = L1
    have dm : (L1 mint).owner = (L mint).owner ∧ (L1 mint).data = (L mint).data := by
      subst hL1; simp [Ledger.setLamports_apply, hne, hnp]
    have dk : (L1 k).owner = (L k).owner ∧ (L1 k).data = (L k).data ∧
        (L1 k).lamports = (L k).lamports + n := by
      subst hL1; simp [Ledger.setLamports_apply, Ne.symm pk]
    have hlen : ataLen prog mint L1 = ataLen prog mint L := by unfold ataLen; rw [dm.2]
    rw [ataCreate_ok hp hk (dk.1.trans ho) (dk.2.1.trans hd) (dm.1.trans mo) (dm.2.trans md) me, hlen,
      dk.2.2]
    have e : max ((L k).lamports + n) (env.rentMin (ataLen prog mint L)) =
        max (L k).lamports (env.rentMin (ataLen prog mint L)) := by omega
    rw [e]
    congr 1
    funext x
    subst hL1
    simp only [Ledger.set_apply, Ledger.setLamports_apply]
    split <;> rfl

/-- Creating an associated token account only ever takes lamports from the payer. -/
theorem ataCreatePaid_inv {env : Env} {payer wallet mint prog : Pubkey} {L L' : Ledger}
    (h : ataCreatePaid env payer wallet mint prog L = .ok L') :
    ∃ k L1, associatedTokenAddress env.cr wallet mint prog = some k ∧
      (L1 = L ∨ ∃ n, sysTransfer payer k n L = .ok L1) ∧ ataCreate env wallet mint prog L1 = .ok L' := by
  unfold ataCreatePaid at h
  obtain ⟨k, hk, h⟩ := bind_ok_iff.1 h
  rw [okOr_ok_iff] at hk
  dsimp only at h
  split at h
  · obtain ⟨L1, h1, h2⟩ := bind_ok_iff.1 h
    exact ⟨k, L1, hk, .inl (pure_ok_iff.1 h1).symm, h2⟩
  · obtain ⟨L1, h1, h2⟩ := bind_ok_iff.1 h
    exact ⟨k, L1, hk, .inr ⟨_, h1⟩, h2⟩

end TokenWrap
