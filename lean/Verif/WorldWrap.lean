import Verif.WorldSteps
/-! # Token Wrap's own instructions in a history -/

set_option linter.unusedSimpArgs false

namespace TokenWrap

open scoped BigOperators

/-- `act` is a Wrap of `amount` naming `W` as the wrapped mint (second account). -/
def IsWrapOf (W : Pubkey) (amount : UInt64) (act : Act) : Prop :=
  ∃ env accounts, act = .tokenWrap env accounts (TokenWrapInstruction.wrap amount).pack ∧
    (accounts[1]?).map Meta.key = some W

/-- `act` is an Unwrap of `amount` naming `W` as the wrapped mint (eighth account). -/
def IsUnwrapOf (W : Pubkey) (amount : UInt64) (act : Act) : Prop :=
  ∃ env accounts, act = .tokenWrap env accounts (TokenWrapInstruction.unwrap amount).pack ∧
    (accounts[7]?).map Meta.key = some W

/-- `act` is a SyncMetadataToToken2022 naming `W` as the wrapped mint (first account). -/
def IsSyncOf (W : Pubkey) (act : Act) : Prop :=
  ∃ env accounts, act = .tokenWrap env accounts TokenWrapInstruction.syncMetadataToToken2022.pack ∧
    (accounts[0]?).map Meta.key = some W

/-- What a step can do to a pair. -/
inductive StepEff (bk : Bk) {cr : Crypto} (s : Setting cr) (act : Act) (L L' : Ledger) : Prop
  /-- creates no wrapped tokens, takes nothing from the escrows -/
  | quiet (h : Safe bk s L L')
  /-- a metadata sync of the wrapped mint -/
  | sync (hs : IsSyncOf s.W act) (inv : Inv bk s L') (kept : MintStays s.W L L')
      (supply : supplyOf L' s.W = supplyOf L s.W)
      (es : balanceOf L' s.Es = balanceOf L s.Es) (et : balanceOf L' s.Et = balanceOf L s.Et)
  /-- a Wrap: the escrows receive at least as much as the supply grows -/
  | wrap (amount : UInt64) (x : Nat) (hw : IsWrapOf s.W amount act) (hx : x ≤ amount.toNat)
      (inv : Inv bk s L') (kept : MintKept s.W L L')
      (supply : supplyOf L' s.W ≤ supplyOf L s.W + x)
      (es : bk → balanceOf L s.Es ≤ balanceOf L' s.Es) (et : bk → balanceOf L s.Et ≤ balanceOf L' s.Et)
      (recv : bk → balanceOf L s.Es + balanceOf L s.Et + x ≤ balanceOf L' s.Es + balanceOf L' s.Et)
  /-- an Unwrap: the supply shrinks by the amount that leaves an escrow -/
  | unwrap (amount : UInt64) (hu : IsUnwrapOf s.W amount act)
      (inv : Inv bk s L') (kept : MintKept s.W L L')
      (supply : supplyOf L' s.W + amount.toNat = supplyOf L s.W)
      (es : balanceOf L' s.Es = balanceOf L s.Es ∨
        balanceOf L' s.Es + amount.toNat = balanceOf L s.Es)
      (et : balanceOf L' s.Et = balanceOf L s.Et ∨
        balanceOf L' s.Et + amount.toNat = balanceOf L s.Et)
      (paid : balanceOf L s.Es + balanceOf L s.Et ≤
        balanceOf L' s.Es + balanceOf L' s.Et + amount.toNat)

theorem StepEff.inv {bk : Bk} {cr : Crypto} {s : Setting cr} {act : Act} {L L' : Ledger}
    (h : StepEff bk s act L L') : Inv bk s L' := by
  cases h with
  | quiet h => exact h.inv
  | sync _ inv => exact inv
  | wrap _ _ _ _ inv => exact inv
  | unwrap _ _ inv => exact inv

theorem StepEff.kept {bk : Bk} {cr : Crypto} {s : Setting cr} {act : Act} {L L' : Ledger}
    (h : StepEff bk s act L L') : MintStays s.W L L' := by
  cases h with
  | quiet h => exact h.kept.stays
  | sync _ _ k => exact k
  | wrap _ _ _ _ _ k => exact k.stays
  | unwrap _ _ _ k => exact k.stays

/-! ## Wrap -/

/-- The validated context of a successful Wrap with a hook. -/
structure WrapHookCtx (env : Env) (accounts : List Meta) (amount : UInt64) (hook : Ledger → Ledger)
    (L L' : Ledger) (a : WrapAccounts) (m : Mint) (L1 : Ledger) (pda : Pubkey) : Prop where
  accounts_eq : accounts = [a.recipient, a.wrappedMint, a.authority, a.unwrappedTokenProgram,
        a.wrappedTokenProgram, a.unwrappedTokenAccount, a.unwrappedMint, a.escrow,
        a.transferAuthority] ++ a.additional
  pos : amount ≠ 0
  mint : wrappedMintAddress env.cr a.unwrappedMint.key a.wrappedTokenProgram.key =
    some a.wrappedMint.key
  auth : authorityAddress env.cr a.wrappedMint.key = some a.authority.key
  escrow : associatedTokenAddress env.cr a.authority.key a.unwrappedMint.key
    a.unwrappedTokenProgram.key = some a.escrow.key
  uMint : (L a.unwrappedMint.key).data = .mint m
  feeLe : wrapFee env m amount.toNat ≤ amount.toNat
  transfer : wrapTransfer env accounts a m amount.toNat (wrapFee env m amount.toNat) L = .ok L1
  pdaEq : ∃ bump, authorityWithSeed env.cr a.wrappedMint.key = some (a.authority.key, bump) ∧
    signerPda env (authoritySignerSeeds a.wrappedMint.key bump) = .ok pda
  mintTo : invokeToken env accounts [pda] [a.unwrappedMint.key] a.wrappedTokenProgram.key
    (.mintTo a.wrappedMint.key a.recipient.key a.authority.key []
      (amount.toNat - wrapFee env m amount.toNat)) (hook L1) = .ok L'

theorem processWrapHooked_inv {env : Env} {accounts : List Meta} {amount : UInt64}
    {hook : Ledger → Ledger} {L L' : Ledger}
    (h : processWrapHooked env accounts amount hook L = .ok L') :
    ∃ a m L1 pda, WrapHookCtx env accounts amount hook L L' a m L1 pda := by
  unfold processWrapHooked at h
  inv_ok at h
  obtain ⟨_, hz, a, ha, em, hem, _, rfl, ⟨ea, bump⟩, hea, h⟩ := h
  dsimp only at h
  obtain ⟨_, rfl, ee, hee, _, rfl, esc, hesc, _, hown, m, hm, _, hfee, L1, htr, pda, hpda, hmt⟩ := h
  exact ⟨a, m, L1, pda, ⟨parseWrap_ok_iff.1 ha, hz, hem, authorityAddress_some.2 ⟨_, hea⟩, hee,
    hm, hfee, htr, ⟨bump, hea, hpda⟩, hmt⟩⟩

section
variable {bk : Bk} {cr : Crypto} {s : Setting cr} {L L' : Ledger} {env : Env} {accounts : List Meta}

/-- Naming `W` fixes the pair. -/
theorem Setting.pair_of_W (s : Setting cr) {u p w : Pubkey} (h : wrappedMintAddress cr u p = some w)
    (hw : w = s.W) : u = s.u ∧ p = s.wp := by
  subst hw
  have := s.rW.unique (j := .wrappedMint u p) h
  injection this with h1 h2
  exact ⟨h1, h2⟩

theorem Setting.auth_of_W (s : Setting cr) {a : Pubkey} (h : authorityAddress cr s.W = some a) :
    a = s.A := by
  have := s.rA.address
  simp only [PdaInput.address] at this
  rw [this] at h; cases h; rfl

theorem Setting.auth_ne (s : Setting cr) {w a : Pubkey} (h : authorityAddress cr w = some a)
    (hw : w ≠ s.W) : s.A ≠ a := by
  intro ha
  have := s.rA.unique (j := .authority w) (ha ▸ h)
  injection this with h1
  exact hw h1

/-- The escrow Token Wrap checks is one of the two. -/
theorem Setting.escrow_of (s : Setting cr) {p e : Pubkey} (hp : p = splTokenId ∨ p = token2022Id)
    (h : associatedTokenAddress cr s.A s.u p = some e) :
    (p = splTokenId ∧ e = s.Es) ∨ (p = token2022Id ∧ e = s.Et) := by
  rcases hp with rfl | rfl
  · have := s.rEs.address
    simp only [PdaInput.address] at this
    rw [this] at h; cases h; exact .inl ⟨rfl, rfl⟩
  · have := s.rEt.address
    simp only [PdaInput.address] at this
    rw [this] at h; cases h; exact .inr ⟨rfl, rfl⟩

/-- Nobody can make `A` approve. -/
theorem not_approves_A (inv : Inv bk s L) (hs : ∀ k, Signs accounts k → CanSign cr k) :
    ¬ Approves L accounts s.A := by
  unfold Approves
  rw [inv.a.2]
  intro h
  exact s.A_noSign (hs _ h)

theorem wrapTransfer_safe {S : Pubkey → Prop} {a : WrapAccounts} {m : Mint} {amount fee : Nat} (inv : Inv bk s L)
    (np : bk → PDQuiet s.u S L) (hS : ∀ k, Signs accounts k → S k)
    (hs : ∀ k, Signs accounts k → CanSign cr k)
    (h : wrapTransfer env accounts a m amount fee L = .ok L') : Safe bk s L L' := by
  unfold wrapTransfer at h
  dsimp only at h
  split at h
  · exact cpi_safe inv np (by simpa using hS) hs (by simp) h
  · exact cpi_safe inv np (by simpa using hS) hs (by simp) h

theorem Approves.approvesBy {S : Pubkey → Prop} {k : Pubkey} (h : Approves L accounts k)
    (hS : ∀ k, Signs accounts k → S k) : ApprovesBy L S k := by
  unfold Approves at h
  split at h
  · rename_i ms hd
    rcases h with h | ⟨mem, h1, h2, h3⟩
    · exact .inl (hS _ h)
    · exact .inr ⟨ms, mem, hd, h1, h2, fun x hx => hS x (h3 x hx)⟩
  · exact .inl (hS _ h)

/-- The PDA of a CPI counts among the signers of the act. -/
theorem Act.signer_pda {w a pda : Pubkey} {data : Bytes} (h : authorityAddress cr w = some a)
    (hp : pda = a) : ∀ k, Signs accounts k ∨ k ∈ [pda] →
      (Act.tokenWrap env accounts data).Signer cr k := by
  rintro k (hk | hk)
  · exact .inl hk
  · exact .inr ⟨w, by rw [h, ← hp, List.mem_singleton.1 hk]⟩

/-- Tokens arriving in an escrow from outside. -/
theorem escrow_receives {S : Pubkey → Prop} {p E src : Pubkey} {t d t' : TokenAcct} {n fee : Nat}
    (inv : Inv bk s L) (np : PDQuiet s.u S L) (hS : ∀ k, Signs accounts k → S k)
    (hs : ∀ k, Signs accounts k → CanSign cr k)
    (hE : EscrowOk s.u s.A p E L) (hd : (L E).data = .token d) (ht : (L src).data = .token t)
    {auth : Pubkey} {m : Mint} {prog : Pubkey} (hm : (L s.u).data = .mint m)
    (sp : SpentBy t (pdOf prog m) auth n) (ap : Approves L accounts auth)
    (mv : Transferred L L' src E t' d n fee) :
    fee ≤ n ∧ balanceOf L' E = balanceOf L E + (n - fee) := by
  have hne : src ≠ E := by
    rintro rfl
    rcases hE with hb | ⟨_, t0, h0, _, tow, tdel, _⟩
    · rw [hb.2] at hd; cases hd
    · rw [ht] at h0; cases h0
      have : auth = s.A := by
        cases sp with
        | permanentDelegate h =>
          unfold pdOf at h
          split at h
          · exact absurd (ap.approvesBy hS) (np m auth hm h)
          · cases h
        | delegate h => rw [tdel] at h; cases h
        | owner h => rw [tow] at h; exact h.symm
      subst this
      exact not_approves_A inv hs ap
  rcases mv with ⟨h, _⟩ | ⟨_, h⟩
  · exact absurd h hne
  · obtain ⟨h1, _, _, _, _, h6, _⟩ := transferMove_inv hne h
    rw [balanceOf_token h6, balanceOf_token hd]
    exact ⟨h1, rfl⟩

/-- What a Wrap of the pair does that credits `x`. -/
structure WrapEff (bk : Bk) {cr : Crypto} (s : Setting cr) (L L' : Ledger) (x : Nat) : Prop where
  inv : Inv bk s L'
  kept : MintKept s.W L L'
  supply : supplyOf L' s.W ≤ supplyOf L s.W + x
  es : bk → balanceOf L s.Es ≤ balanceOf L' s.Es
  et : bk → balanceOf L s.Et ≤ balanceOf L' s.Et
  recv : bk → balanceOf L s.Es + balanceOf L s.Et + x ≤ balanceOf L' s.Es + balanceOf L' s.Et

/-- Wrap of the pair, with or without a transfer hook: what is credited is the amount less the fee. -/
theorem wrap_step_W {amount : UInt64} {hook : Ledger → Ledger} {ok : Act → Ledger → Prop}
    (hok : ∀ act L, ok act L → (bk → PDIdle cr s.u act L) ∧ AllFunded L) (inv : Inv bk s L)
    (np : bk → PDIdle cr s.u (.tokenWrap env accounts (TokenWrapInstruction.wrap amount).pack) L)
    (hcr : env.cr = cr)
    (hs : ∀ k, Signs accounts k → CanSign cr k) (hhook : ∀ L1, Run cr ok L1 (hook L1))
    (h : processWrapHooked env accounts amount hook L = .ok L')
    (hacc : (accounts[1]?).map Meta.key = some s.W) :
    ∃ m p fee, (L s.u).data = .mint m ∧ (p = splTokenId ∨ p = token2022Id) ∧
      (p = splTokenId → m.exts = []) ∧ feeOf p env.epoch m amount.toNat = .ok fee ∧
      fee ≤ amount.toNat ∧ WrapEff bk s L L' (amount.toNat - fee) := by
  obtain ⟨a, m, L1, pda, c⟩ := processWrapHooked_inv h
  have s1 : Safe bk s L L1 := wrapTransfer_safe inv np (fun _ h => .inl h) hs c.transfer
  have s2 : Safe bk s L1 (hook L1) := run_safe hok s1.inv (hhook L1)
  have s12 := s1.trans s2
  obtain ⟨w, r, mt⟩ := mintTo_cpi c.mintTo
  have hcm := c.mint
  have hca := c.auth
  have hce := c.escrow
  rw [hcr] at hcm hca hce
  have hW : a.wrappedMint.key = s.W := by
    rw [c.accounts_eq] at hacc; simpa using hacc
  obtain ⟨hu, hp⟩ := s.pair_of_W hcm hW
  rw [hW] at hca
  have hA := s.auth_of_W hca
  obtain ⟨t, d, t', tr⟩ := wrapTransfer_inv c.uMint c.transfer
  rw [hA, hu] at hce
  have hum := c.uMint
  rw [hu] at hum
  have hx : bk → wrapFee env m amount.toNat ≤ amount.toNat ∧
      balanceOf L s.Es + balanceOf L s.Et + (amount.toNat - wrapFee env m amount.toNat) ≤
        balanceOf L1 s.Es + balanceOf L1 s.Et := by
    intro b
    rcases s.escrow_of tr.uprog hce with ⟨_, he⟩ | ⟨_, he⟩
    · have := tr.moved
      rw [he] at this
      have hd := tr.escData
      rw [he] at hd
      have := escrow_receives inv (np b) (fun _ h => .inl h) hs inv.es hd tr.srcData hum tr.spent tr.approved this
      have := s1.et b
      omega
    · have := tr.moved
      rw [he] at this
      have hd := tr.escData
      rw [he] at hd
      have := escrow_receives inv (np b) (fun _ h => .inl h) hs inv.et hd tr.srcData hum tr.spent tr.approved this
      have := s1.es b
      omega
  rw [hW] at mt
  have q1 := s12.supply
  obtain ⟨i1, i2, i3, i4, i5⟩ := mt.wrapped s2.inv (by
    intro b
    have := inv.backed b
    have := hx b
    have := s2.es b
    have := s2.et b
    omega)
  refine ⟨m, _, wrapFee env m amount.toNat, hum, tr.uprog, tr.splExts, tr.feeEq, c.feeLe, i1,
    s12.kept.trans i5, by omega, ?_, ?_, ?_⟩
  · intro b; rw [balanceOf_kept i3]; exact s12.es b
  · intro b; rw [balanceOf_kept i4]; exact s12.et b
  · intro b
    have := hx b
    have := s2.es b
    have := s2.et b
    rw [balanceOf_kept i3, balanceOf_kept i4]; omega

/-- Wrap, with or without a transfer hook. -/
theorem wrap_step {amount : UInt64} {hook : Ledger → Ledger} {ok : Act → Ledger → Prop}
    (hok : ∀ act L, ok act L → (bk → PDIdle cr s.u act L) ∧ AllFunded L) (inv : Inv bk s L)
    (np : bk → PDIdle cr s.u (.tokenWrap env accounts (TokenWrapInstruction.wrap amount).pack) L)
    (hcr : env.cr = cr)
    (hs : ∀ k, Signs accounts k → CanSign cr k) (hhook : ∀ L1, Run cr ok L1 (hook L1))
    (h : processWrapHooked env accounts amount hook L = .ok L') :
    StepEff bk s (.tokenWrap env accounts (TokenWrapInstruction.wrap amount).pack) L L' := by
  by_cases hacc : (accounts[1]?).map Meta.key = some s.W
  · obtain ⟨m, p, fee, _, _, _, _, _, e⟩ := wrap_step_W hok inv np hcr hs hhook h hacc
    exact .wrap amount (amount.toNat - fee) ⟨env, accounts, rfl, hacc⟩ (Nat.sub_le _ _) e.inv e.kept
      e.supply e.es e.et e.recv
  · obtain ⟨a, m, L1, pda, c⟩ := processWrapHooked_inv h
    have s1 : Safe bk s L L1 := wrapTransfer_safe inv np (fun _ h => .inl h) hs c.transfer
    have s2 : Safe bk s L1 (hook L1) := run_safe hok s1.inv (hhook L1)
    obtain ⟨w, r, mt⟩ := mintTo_cpi c.mintTo
    have hW : a.wrappedMint.key ≠ s.W := by
      rintro hW
      exact hacc (by rw [c.accounts_eq]; simp [hW])
    exact .quiet ((s1.trans s2).trans (mt.safe_other s2.inv hW))

/-! ## Unwrap -/

/-- Tokens leaving an escrow by `A`'s signature. -/
theorem escrow_pays {p E dst : Pubkey} {e e' d : TokenAcct} {n fee : Nat} (inv : Inv bk s L)
    (hp : p = splTokenId ∨ p = token2022Id)
    (hEp : (p = splTokenId ∧ E = s.Es) ∨ (p = token2022Id ∧ E = s.Et))
    (hed : (L E).data = .token e) (same : SameButDelegation e e')
    (hdo : (L dst).owner = p) (hdd : (L dst).data = .token d) (hdm : d.mint = s.u)
    (hb : bk → supplyOf L s.W + n ≤ balanceOf L s.Es + balanceOf L s.Et + bk.debt) (hn : n ≤ e.amount)
    (mv : Transferred L L' E dst e' d n fee) :
    Inv bk s L' ∧ Kept L L' s.W ∧
      (balanceOf L' s.Es = balanceOf L s.Es ∨ balanceOf L' s.Es + n = balanceOf L s.Es) ∧
      (balanceOf L' s.Et = balanceOf L s.Et ∨ balanceOf L' s.Et + n = balanceOf L s.Et) ∧
      balanceOf L s.Es + balanceOf L s.Et ≤ balanceOf L' s.Es + balanceOf L' s.Et + n := by
  rcases mv with ⟨rfl, rfl⟩ | ⟨hne, mv⟩
  · exact ⟨inv, .rfl', .inl rfl, .inl rfl, by omega⟩
  obtain ⟨_, m2, _, m4, m5, m6, m7, m8, _⟩ := transferMove_inv hne mv
  have hE : EscrowOk s.u s.A p E L := by
    rcases hEp with ⟨rfl, rfl⟩ | ⟨rfl, rfl⟩
    · exact inv.es
    · exact inv.et
  have kW : Kept L L' s.W := by
    refine .of_eq (m8 _ ?_ ?_)
    · rintro h; rw [← h] at hed; exact inv.no_token_W hed
    · rintro rfl; exact inv.no_token_W hdd
  have kA : Kept L L' s.A := by
    refine .of_eq (m8 _ ?_ ?_)
    · rintro h; rw [← h] at hed; exact inv.no_token_A hed
    · rintro rfl; exact inv.no_token_A hdd
  have kB : Kept L L' s.B := by
    refine .of_eq (m8 _ ?_ ?_)
    · rintro h; rw [← h] at hed; exact inv.no_token_B hed
    · rintro rfl; exact inv.no_token_B hdd
  -- the escrow itself
  have hE' : EscrowOk s.u s.A p E L' ∧ balanceOf L' E + n = balanceOf L E ∧ (L E).owner = p ∧
      e.mint = s.u := by
    rcases hE with hb | ⟨ho, t, h0, tm, tow, tdel, tca, tam⟩
    · rw [hb.2] at hed; cases hed
    · rw [hed] at h0; cases h0
      have hdel : e'.delegate = none := by
        rcases same.delegate with h | h
        · rw [h, tdel]
        · exact h
      refine ⟨.inr ⟨m5.trans ho, _, m4, same.mint.trans tm, same.owner.trans tow, hdel,
        same.closeAuthority.trans tca, ?_⟩, ?_, ho, tm⟩
      · have := same.amount; dsimp only; omega
      · rw [balanceOf_token m4, balanceOf_token hed]
        have := same.amount; dsimp only; omega
  obtain ⟨e1, e2, e3, e4⟩ := hE'
  -- the other escrow
  have other : ∀ {p2 E2 : Pubkey}, p2 ≠ p → E2 ≠ E → (p2 = splTokenId ∨ p2 = token2022Id) →
      EscrowOk s.u s.A p2 E2 L → Kept L L' E2 := by
    intro p2 E2 hpp hEE _ hE2
    refine .of_eq (m8 _ hEE ?_)
    rintro rfl
    rcases hE2 with hb | ⟨ho, _⟩
    · rw [hb.2] at hdd; cases hdd
    · exact hpp (ho.symm.trans hdo)
  have claims0 : ∀ k, claimOf s.wp s.W L' k ≤ claimOf s.wp s.W L k := by
    intro k
    by_cases k1 : k = E
    · subst k1
      by_cases ho : (L' k).owner = s.wp
      · rw [claimOf_token ho m4, if_neg]
        · omega
        · show e'.mint ≠ s.W
          rw [same.mint, e4]; exact s.W_ne_u
      · rw [claimOf_owner ho]; omega
    · by_cases k2 : k = dst
      · subst k2
        by_cases ho : (L' k).owner = s.wp
        · rw [claimOf_token ho m6, if_neg]
          · omega
          · show d.mint ≠ s.W
            rw [hdm]; exact s.W_ne_u
        · rw [claimOf_owner ho]; omega
      · rw [claimOf_kept (.of_eq (m8 k k1 k2))]
  have noNat : ∀ k t, (L' k).owner = s.wp → (L' k).data = .token t → t.mint = s.W →
      t.isNative = none := by
    intro k t h1 h2 h3
    by_cases k1 : k = E
    · subst k1; rw [m4] at h2; cases h2
      exact absurd ((same.mint.trans e4).symm.trans h3) s.W_ne_u
    · by_cases k2 : k = dst
      · subst k2; rw [m6] at h2; cases h2
        exact absurd (hdm.symm.trans h3) s.W_ne_u
      · rw [m8 k k1 k2] at h1 h2; exact inv.noNative k t h1 h2 h3
  have hsup := supplyOf_kept kW
  rcases hEp with ⟨rfl, rfl⟩ | ⟨rfl, rfl⟩
  · have k2 := other (Ne.symm spl_ne_2022) (Ne.symm s.Es_ne_Et) (.inr rfl) inv.et
    have hb2 := balanceOf_kept k2
    refine ⟨⟨inv.a.kept kA, e1, inv.et.kept k2, inv.wKept kW kB, noNat, ?_, ?_⟩, kW,
      .inr e2, .inl hb2, ?_⟩
    · rw [hsup]; exact sum_mono (Nat.le_refl _) claims0 inv.claims
    · intro b; have := hb b; rw [hsup, hb2]; omega
    · rw [hb2]; omega
  · have k2 := other spl_ne_2022 s.Es_ne_Et (.inl rfl) inv.es
    have hb2 := balanceOf_kept k2
    refine ⟨⟨inv.a.kept kA, inv.es.kept k2, e1, inv.wKept kW kB, noNat, ?_, ?_⟩, kW,
      .inl hb2, .inr e2, ?_⟩
    · rw [hsup]; exact sum_mono (Nat.le_refl _) claims0 inv.claims
    · intro b; have := hb b; rw [hsup, hb2]; omega
    · rw [hb2]; omega

/-- A burn does not change what a permanent delegate approves. -/
theorem pdQuiet_burn {S : Pubkey → Prop} {u acct mk : Pubkey} {x y : TokenAcct} {w : Mint} {n : Nat}
    (np : PDQuiet u S L)
    (hw : (L mk).data = .mint w) (ha : (L acct).data = .token x)
    (hL : L' = (L.setData acct (.token y)).setData mk (.mint { w with supply := w.supply - n })) :
    PDQuiet u S L' := by
  intro m pd hm hp ha'
  subst hL
  have hms : ApprovesBy L S pd := by
    rcases ha' with h | ⟨ms, mem, h1, h2⟩
    · exact .inl h
    · refine .inr ⟨ms, mem, ?_, h2⟩
      by_cases e1 : pd = mk
      · subst e1; rw [setData_data] at h1; cases h1
      · rw [Ledger.setData_ne _ _ e1] at h1
        by_cases e2 : pd = acct
        · subst e2; rw [setData_data] at h1; cases h1
        · rw [Ledger.setData_ne _ _ e2] at h1; exact h1
  by_cases h1 : u = mk
  · subst h1
    rw [setData_data] at hm
    cases hm
    exact np w pd hw hp hms
  · rw [Ledger.setData_ne _ _ h1] at hm
    by_cases h2 : u = acct
    · subst h2; rw [setData_data] at hm; cases hm
    · rw [Ledger.setData_ne _ _ h2] at hm; exact np m pd hm hp hms

theorem unwrap_step {amount : UInt64} (inv : Inv bk s L)
    (np : bk → PDIdle cr s.u (.tokenWrap env accounts (TokenWrapInstruction.unwrap amount).pack) L)
    (hcr : env.cr = cr)
    (hid : env.programId = crateId) (hs : ∀ k, Signs accounts k → CanSign cr k)
    (h : processUnwrap env accounts amount L = .ok L') :
    StepEff bk s (.tokenWrap env accounts (TokenWrapInstruction.unwrap amount).pack) L L' := by
  obtain ⟨a, m, w, hh, h', e, e', d, fee, L1, f⟩ := processUnwrap_effect h
  obtain ⟨pda, c⟩ := f.ctx
  have s1 : Safe bk s L L1 := cpi_safe inv np (by simp; exact fun _ h => .inl h) hs (by simp) c.burn
  have hcm := c.mint
  have hca := c.auth
  have hce := c.escrow
  rw [hcr] at hcm hca hce
  have hpda : pda = a.authority.key := pda_authority hid c.pdaEq
  by_cases hW : a.wrappedMint.key = s.W
  · obtain ⟨hu, hp⟩ := s.pair_of_W hcm hW
    rw [hW] at hca
    have hA := s.auth_of_W hca
    rw [hA, hu] at hce
    have hEp := s.escrow_of f.uprog hce
    have hmid := f.mid
    rw [hW] at hmid
    have hsup : supplyOf L1 s.W + amount.toNat = supplyOf L s.W := by
      have h1 : (L1 s.W).data = .mint { w with supply := w.supply - amount.toNat } := by
        rw [hmid]; exact setData_data _ _ _
      have h2 := f.wData
      rw [hW] at h2
      have := f.wSupply
      rw [supplyOf_mint h1, supplyOf_mint h2]
      dsimp only
      omega
    have hdm := f.dMint
    rw [hu] at hdm
    -- the burn leaves the escrows exactly alone
    have kE : ∀ {p E : Pubkey}, E ≠ s.W → EscrowOk s.u s.A p E L → balanceOf L1 E = balanceOf L E := by
      intro p E hne hE
      refine balanceOf_kept (.of_eq ?_)
      rw [hmid, Ledger.setData_ne _ _ hne]
      refine Ledger.setData_ne _ _ ?_
      rintro rfl
      rcases hE with hb | ⟨_, t, h0, tm, _⟩
      · have := f.hData; rw [hb.2] at this; cases this
      · have := f.hData
        rw [h0] at this; cases this
        have := f.hMint
        rw [hW, tm] at this
        exact s.W_ne_u this
    have b1 := kE (Ne.symm s.W_ne_Es) inv.es
    have b2 := kE (Ne.symm s.W_ne_Et) inv.et
    obtain ⟨i1, i2, i3, i4, i5⟩ := escrow_pays (n := amount.toNat) s1.inv f.uprog hEp f.eData f.eSame
      f.dOwner f.dData hdm (fun b => by have := inv.backed b; omega) f.eEnough f.moved
    have hsup' := supplyOf_kept i2
    refine .unwrap amount ⟨env, accounts, rfl, ?_⟩ i1 (s1.kept.trans (.of_kept i2)) (by omega)
      (by omega) (by omega) (by omega)
    rw [c.accounts_eq]; simp [hW]
  · have hne := s.auth_ne hca hW
    have np1 := fun b => pdQuiet_burn (np b) f.wData f.hData f.mid
    exact .quiet (s1.trans (cpi_safe s1.inv np1 (Act.signer_pda hca hpda) hs (by simp [hpda, hne])
      c.transfer))

/-! ## CloseStuckEscrow -/

theorem close_step {data : Bytes} (inv : Inv bk s L)
    (np : bk → PDIdle cr s.u (.tokenWrap env accounts data) L) (hcr : env.cr = cr)
    (hid : env.programId = crateId) (hs : ∀ k, Signs accounts k → CanSign cr k)
    (h : processCloseStuckEscrow env accounts L = .ok L') : Safe bk s L L' := by
  obtain ⟨a, t, m, pda, c⟩ := processClose_effect h
  have hcm := c.mint
  have hca := c.auth
  have hce := c.escrow
  rw [hcr] at hcm hca hce
  have hpda : pda = a.authority.key := pda_authority hid c.pdaEq
  by_cases hW : a.wrappedMint.key = s.W
  · obtain ⟨hu, hp⟩ := s.pair_of_W hcm hW
    rw [hW] at hca
    have hA := s.auth_of_W hca
    rw [hA, hu] at hce
    have hEt : a.escrow.key = s.Et := by
      rcases s.escrow_of (.inr rfl) hce with ⟨h, _⟩ | ⟨_, h⟩
      · exact absurd h (Ne.symm spl_ne_2022)
      · exact h
    have hf := c.final
    have hne := c.ne
    have hd := c.eData
    rw [hEt] at hf hne hd
    have hk : ∀ x, x ≠ s.Et → Kept L L' x := by
      intro x hx
      rw [hf]
      by_cases h2 : x = a.destination.key
      · subst h2
        exact kept_closeOut hne hx
      · exact .of_eq (closeOut_other _ hx h2)
    have hbl : Blank L' s.Et := by
      unfold Blank; rw [hf, closeOut_same]; exact ⟨rfl, rfl⟩
    have hb0 : balanceOf L s.Et = 0 := by rw [balanceOf_token hd]; exact c.empty
    refine inv.safe_of (hk _ s.A_ne_Et) (hk _ s.W_ne_Et) (hk _ s.B_ne_Et)
      (inv.es.kept (hk _ s.Es_ne_Et)) (fun _ => by rw [balanceOf_kept (hk _ s.Es_ne_Et)]) (.inl hbl)
      (fun _ => by omega) ?_
    intro k t h1 h2 h3
    by_cases hx : k = s.Et
    · subst hx; rw [hbl.2] at h2; cases h2
    · left; rw [← (hk k hx).1, ← (hk k hx).2]; exact ⟨h1, h2⟩
  · have hne := s.auth_ne hca hW
    exact cpi_safe inv np (Act.signer_pda hca hpda) hs (by simp [hpda, hne]) c.cpi

/-! ## CreateMint -/

theorem createMint_step {idem : Bool} (inv : Inv bk s L) (hcr : env.cr = cr)
    (hid : env.programId = crateId) (hr : ∀ n, 0 < env.rentMin n)
    (h : processCreateMint env defaultToken2022Customizer accounts idem L = .ok L') :
    Safe bk s L L' := by
  obtain ⟨a, c, h⟩ := processCreateMint_inv h
  rcases h with ⟨_, rfl, _⟩ | ⟨mb, bb, L1, hl, hlb, _, _, h1, h2⟩
  · exact .rfl' inv
  obtain ⟨m, A, space, _, _, brent, d1, d2, um, wu, wb, hA, hp, rfl⟩ :=
    createMint_fresh default_spec h1 h2
  have hcm := c.mint
  have hcb := c.bp
  rw [hcr] at hcm hcb hA
  have hk : ∀ L2 : Ledger, L2 = (L.set a.wrappedMint.key ⟨(L a.wrappedMint.key).lamports,
      a.wrappedTokenProgram.key,
        .mint { mintAuthority := some A, supply := 0, decimals := m.decimals,
                freezeAuthority := m.freezeAuthority,
                exts := if a.wrappedTokenProgram.key = token2022Id then
                  defaultExts A a.wrappedMint.key else [] }⟩).set a.backpointer.key
        ⟨(L a.backpointer.key).lamports, env.programId, .bytes a.unwrappedMint.key.bytes⟩ →
      Safe bk s L L2 := by
    intro L2 h2
    have hbk : (L2 a.backpointer.key).owner = env.programId ∧
        (L2 a.backpointer.key).data = .bytes a.unwrappedMint.key.bytes := by
      rw [h2, Ledger.set_same]; exact ⟨rfl, rfl⟩
    have hbl : 0 < (L2 a.backpointer.key).lamports := by
      rw [h2, Ledger.set_same]; exact Nat.lt_of_lt_of_le (hr 32) brent
    have hwk : (L2 a.wrappedMint.key).owner = a.wrappedTokenProgram.key ∧
        (L2 a.wrappedMint.key).data = .mint
          { mintAuthority := some A, supply := 0, decimals := m.decimals,
            freezeAuthority := m.freezeAuthority,
            exts := (if a.wrappedTokenProgram.key = token2022Id then
                  defaultExts A a.wrappedMint.key else []) } := by
      rw [h2, Ledger.set_ne _ _ wb, Ledger.set_same]; exact ⟨rfl, rfl⟩
    have hf : ∀ x, x ≠ a.wrappedMint.key → x ≠ a.backpointer.key → Kept L L2 x := by
      intro x x1 x2
      exact .of_eq (by rw [h2, Ledger.set_ne _ _ x2, Ledger.set_ne _ _ x1])
    have hold : ∀ k t, (L2 k).owner = s.wp → (L2 k).data = .token t → t.mint = s.W →
        ((L k).owner = s.wp ∧ (L k).data = .token t) ∨
        (t.isNative = none ∧ t.amount = 0 ∧ t.confidential = 0) := by
      intro k t g1 g2 _
      by_cases k1 : k = a.wrappedMint.key
      · subst k1; rw [hwk.2] at g2; cases g2
      · by_cases k2 : k = a.backpointer.key
        · subst k2; rw [hbk.2] at g2; cases g2
        · left; rw [← (hf k k1 k2).1, ← (hf k k1 k2).2]; exact ⟨g1, g2⟩
    by_cases hW : a.wrappedMint.key = s.W
    · obtain ⟨hu, hwp⟩ := s.pair_of_W hcm hW
      rw [hW] at hA hcb
      have hA' := s.auth_of_W hA
      have hB : a.backpointer.key = s.B := by
        have := s.rB.address
        simp only [PdaInput.address] at this
        rw [this] at hcb; exact (Option.some.inj hcb).symm
      have hblank : Blank L s.W := by
        rw [← hW]; unfold Blank; rw [d1]; exact ⟨rfl, rfl⟩
      have hs0 : supplyOf L s.W = 0 := by unfold supplyOf; rw [hblank.2]
      rw [hW] at hwk hf
      rw [hB] at hbk hf hbl
      have kA := hf s.A (Ne.symm s.W_ne_A) s.A_ne_B
      have kEs := hf s.Es (Ne.symm s.W_ne_Es) (Ne.symm s.B_ne_Es)
      have kEt := hf s.Et (Ne.symm s.W_ne_Et) (Ne.symm s.B_ne_Et)
      have hs2 : supplyOf L2 s.W = 0 := supplyOf_mint hwk.2
      refine ⟨⟨inv.a.kept kA, inv.es.kept kEs, inv.et.kept kEt, .inr ⟨hwk.1.trans hwp,
        ⟨_, hwk.2, by rw [hA'], by simp, ?_⟩, hbk.1.trans hid, by rw [hbk.2, hu], hbl⟩, ?_, ?_, ?_⟩,
        fun _ => by rw [balanceOf_kept kEs], fun _ => by rw [balanceOf_kept kEt], by omega, ?_⟩
      · rw [hA', hwp]
        rcases s.wpOk with h | h
        · exact .inl ⟨h, by simp [h, spl_ne_2022]⟩
        · exact .inr ⟨h, .inl (by simp [h])⟩
      · intro k t g1 g2 g3
        rcases hold k t g1 g2 g3 with ⟨g4, g5⟩ | g
        · exact inv.noNative k t g4 g5 g3
        · exact g.1
      · rw [hs2]
        have := inv.claims
        rw [hs0] at this
        refine sum_mono (Nat.le_refl _) ?_ this
        intro k
        by_cases k1 : k = s.W
        · subst k1; rw [claimOf_nontoken (by rw [hwk.2]; simp)]; omega
        · by_cases k2 : k = s.B
          · subst k2; rw [claimOf_nontoken (by rw [hbk.2]; simp)]; omega
          · rw [claimOf_kept (hf k k1 k2)]
      · intro _; rw [hs2]; omega
      · intro m0 hm0; rw [hblank.2] at hm0; cases hm0
    · have hne : a.wrappedMint.key ∉ s.keys := by
        refine s.foreign (i := .wrappedMint a.unwrappedMint.key a.wrappedTokenProgram.key) hcm
          ⟨?_, by simp, by simp, by simp, by simp⟩
        intro he
        injection he with h1 h2
        rw [h1, h2] at hcm
        have := s.rW.address
        simp only [PdaInput.address] at this
        rw [this] at hcm; exact hW (Option.some.inj hcm).symm
      have hnb : a.backpointer.key ∉ s.keys := by
        refine s.foreign (i := .backpointer a.wrappedMint.key) hcb
          ⟨by simp, by simp, ?_, by simp, by simp⟩
        intro he
        injection he with h1
        exact hW h1
      exact inv.safe_foreign (fun k hk => hf k (by rintro rfl; exact hne hk)
        (by rintro rfl; exact hnb hk)) hold
  exact hk _ rfl

/-! ## Metadata and pointer instructions -/

/-- Replacing a mint by a mint at a foreign address. -/
theorem Inv.safe_setMint (inv : Inv bk s L) {k : Pubkey} {m : Mint} (hk : k ∉ s.keys) :
    Safe bk s L (L.setData k (.mint m)) := by
  refine inv.safe_one hk (fun x hx => kept_setData hx) ?_
  intro t _ h2
  rw [setData_data] at h2; cases h2

theorem wrappedExts_shape {A W wp : Pubkey} {m m' : Mint} {src : TokenMetadata}
    {order : List String → List String} (h : WrappedExts A W wp m.exts)
    (shape : (∃ md, m.tokenMetadata? = some md ∧ m' = withMd m (syncedMd W A src order (some md))) ∨
      (m.tokenMetadata? = none ∧ m.mintAuthority = some A ∧ m.metadataPointer?.isSome = true ∧
        m' = { m with exts := m.exts ++ [.tokenMetadata (syncedMd W A src order none)] })) :
    WrappedExts A W wp m'.exts := by
  rcases h with ⟨h1, h2⟩ | ⟨h1, h2⟩
  · rcases shape with ⟨md, h3, _⟩ | ⟨_, _, h3, _⟩
    · simp [Mint.tokenMetadata?, h2] at h3
    · simp [Mint.metadataPointer?, h2] at h3
  · refine .inr ⟨h1, .inr ?_⟩
    rcases h2 with h2 | ⟨md0, h2, h4, h5, h6⟩
    · rcases shape with ⟨md, h3, _⟩ | ⟨_, _, _, rfl⟩
      · simp [Mint.tokenMetadata?, h2, defaultExts] at h3
      · exact ⟨_, by rw [h2], rfl, rfl, collectMap_nodup _⟩
    · rcases shape with ⟨md, h3, rfl⟩ | ⟨h3, _⟩
      · have : md = md0 := by
          simp [Mint.tokenMetadata?, h2, defaultExts] at h3; exact h3.symm
        subst this
        refine ⟨syncedMd W A src order (some md), ?_, ?_, ?_, ?_⟩
        · simp [withMd, mapMetadata, h2, defaultExts]
        · simp [syncedMd, h4]
        · simp [syncedMd, h5]
        · exact dropKeys_nodup _ (syncAddPure_nodup _ _ h6)
      · simp [Mint.tokenMetadata?, h2, defaultExts] at h3

theorem sync22_step (inv : Inv bk s L) (hcr : env.cr = cr)
    (h : processSyncToToken2022 env accounts L = .ok L') :
    StepEff bk s (.tokenWrap env accounts TokenWrapInstruction.syncMetadataToToken2022.pack) L L' := by
  obtain ⟨a, src, m, m', e⟩ := processSync22_effect h
  have hcm := e.mint
  have hca := e.auth
  rw [hcr] at hcm hca
  by_cases hW : a.wrappedMint.key = s.W
  · obtain ⟨hu, hwp⟩ := s.pair_of_W hcm hW
    rw [hW] at hca
    have hA := s.auth_of_W hca
    have hd := e.wData
    have hf := e.final
    have hsh := e.shape
    rw [hW] at hd hf
    rw [hW, hA] at hsh
    have hw : WrappedOk s L := by
      rcases inv.w with ⟨hb, _⟩ | hw
      · rw [hb.2] at hd; cases hd
      · exact hw
    obtain ⟨w, wd, wa, wsup, wex⟩ := hw.mint
    rw [wd] at hd; cases hd
    have hm' : m' = { m with exts := m'.exts } := e.same.1
    have f1 : m'.mintAuthority = m.mintAuthority := by rw [hm']
    have f2 : m'.supply = m.supply := by rw [hm']
    have f3 : m'.decimals = m.decimals := by rw [hm']
    have f4 : m'.freezeAuthority = m.freezeAuthority := by rw [hm']
    have hd' : (L' s.W).data = .mint m' := by rw [hf]; exact setData_data _ _ _
    have ho' : (L' s.W).owner = (L s.W).owner := by rw [hf]; simp
    have hk : ∀ x, x ≠ s.W → Kept L L' x := by intro x hx; rw [hf]; exact kept_setData hx
    have hsup : supplyOf L' s.W = supplyOf L s.W := by
      rw [supplyOf_mint hd', supplyOf_mint wd, f2]
    have kEs := hk s.Es (Ne.symm s.W_ne_Es)
    have kEt := hk s.Et (Ne.symm s.W_ne_Et)
    have kB := hk s.B (Ne.symm s.W_ne_B)
    have hin : IsSyncOf s.W (.tokenWrap env accounts
        TokenWrapInstruction.syncMetadataToToken2022.pack) := by
      obtain ⟨rest, hacc, _⟩ := parseSync22_ok_iff.1 e.parsed
      exact ⟨env, accounts, rfl, by rw [hacc]; simp [hW]⟩
    refine .sync hin ⟨inv.a.kept (hk _ (Ne.symm s.W_ne_A)), inv.es.kept kEs, inv.et.kept kEt,
      .inr ⟨ho'.trans hw.owner, ⟨m', hd', by rw [f1]; exact wa, by rw [f2]; exact wsup,
        wrappedExts_shape wex hsh⟩, kB.1.trans hw.bOwner, kB.2.trans hw.bData,
        Nat.lt_of_lt_of_le hw.bLam (kB.lam hw.bOwner)⟩, ?_, ?_, ?_⟩ ?_ hsup
      (balanceOf_kept kEs) (balanceOf_kept kEt)
    · intro k t g1 g2 g3
      by_cases k1 : k = s.W
      · subst k1; rw [hd'] at g2; cases g2
      · rw [(hk k k1).1] at g1; rw [(hk k k1).2] at g2; exact inv.noNative k t g1 g2 g3
    · rw [hsup]
      refine sum_mono (Nat.le_refl _) ?_ inv.claims
      intro k
      by_cases k1 : k = s.W
      · subst k1; rw [claimOf_nontoken (by rw [hd']; simp)]; omega
      · rw [claimOf_kept (hk k k1)]
    · rw [hsup, balanceOf_kept kEs, balanceOf_kept kEt]; exact inv.backed
    · intro m0 hm0
      rw [wd] at hm0; cases hm0
      exact ⟨m', hd', f3, fun h => by rw [f4]; exact h⟩
  · have hne : a.wrappedMint.key ∉ s.keys := by
      refine s.foreign (i := .wrappedMint a.unwrappedMint.key token2022Id) hcm
        ⟨?_, by simp, by simp, by simp, by simp⟩
      intro he
      injection he with h1 h2
      rw [h1, h2] at hcm
      have := s.rW.address
      simp only [PdaInput.address] at this
      rw [this] at hcm; exact hW (Option.some.inj hcm).symm
    rw [e.final]
    exact .quiet (inv.safe_setMint hne)

theorem syncSpl_step (inv : Inv bk s L) (hcr : env.cr = cr)
    (h : processSyncToSplToken env accounts L = .ok L') : Safe bk s L L' := by
  obtain ⟨a, src, data, e⟩ := processSyncSpl_effect h
  have hx := e.pda
  rw [hcr] at hx
  have hne : a.metaplexMetadata.key ∉ s.keys :=
    s.foreign (i := .metaplex a.wrappedMint.key) hx ⟨by simp, by simp, by simp, by simp, by simp⟩
  rcases e.run with ⟨_, h⟩ | ⟨_, h⟩
  · have g0 := h
    obtain ⟨_, _, _, _, _, _, _, _, _, rfl⟩ := mplCreate_inv h
    refine inv.safe_one hne ?_ ?_
    · intro x hx
      exact kept_mplCreate g0 hx
    · intro t _ h2
      rw [Ledger.set_same] at h2; cases h2
  · obtain ⟨_, md, _, _, _, _, _, rfl⟩ := mplUpdate_inv h
    refine inv.safe_one hne (fun x hx => kept_setData hx) ?_
    intro t _ h2
    rw [setData_data] at h2; cases h2

theorem pointer_step {p : Pubkey} (inv : Inv bk s L) (hcr : env.cr = cr)
    (h : processSetCanonicalPointer env accounts p L = .ok L') : Safe bk s L L' := by
  obtain ⟨a, m, e⟩ := processPointer_effect h
  have hx := e.pointer
  rw [hcr] at hx
  have hne : a.pointer.key ∉ s.keys :=
    s.foreign (i := .canonicalPointer a.unwrappedMint.key) hx
      ⟨by simp, by simp, by simp, by simp, by simp⟩
  have fin : L' = L.set a.pointer.key ⟨(L a.pointer.key).lamports, env.programId, .bytes p.bytes⟩ →
      Safe bk s L L' := by
    rintro rfl
    refine inv.safe_one hne (fun x hx => .of_eq (Ledger.set_ne _ _ hx)) ?_
    intro t _ h2
    rw [Ledger.set_same] at h2; cases h2
  rcases e.final with ⟨_, h⟩ | ⟨_, _, h⟩ | ⟨_, rfl⟩
  · exact fin h
  · exact fin h
  · exact .rfl' inv

/-- **Main lemma** Every step of a history does to the pair one of the three things. -/
theorem step_eff {act : Act} {ok : Act → Ledger → Prop} 
    (hok : ∀ act L, ok act L → (bk → PDIdle cr s.u act L) ∧ AllFunded L) (inv : Inv bk s L)
    (h0 : ok act L) (h : Step cr ok act L L') : StepEff bk s act L L' := by
  have np := (hok act L h0).1
  cases h with
  | base h => exact .quiet (baseStep_safe inv np (hok act L h0).2 h)
  | wrapHooked hcr hid hs hhook h => exact wrap_step hok inv np hcr hs hhook h
  | tokenWrap hcr hid hs h hr =>
    obtain ⟨ix, rfl, h1⟩ := processInstruction_ok h
    clear h
    rename' h1 => h
    cases ix with
    | createMint idem => exact .quiet (createMint_step inv hcr hid hr h)
    | wrap amount =>
      exact wrap_step (hook := id) (ok := ok) hok inv np hcr hs (fun _ => .refl)
        (by rw [processWrapHooked_id]; exact h)
    | unwrap amount => exact unwrap_step inv np hcr hid hs h
    | closeStuckEscrow => exact .quiet (close_step inv np hcr hid hs h)
    | syncMetadataToToken2022 => exact sync22_step inv hcr h
    | syncMetadataToSplToken => exact .quiet (syncSpl_step inv hcr h)
    | setCanonicalPointer p => exact .quiet (pointer_step inv hcr h)

end

end TokenWrap
