import Verif.WorldToken
import Verif.Props.Permissionless
/-! # Instructions of other programs are safe; building blocks for Token Wrap's own instructions -/

set_option linter.unusedSimpArgs false

namespace TokenWrap

open scoped BigOperators

section
variable {bk : Bk} {cr : Crypto} {s : Setting cr} {L L' : Ledger}

theorem Setting.W_ne_u (s : Setting cr) : s.u ≠ s.W := s.uFree.1

theorem Inv.no_token_A (inv : Inv bk s L) {t : TokenAcct} : (L s.A).data ≠ .token t := by
  rw [inv.a.2]; simp
theorem Inv.no_token_W (inv : Inv bk s L) {t : TokenAcct} : (L s.W).data ≠ .token t := by
  rcases inv.w with ⟨h, _⟩ | h
  · rw [h.2]; simp
  · obtain ⟨m, h, _⟩ := h.mint; rw [h]; simp
theorem Inv.no_token_B (inv : Inv bk s L) {t : TokenAcct} : (L s.B).data ≠ .token t := by
  rcases inv.w with ⟨_, h⟩ | h
  · rw [h.2]; simp
  · rw [h.bData]; simp
theorem Inv.no_mint_A (inv : Inv bk s L) {t : Mint} : (L s.A).data ≠ .mint t := by
  rw [inv.a.2]; simp
theorem Inv.no_mint_B (inv : Inv bk s L) {t : Mint} : (L s.B).data ≠ .mint t := by
  rcases inv.w with ⟨_, h⟩ | h
  · rw [h.2]; simp
  · rw [h.bData]; simp
theorem Inv.no_mint_Es (inv : Inv bk s L) {t : Mint} : (L s.Es).data ≠ .mint t := by
  rcases inv.es with h | ⟨_, t, h, _⟩
  · rw [h.2]; simp
  · rw [h]; simp
theorem Inv.no_mint_Et (inv : Inv bk s L) {t : Mint} : (L s.Et).data ≠ .mint t := by
  rcases inv.et with h | ⟨_, t, h, _⟩
  · rw [h.2]; simp
  · rw [h]; simp

/-- The invariant's keys are never owned by anything but system, token programs or Token Wrap. -/
theorem Inv.key_owner (inv : Inv bk s L) {k : Pubkey} (hk : k ∈ s.keys) :
    (L k).owner = systemId ∨ (L k).owner = splTokenId ∨ (L k).owner = token2022Id ∨
      (L k).owner = crateId := by
  simp only [Setting.keys, List.mem_cons, List.not_mem_nil, or_false] at hk
  rcases hk with rfl | rfl | rfl | rfl | rfl
  · rcases inv.w with ⟨h, _⟩ | h
    · exact .inl h.1
    · rw [h.owner]; rcases s.wpOk with h | h
      · exact .inr (.inl h)
      · exact .inr (.inr (.inl h))
  · exact .inl inv.a.1
  · rcases inv.w with ⟨_, h⟩ | h
    · exact .inl h.1
    · exact .inr (.inr (.inr h.bOwner))
  · rcases inv.es with h | ⟨h, _⟩
    · exact .inl h.1
    · exact .inr (.inl h)
  · rcases inv.et with h | ⟨h, _⟩
    · exact .inl h.1
    · exact .inr (.inr (.inl h))

theorem wp_ne_system (s : Setting cr) : s.wp ≠ systemId := by
  rcases s.wpOk with h | h <;> rw [h]
  · exact spl_ne_system
  · exact t22_ne_system

/-- Changing one foreign account to something that is not a token account. -/
theorem Inv.safe_one (inv : Inv bk s L) {k0 : Pubkey} (hk : k0 ∉ s.keys)
    (hf : ∀ x, x ≠ k0 → Kept L L' x)
    (hd : ∀ t, (L' k0).owner = s.wp → (L' k0).data = .token t → t.mint = s.W →
      ((L k0).owner = s.wp ∧ (L k0).data = .token t) ∨
      (t.isNative = none ∧ t.amount = 0 ∧ t.confidential = 0)) : Safe bk s L L' := by
  refine inv.safe_foreign (fun k h => hf k (by rintro rfl; exact hk h)) ?_
  intro k t h1 h2 h3
  by_cases hx : k = k0
  · subst hx; exact hd t h1 h2 h3
  · left; rw [← (hf k hx).1, ← (hf k hx).2]; exact ⟨h1, h2⟩

/-- Where there are no lamports, nothing of the pair exists. -/
theorem Inv.blank_of_empty (inv : Inv bk s L) (hf : AllFunded L) {k : Pubkey} (hk : k ∈ s.keys)
    (h : (L k).lamports = 0) : Blank L k := by
  have esc : ∀ {p E : Pubkey}, (p = splTokenId ∨ p = token2022Id) → EscrowOk s.u s.A p E L →
      (L E).lamports = 0 → Blank L E := by
    rintro p E hp (hb | ⟨ho, t, hd, _⟩) h0
    · exact hb
    · have := ((hf E).tok t (by rw [ho]; simpa [isTokenProgram] using hp) hd).pos
      omega
  simp only [Setting.keys, List.mem_cons, List.not_mem_nil, or_false] at hk
  rcases hk with rfl | rfl | rfl | rfl | rfl
  · rcases inv.w with hb | hw
    · exact hb.1
    · obtain ⟨m, hm, _⟩ := hw.mint
      have := (hf s.W).mint m (by rw [hw.owner]; simpa [isTokenProgram] using s.wpOk) hm
      omega
  · exact inv.a
  · rcases inv.w with hb | hw
    · exact hb.2
    · have := hw.bLam; omega
  · exact esc (.inl rfl) inv.es h
  · exact esc (.inr rfl) inv.et h

/-- **Key lemma** Instructions of other programs neither mint wrapped tokens nor take from an
escrow. -/
theorem baseStep_safe {act : Act} (inv : Inv bk s L) (np : bk → PDIdle cr s.u act L) (hf : AllFunded L)
    (h : BaseStep cr act L L') :
    Safe bk s L L' := by
  cases h with
  | token hp hs h _hr =>
    rename_i env prog ix signed
    refine tokEff_safe inv np (fun _ h => h) (by simpa [isTokenProgram] using hp) ?_ (tokenExec_eff h)
    cases hc : signed s.A with
    | false => rfl
    | true => exact absurd (hs _ hc) s.A_noSign
  | allocate hs h =>
    rename_i key space
    have hk : key ∉ s.keys := fun hk => s.noSign hk hs
    unfold sysAllocate at h
    simp only [bind_ok_iff, require_ok_iff, pure_ok_iff] at h
    obtain ⟨_, _, _, _, rfl⟩ := h
    refine inv.safe_one hk (fun x hx => kept_setData hx) ?_
    intro t _ h2
    rw [setData_data] at h2; cases h2
  | assign hs hz h =>
    rename_i key owner
    have hk : key ∉ s.keys := fun hk => s.noSign hk hs
    unfold sysAssign at h
    split at h
    · cases h; exact .rfl' inv
    · simp only [bind_ok_iff, require_ok_iff, pure_ok_iff] at h
      obtain ⟨_, _, _, _, rfl⟩ := h
      refine inv.safe_one hk (fun x hx => .of_eq (Ledger.set_ne _ _ hx)) ?_
      intro t _ h2
      obtain ⟨b, hb, _⟩ := hz
      rw [Ledger.set_same] at h2
      dsimp only at h2
      rw [hb] at h2; cases h2
  | createAta hcr fit h _hr =>
    rename_i env wallet mint prog
    obtain ⟨k, m, hp, hk, ko, kd, mo, md, _, hne, rfl⟩ := ataCreate_inv h
    rw [hcr] at hk
    have hf : ∀ x, x ≠ k → Kept L (L.set k ⟨max (L k).lamports (env.rentMin (ataLen prog mint L)), prog,
        .token (newTokenAcct (env.rentMin (ataLen prog mint L)) prog (max (L k).lamports (env.rentMin (ataLen prog mint L))) mint m wallet
          [.immutableOwner])⟩) x := fun x hx => .of_eq (Ledger.set_ne _ _ hx)
    have hplain : mint = s.W → ((newTokenAcct (env.rentMin (ataLen prog mint L)) prog (max (L k).lamports (env.rentMin (ataLen prog mint L))) mint m
        wallet [.immutableOwner]).isNative = none ∧ (newTokenAcct (env.rentMin (ataLen prog mint L)) prog
        (max (L k).lamports (env.rentMin (ataLen prog mint L))) mint m wallet [.immutableOwner]).amount = 0 ∧
        (newTokenAcct (env.rentMin (ataLen prog mint L)) prog (max (L k).lamports (env.rentMin (ataLen prog mint L))) mint m
        wallet [.immutableOwner]).confidential = 0) := by
      rintro rfl
      simp [newTokenAcct, s.wFree]
    have hamt : (newTokenAcct (env.rentMin (ataLen prog mint L)) prog (max (L k).lamports (env.rentMin (ataLen prog mint L))) mint m wallet
        [.immutableOwner]).amount ≤ u64Max := by
      have := fit.2 k
      have := fit.1
      simp only [newTokenAcct]
      split <;> omega
    have hb : balanceOf L k = 0 := by unfold balanceOf; rw [kd]
    have tokAt : ∀ t', (L.set k ⟨max (L k).lamports (env.rentMin (ataLen prog mint L)), prog,
        .token (newTokenAcct (env.rentMin (ataLen prog mint L)) prog (max (L k).lamports (env.rentMin (ataLen prog mint L))) mint m wallet
          [.immutableOwner])⟩ k).data = .token t' → t' = newTokenAcct (env.rentMin (ataLen prog mint L)) prog
          (max (L k).lamports (env.rentMin (ataLen prog mint L))) mint m wallet [.immutableOwner] := by
      intro t' h; rw [Ledger.set_same] at h; cases h; rfl
    have hold : ∀ k1 t, (L.set k ⟨max (L k).lamports (env.rentMin (ataLen prog mint L)), prog,
        .token (newTokenAcct (env.rentMin (ataLen prog mint L)) prog (max (L k).lamports (env.rentMin (ataLen prog mint L))) mint m wallet
          [.immutableOwner])⟩ k1).owner = s.wp → (L.set k ⟨max (L k).lamports (env.rentMin (ataLen prog mint L)), prog,
        .token (newTokenAcct (env.rentMin (ataLen prog mint L)) prog (max (L k).lamports (env.rentMin (ataLen prog mint L))) mint m wallet
          [.immutableOwner])⟩ k1).data = .token t → t.mint = s.W →
        ((L k1).owner = s.wp ∧ (L k1).data = .token t) ∨
        (t.isNative = none ∧ t.amount = 0 ∧ t.confidential = 0) := by
      intro k1 t h1 h2 h3
      by_cases hx : k1 = k
      · subst hx
        have := tokAt t h2
        subst this
        exact .inr (hplain h3)
      · left; rw [← (hf k1 hx).1, ← (hf k1 hx).2]; exact ⟨h1, h2⟩
    have esc : ∀ {p E : Pubkey}, Reserved cr (.ata s.A s.u p) E → EscrowOk s.u s.A p E L →
        EscrowOk s.u s.A p E (L.set k ⟨max (L k).lamports (env.rentMin (ataLen prog mint L)), prog,
        .token (newTokenAcct (env.rentMin (ataLen prog mint L)) prog (max (L k).lamports (env.rentMin (ataLen prog mint L))) mint m wallet
          [.immutableOwner])⟩) ∧
        balanceOf L E ≤ balanceOf (L.set k ⟨max (L k).lamports (env.rentMin (ataLen prog mint L)), prog,
        .token (newTokenAcct (env.rentMin (ataLen prog mint L)) prog (max (L k).lamports (env.rentMin (ataLen prog mint L))) mint m wallet
          [.immutableOwner])⟩) E := by
      intro p E hr hE
      by_cases hx : E = k
      · subst hx
        have := hr.unique (j := .ata wallet mint prog) hk
        injection this with h1 h2 h3
        subst h1; subst h2; subst h3
        refine ⟨.inr ⟨by rw [Ledger.set_same], _, by rw [Ledger.set_same], rfl, rfl, rfl, rfl, hamt⟩,
          by omega⟩
      · exact ⟨hE.kept (hf E hx), by rw [balanceOf_kept (hf E hx)]⟩
    have neA : s.A ≠ k := by
      intro h; have := s.rA.unique (j := .ata wallet mint prog) (h ▸ hk); cases this
    have neW : s.W ≠ k := by
      intro h; have := s.rW.unique (j := .ata wallet mint prog) (h ▸ hk); cases this
    have neB : s.B ≠ k := by
      intro h; have := s.rB.unique (j := .ata wallet mint prog) (h ▸ hk); cases this
    exact inv.safe_of (hf _ neA) (hf _ neW) (hf _ neB) (esc s.rEs inv.es).1
      (fun _ => (esc s.rEs inv.es).2) (esc s.rEt inv.et).1 (fun _ => (esc s.rEt inv.et).2) hold
  | gc h =>
    rename_i key
    by_cases hk : key ∈ s.keys
    · have hb : Blank L key := inv.blank_of_empty hf hk h
      have hkept : ∀ x, Kept L (L.set key Account.empty) x := by
        intro x
        by_cases hx : x = key
        · subst hx
          exact .of_lamports (by rw [Ledger.set_same, hb.1]; rfl) (by rw [Ledger.set_same, hb.2]; rfl)
            (by rw [hb.1]; exact system_ne_crate)
        · exact .of_eq (Ledger.set_ne _ _ hx)
      refine inv.safe_foreign (fun k _ => hkept k) ?_
      intro k t h1 h2 _
      left; rw [← (hkept k).1, ← (hkept k).2]; exact ⟨h1, h2⟩
    · refine inv.safe_one hk (fun x hx => .of_eq (Ledger.set_ne _ _ hx)) ?_
      intro t _ h2
      rw [Ledger.set_same] at h2; cases h2
  | lamports h hl =>
    refine inv.safe_foreign (fun k _ => kept_lamports (h k) (hl k)) ?_
    intro k t h1 h2 _
    left; rw [← (h k).1, ← (h k).2]; exact ⟨h1, h2⟩
  | other hp hc hsys hframe hown hlam =>
    rename_i prog
    have htok : prog ≠ splTokenId ∧ prog ≠ token2022Id := by
      simpa [isTokenProgram, not_or] using hp
    refine inv.safe_foreign (fun k hk => ?_) ?_
    · have hne : (L k).owner ≠ prog := ?_
      · exact ⟨(hframe k hne).1, (hframe k hne).2, fun _ => hlam k hne⟩
      rintro rfl
      rcases inv.key_owner hk with h | h | h | h
      · exact hsys h
      · exact htok.1 h
      · exact htok.2 h
      · exact hc h
    · intro k t h1 h2 h3
      by_cases ho : (L k).owner = prog
      · rcases hown k ho with h | ⟨b, h, _⟩
        · rw [h] at h1
          rcases s.wpOk with hw | hw
          · exact absurd (h1.trans hw) htok.1
          · exact absurd (h1.trans hw) htok.2
        · rw [h] at h2; cases h2
      · left
        have := hframe k ho
        rw [← this.1, ← this.2]; exact ⟨h1, h2⟩

theorem run_safe {ok : Act → Ledger → Prop} (hok : ∀ act L, ok act L → (bk → PDIdle cr s.u act L) ∧ AllFunded L) (inv : Inv bk s L)
    (h : Run cr ok L L') : Safe bk s L L' := by
  induction h with
  | refl => exact .rfl' inv
  | step h1 h2 _ ih =>
    have := baseStep_safe inv (hok _ _ h1).1 (hok _ _ h1).2 h2
    exact this.trans (ih this.inv)

/-! ## CPIs of Token Wrap -/

/-- A CPI signed by an authority other than `A` is safe. -/
theorem cpi_safe {S : Pubkey → Prop} {env : Env} {accounts : List Meta} {pdas borrowed : List Pubkey} {prog : Pubkey}
    {ix : TokenIx} (inv : Inv bk s L) (np : bk → PDQuiet s.u S L)
    (hS : ∀ k, Signs accounts k ∨ k ∈ pdas → S k) (hs : ∀ k, Signs accounts k → CanSign cr k)
    (hpda : s.A ∉ pdas) (h : invokeToken env accounts pdas borrowed prog ix L = .ok L') :
    Safe bk s L L' := by
  obtain ⟨h1, _, _, h4, h5⟩ := invokeToken_inv h
  refine tokEff_safe inv np (fun k hk => hS k (signedBy_caller h4 hk)) h1 ?_ (tokenExec_eff h5)
  cases hc : signedBy ix.metas s.A with
  | false => rfl
  | true =>
    rcases signedBy_caller h4 hc with h | h
    · exact absurd (hs _ h) s.A_noSign
    · exact absurd h hpda

/-- The PDA Token Wrap signs for is the authority it validated. -/
theorem pda_authority {env : Env} {w a pda : Pubkey} (hid : env.programId = crateId)
    (h : ∃ bump, authorityWithSeed env.cr w = some (a, bump) ∧
      signerPda env (authoritySignerSeeds w bump) = .ok pda) : pda = a := by
  obtain ⟨b, h1, h2⟩ := h
  exact signerPda_eq hid h1 h2

/-- The effect of Wrap's minting CPI. -/
structure MintedTo (prog mk dst auth : Pubkey) (n : Nat) (L L' : Ledger) (m : Mint) (d : TokenAcct) :
    Prop where
  pOk : prog = splTokenId ∨ prog = token2022Id
  mo : (L mk).owner = prog
  md : (L mk).data = .mint m
  do_ : (L dst).owner = prog
  dd : (L dst).data = .token d
  dm : d.mint = mk
  ma : m.mintAuthority = some auth
  fit : d.amount + n ≤ u64Max
  sfit : m.supply + n ≤ u64Max
  ne : mk ≠ dst
  mkData : (L' mk).data = .mint { m with supply := m.supply + n }
  mkOwner : (L' mk).owner = prog
  dstData : (L' dst).data = .token { d with amount := d.amount + n }
  dstOwner : (L' dst).owner = prog
  other : ∀ k, k ≠ mk → k ≠ dst → L' k = L k
  nf : d.frozen = false

theorem mintTo_cpi {env : Env} {accounts : List Meta} {pdas borrowed : List Pubkey}
    {prog mk dst auth : Pubkey} {n : Nat}
    (h : invokeToken env accounts pdas borrowed prog (.mintTo mk dst auth [] n) L = .ok L') :
    ∃ m d, MintedTo prog mk dst auth n L L' m d := by
  obtain ⟨h1, _, _, _, h5⟩ := invokeToken_inv h
  have hrej := tokenExec_not_rejected h5
  unfold tokenExec at h5
  rw [hrej] at h5
  obtain ⟨d, m, e1, e2, e3, e4, e5, _, e7, e8, _, e10, e11, e12⟩ := mintToExec_inv h5
  have hne : mk ≠ dst := by rintro rfl; rw [e2] at e4; cases e4
  refine ⟨m, d, ⟨h1, e3, e4, e1, e2, e7, e8, e10, e11, hne, ?_, ?_, ?_, ?_, ?_, e5⟩⟩
  · rw [e12]; simp
  · rw [e12]; simp only [Ledger.setData_same, Ledger.setData_ne _ _ hne]; exact e3
  · rw [e12, Ledger.setData_ne _ _ (Ne.symm hne)]; simp
  · rw [e12, Ledger.setData_ne _ _ (Ne.symm hne)]; simpa using e1
  · intro k k1 k2
    rw [e12, Ledger.setData_ne _ _ k1, Ledger.setData_ne _ _ k2]

theorem MintedTo.escrow {prog mk dst auth : Pubkey} {n : Nat} {m : Mint} {d : TokenAcct}
    (h : MintedTo prog mk dst auth n L L' m d) {u A p E : Pubkey} (hE : EscrowOk u A p E L) :
    EscrowOk u A p E L' ∧ balanceOf L E ≤ balanceOf L' E := by
  have h1 : E ≠ mk := by
    rintro rfl
    rcases hE with h2 | ⟨_, t, h2, _⟩
    · have := h.md; rw [h2.2] at this; cases this
    · have := h.md; rw [h2] at this; cases this
  by_cases h2 : E = dst
  · subst h2
    rcases hE with h3 | ⟨ho, t, h3, tm, tow, tdel, tca, tam⟩
    · have := h.dd; rw [h3.2] at this; cases this
    · have hd := h.dd
      rw [h3] at hd; cases hd
      have e := h.dstData
      refine ⟨.inr ⟨h.dstOwner.trans (h.do_.symm.trans ho), _, e, tm, tow, tdel, tca, h.fit⟩, ?_⟩
      rw [balanceOf_token h3, balanceOf_token e]; simp
  · have : Kept L L' E := .of_eq (h.other E h1 h2)
    exact ⟨hE.kept this, by rw [balanceOf_kept this]⟩

/-- Minting of another mint is safe. -/
theorem MintedTo.safe_other {prog mk dst auth : Pubkey} {n : Nat} {m : Mint} {d : TokenAcct}
    (inv : Inv bk s L) (h : MintedTo prog mk dst auth n L L' m d) (hmk : mk ≠ s.W) : Safe bk s L L' := by
  have kA : Kept L L' s.A := .of_eq (h.other _ (by rintro rfl; exact inv.no_mint_A h.md)
    (by rintro rfl; exact inv.no_token_A h.dd))
  have kB : Kept L L' s.B := .of_eq (h.other _ (by rintro rfl; exact inv.no_mint_B h.md)
    (by rintro rfl; exact inv.no_token_B h.dd))
  have kW : Kept L L' s.W := .of_eq (h.other _ (Ne.symm hmk)
    (by rintro rfl; exact inv.no_token_W h.dd))
  refine inv.safe_of kA kW kB (h.escrow inv.es).1 (fun _ => (h.escrow inv.es).2) (h.escrow inv.et).1
    (fun _ => (h.escrow inv.et).2) ?_
  intro k t h1 h2 h3
  by_cases k1 : k = mk
  · subst k1; rw [h.mkData] at h2; cases h2
  · by_cases k2 : k = dst
    · subst k2; rw [h.dstData] at h2; cases h2
      exact absurd (h.dm.symm.trans h3) hmk
    · rw [h.other k k1 k2] at h1 h2; exact .inl ⟨h1, h2⟩

/-- Minting of the wrapped mint itself keeps everything but the backing. -/
theorem MintedTo.wrapped {prog dst auth : Pubkey} {n : Nat} {m : Mint} {d : TokenAcct}
    (inv : Inv bk s L) (h : MintedTo prog s.W dst auth n L L' m d)
    (hb : bk → supplyOf L s.W + n ≤ balanceOf L s.Es + balanceOf L s.Et + bk.debt) :
    Inv bk s L' ∧ supplyOf L' s.W = supplyOf L s.W + n ∧ Kept L L' s.Es ∧ Kept L L' s.Et ∧
      MintKept s.W L L' := by
  have hw : WrappedOk s L := by
    rcases inv.w with ⟨hb, _⟩ | hw
    · have := h.md; rw [hb.2] at this; cases this
    · exact hw
  obtain ⟨w, wd, wa, wsup, wex⟩ := hw.mint
  have hd := h.md
  rw [wd] at hd; cases hd
  have hp : prog = s.wp := h.mo.symm.trans hw.owner
  subst hp
  have nE : ∀ {p E : Pubkey}, E ≠ s.W → EscrowOk s.u s.A p E L → Kept L L' E := by
    intro p E hne hE
    refine .of_eq (h.other _ hne ?_)
    rintro rfl
    rcases hE with h3 | ⟨ho, t, h3, tm, _⟩
    · have := h.dd; rw [h3.2] at this; cases this
    · have hd := h.dd
      rw [h3] at hd; cases hd
      exact s.W_ne_u (tm.symm.trans h.dm)
  have kEs := nE (Ne.symm s.W_ne_Es) inv.es
  have kEt := nE (Ne.symm s.W_ne_Et) inv.et
  have kA : Kept L L' s.A := .of_eq (h.other _ (Ne.symm s.W_ne_A)
    (by rintro rfl; exact inv.no_token_A h.dd))
  have kB : Kept L L' s.B := .of_eq (h.other _ (Ne.symm s.W_ne_B)
    (by rintro rfl; exact inv.no_token_B h.dd))
  have hs : supplyOf L s.W = m.supply := supplyOf_mint wd
  have hs' : supplyOf L' s.W = m.supply + n := supplyOf_mint h.mkData
  refine ⟨⟨inv.a.kept kA, inv.es.kept kEs, inv.et.kept kEt, .inr ⟨h.mkOwner, ⟨_, h.mkData, wa,
    h.sfit, wex⟩, kB.1.trans hw.bOwner, kB.2.trans hw.bData,
    Nat.lt_of_lt_of_le hw.bLam (kB.lam hw.bOwner)⟩, ?_, ?_, ?_⟩, by omega, kEs, kEt, ?_⟩
  · intro k t h1 h2 h3
    by_cases k1 : k = s.W
    · subst k1; rw [h.mkData] at h2; cases h2
    · by_cases k2 : k = dst
      · subst k2; rw [h.dstData] at h2; cases h2
        exact inv.noNative k d h.do_ h.dd h.dm
      · rw [h.other k k1 k2] at h1 h2; exact inv.noNative k t h1 h2 h3
  · rw [hs']
    refine sum_step (a := supplyOf L s.W) {dst} ?_ ?_ inv.claims
    · intro k hk
      simp only [Finset.mem_singleton] at hk
      by_cases k1 : k = s.W
      · subst k1; rw [claimOf_nontoken (by rw [h.mkData]; simp)]; omega
      · rw [claimOf_kept (.of_eq (h.other k k1 hk))]
    · rw [Finset.sum_singleton, Finset.sum_singleton, claimOf_token h.dstOwner h.dstData,
        claimOf_token h.do_ h.dd, if_pos h.dm, if_pos h.dm, hs]
      dsimp only
      omega
  · intro b; have := hb b; rw [balanceOf_kept kEs, balanceOf_kept kEt]; omega
  · intro m0 hm0
    rw [wd] at hm0; cases hm0
    exact ⟨_, h.mkData, rfl, fun h => h, rfl⟩

end

end TokenWrap
