import Verif.Custody
/-!
# Freezing wrapped tokens

Who can freeze and thaw token accounts of the wrapped mint, who can change its freeze authority, and
what a frozen account is protected from.
-/

set_option linter.unusedSimpArgs false

namespace TokenWrap

section
variable {cr : Crypto} {s : Setting cr} {bk : Bk} {S : Pubkey → Prop} {L L1 L2 L' : Ledger} {k mk : Pubkey}
  {t : TokenAcct} {m : Mint} {act : Act}

theorem Inv.wMint (inv : Inv bk s L) (hm : (L s.W).data = .mint m) :
    (L s.W).owner = s.wp ∧ WrappedExts s.A s.W s.wp m.exts := by
  rcases inv.w with h | h
  · rw [h.1.2] at hm; cases hm
  · obtain ⟨m', h1, _, _, h2⟩ := h.mint
    cases Data.mint.inj (hm.symm.trans h1)
    exact ⟨h.owner, h2⟩

theorem wrappedExts_thawed {A W wp : Pubkey} (h : WrappedExts A W wp m.exts) :
    m.defaultFrozen = false := by
  unfold Mint.defaultFrozen
  rw [List.any_eq_false]
  intro e he
  have := wrappedExts_noDefault h he
  cases e <;> simp_all [MintExt.tag]

theorem Inv.noFee (inv : Inv bk s L) : ∀ m, (L s.W).data = .mint m → m.transferFee? = none :=
  fun _ hm => wrappedExts_noFee (inv.wMint hm).2

theorem Inv.thawed (inv : Inv bk s L) : ∀ m, (L s.W).data = .mint m → m.defaultFrozen = false :=
  fun _ hm => wrappedExts_thawed (inv.wMint hm).2

theorem wp_token (s : Setting cr) : isTokenProgram s.wp = true := by
  rcases s.wpOk with h | h <;> simp [isTokenProgram, h]

/-! ## A frozen account with tokens -/

theorem inert_base (h : BaseStep cr act L L') (inv : Inv bk s L) (hf : AllFunded L)
    (hq : FreezerIdle (act.Signer cr) L s.W) (ho : (L k).owner = s.wp) (hd : (L k).data = .token t)
    (hm : t.mint = s.W) (hz : t.frozen = true) (pos : 0 < t.amount + t.confidential) :
    Inert L L' k t := by
  rcases baseStep_tok h hf (by rw [ho]; exact wp_token s) hd with h | h
  · exact .of_kept hd h
  · exact h.inert hd hz (inv.noNative k t ho hd hm) pos (by rw [hm]; exact inv.noFee)
      (by rw [hm]; exact hq)

theorem inert_run {ok : Act → Ledger → Prop}
    (hok : ∀ act L, ok act L → Inv bk s L ∧ AllFunded L ∧ FreezerIdle (act.Signer cr) L s.W)
    (h : Run cr ok L L') (ho : (L k).owner = s.wp) (hd : (L k).data = .token t)
    (hm : t.mint = s.W) (hz : t.frozen = true) (pos : 0 < t.amount + t.confidential) :
    Inert L L' k t := by
  induction h generalizing t with
  | refl => exact .of_kept hd .rfl'
  | step h1 h2 _ ih =>
    have hx := hok _ _ h1
    have s1 := inert_base h2 hx.1 hx.2.1 hx.2.2 ho hd hm hz pos
    exact s1.trans fun t1 e1 e2 e3 e4 e5 _ =>
      ih (s1.1.trans ho) e1 (e2.trans hm) (e5.trans hz) (by omega)

/-- **Key lemma** of C84. -/
theorem inert_step {ok : Act → Ledger → Prop}
    (hok : ∀ act L, ok act L → Inv bk s L ∧ AllFunded L ∧ FreezerIdle (act.Signer cr) L s.W)
    (h : Step cr ok act L L') (inv : Inv bk s L) (hf : AllFunded L)
    (hq : FreezerIdle (act.Signer cr) L s.W) (ho : (L k).owner = s.wp) (hd : (L k).data = .token t)
    (hm : t.mint = s.W) (hz : t.frozen = true) (pos : 0 < t.amount + t.confidential) :
    Inert L L' k t := by
  have hn := inv.noNative k t ho hd hm
  have hq' : FreezerIdle (act.Signer cr) L t.mint := by rw [hm]; exact hq
  have hfee : ∀ m, (L t.mint).data = .mint m → m.transferFee? = none := by rw [hm]; exact inv.noFee
  cases h with
  | base h => exact inert_base h inv hf hq ho hd hm hz pos
  | wrapHooked hcr hid hs hhook h =>
    obtain ⟨a, m, L1, pda, c⟩ := processWrapHooked_inv h
    obtain ⟨w, r, mt⟩ := mintTo_cpi c.mintTo
    have s1 := (eff_wrapTransfer (fun _ h => .inl h) c.transfer :
      Eff (Act.Signer cr (.tokenWrap _ _ _)) L L1).inert hd hz hn pos hfee hq'
    have s2 := s1.trans fun t1 e1 e2 e3 e4 e5 _ =>
      inert_run hok (hhook L1) (s1.1.trans ho) e1 (e2.trans hm) (e5.trans hz) (by omega)
    exact s2.trans fun t1 e1 _ _ _ e5 _ => mt.inert e1 (e5.trans hz)
  | tokenWrap hcr hid hs h =>
    cases instr_twEff hcr hid h with
    | frame h =>
      rcases h k with h | ⟨h, _⟩
      · exact .of_kept hd h
      · exact absurd hd (h (by rw [ho]; exact wp_token s) t)
    | wrap L1 e _ _ _ _ _ _ _ mt =>
      exact (e.inert hd hz hn pos hfee hq').trans fun t1 e1 _ _ _ e5 _ => mt.inert e1 (e5.trans hz)
    | unwrap L1 e c e' =>
      have s1 := e.inert hd hz hn pos hfee hq'
      refine s1.trans fun t1 e1 e2 e3 e4 e5 e6 =>
        e'.inert e1 (e5.trans hz) (e6.trans hn) (by omega) ?_ (by rw [e2]; exact c.freezerIdle hq')
      rw [e2]
      refine c.pd ?_ hfee
      intro m m' h1 h2
      unfold Mint.transferFee? at h2 ⊢
      rw [h1]; exact h2
    | close e => exact e.inert hd hz hn pos hfee hq'

/-! ## Becoming frozen -/

theorem onset_base (h : BaseStep cr act L L') (inv : Inv bk s L)
    (hq : FreezerIdle (act.Signer cr) L s.W) (hz : FrozenAt s.wp s.W L' k) : FrozenAt s.wp s.W L k := by
  obtain ⟨ho, t, hd, hm, hf⟩ := id hz
  cases h with
  | token hp hs he =>
    exact Eff.onset ⟨_, _, _, hp, fun _ h => h, tokenExec_eff he⟩ inv.thawed hq hz
  | allocate _ ha =>
    unfold sysAllocate at ha
    simp only [bind_ok_iff, require_ok_iff, pure_ok_iff, Bool.and_eq_true, decide_eq_true_eq] at ha
    obtain ⟨_, _, _, ⟨h1, _⟩, rfl⟩ := ha
    exact hz.of_kept (kept_setData (by rintro rfl; rw [setData_data] at hd; cases hd))
  | assign _ h0 ha =>
    unfold sysAssign at ha
    split at ha
    · cases ha; exact hz
    · simp only [bind_ok_iff, require_ok_iff, pure_ok_iff] at ha
      obtain ⟨_, _, _, _, rfl⟩ := ha
      refine hz.of_kept (.of_eq (Ledger.set_ne _ _ ?_))
      rintro rfl
      obtain ⟨b, hb, _⟩ := h0
      rw [Ledger.set_same] at hd
      dsimp only at hd
      rw [hb] at hd; cases hd
  | createAta _ _ ha =>
    obtain ⟨k', m, _, _, _, kd, _, hmd, _, _, rfl⟩ := ataCreate_inv ha
    refine hz.of_kept (.of_eq (Ledger.set_ne _ _ ?_))
    rintro rfl
    rw [Ledger.set_same] at hd
    cases Data.token.inj hd
    simp only [newTokenAcct, Bool.and_eq_true] at hf hm
    subst hm
    rw [inv.thawed m hmd] at hf
    cases hf.2
  | gc h0 =>
    refine hz.of_kept (.of_eq (Ledger.set_ne _ _ ?_))
    rintro rfl
    rw [Ledger.set_same] at hd; cases hd
  | lamports h1 hl => exact hz.of_kept (kept_lamports (h1 k) (hl k))
  | other hp _ _ hframe hown hlam =>
    rename_i prog _ _
    by_cases hne : (L k).owner = prog
    · rcases hown k hne with h | ⟨b, h, _⟩
      · rw [← h, ho, wp_token] at hp; cases hp
      · rw [hd] at h; cases h
    · exact hz.of_kept ⟨(hframe k hne).1, (hframe k hne).2, fun _ => hlam k hne⟩

theorem onset_run {ok : Act → Ledger → Prop}
    (hok : ∀ act L, ok act L → Inv bk s L ∧ FreezerIdle (act.Signer cr) L s.W)
    (h : Run cr ok L L') (hz : FrozenAt s.wp s.W L' k) : FrozenAt s.wp s.W L k := by
  induction h with
  | refl => exact hz
  | step h1 h2 _ ih => exact onset_base h2 (hok _ _ h1).1 (hok _ _ h1).2 (ih hz)

/-- **Key lemma** of C83. -/
theorem onset_step {ok : Act → Ledger → Prop}
    (hok : ∀ act L, ok act L → Inv bk s L ∧ FreezerIdle (act.Signer cr) L s.W)
    (h : Step cr ok act L L') (inv : Inv bk s L)
    (hq : FreezerIdle (act.Signer cr) L s.W) (hz : FrozenAt s.wp s.W L' k) :
    FrozenAt s.wp s.W L k := by
  cases h with
  | base h => exact onset_base h inv hq hz
  | wrapHooked hcr hid hs hhook h =>
    obtain ⟨a, m, L1, pda, c⟩ := processWrapHooked_inv h
    obtain ⟨w, r, mt⟩ := mintTo_cpi c.mintTo
    exact (eff_wrapTransfer (fun _ h => .inl h) c.transfer :
      Eff (Act.Signer cr (.tokenWrap _ _ _)) L L1).onset inv.thawed hq
        (onset_run hok (hhook L1) (mt.onset hz))
  | tokenWrap hcr hid hs h =>
    cases instr_twEff hcr hid h with
    | frame h =>
      rcases h k with h | ⟨_, h⟩
      · exact hz.of_kept h
      · obtain ⟨_, t, hd, _⟩ := hz
        exact absurd hd (h t)
    | wrap L1 e _ _ _ _ _ _ _ mt => exact e.onset inv.thawed hq (mt.onset hz)
    | unwrap L1 e c e' =>
      refine e.onset inv.thawed hq (e'.onset ?_ (c.freezerIdle hq) hz)
      refine c.pd ?_ inv.thawed
      intro m m' h1 h2
      unfold Mint.defaultFrozen at h2 ⊢
      rw [h1]; exact h2
    | close e => exact e.onset inv.thawed hq hz

/-! ## The freeze authority -/

/-- The mint at `mk` is still there, with the same freeze authority. -/
def FreezerKept (L' : Ledger) (mk : Pubkey) (m : Mint) : Prop :=
  ∃ m', (L' mk).data = .mint m' ∧ m'.freezeAuthority = m.freezeAuthority

theorem FreezerKept.of_kept (hm : (L mk).data = .mint m) (h : Kept L L' mk) : FreezerKept L' mk m :=
  ⟨m, h.2.trans hm, rfl⟩

theorem FreezerKept.trans (h1 : FreezerKept L1 mk m)
    (h2 : ∀ m1, (L1 mk).data = .mint m1 → FreezerKept L2 mk m1) : FreezerKept L2 mk m := by
  obtain ⟨m1, a1, a2⟩ := h1
  obtain ⟨m2, b1, b2⟩ := h2 m1 a1
  exact ⟨m2, b1, b2.trans a2⟩

/-- Only its holder changes the freeze authority of a mint without close authority. -/
theorem Eff.freezer (e : Eff S L L') (hm : (L mk).data = .mint m) (hc : m.closeAuthority? = none)
    (hq : FreezerIdle S L mk) : FreezerKept L' mk m := by
  obtain ⟨rm, prog, signed, _, hS, e⟩ := e
  have keep : Kept L L' mk → FreezerKept L' mk m := .of_kept hm
  have nt : ∀ t, (L mk).data ≠ .token t := by intro t; rw [hm]; simp
  have nb : ∀ b, (L mk).data ≠ .bytes b := by intro t; rw [hm]; simp
  cases e with
  | same hf => exact keep (hf _)
  | drain hf => exact keep (hf _)
  | tok k t t' _ hd _ _ hf => exact keep (hf _ (by rintro rfl; exact nt _ hd))
  | move src dst s s' d d' ne so sd so' sd' do_ dd do' dd' hf =>
    exact keep (hf _ (by rintro rfl; exact nt _ sd) (by rintro rfl; exact nt _ dd))
  | fees mk' m0 mo md fee all =>
    rcases all mk with hf | ⟨t, t', _, hd, _⟩ | ⟨rfl, m', h1, h2, _, _, _, h6, _⟩
    · exact keep hf
    · exact absurd hd (nt _)
    · cases Data.mint.inj (hm.symm.trans md)
      exact ⟨m', h2, h6⟩
  | mintUpd k m0 m' mo hd ho' hd' hf supply decimals authority freeze exts tags =>
    by_cases hx : mk = k
    · subst hx
      cases Data.mint.inj (hm.symm.trans hd)
      refine ⟨m', hd', ?_⟩
      rcases freeze with h | ⟨f, h1, h2⟩
      · exact h
      · exact absurd (h2.approvesBy hS) (hq m f hm h1)
    · exact keep (hf _ hx)
  | mintTo mk' dst m0 d n a mo md do_ dd dm auth appr fit sfit final =>
    have h2 : mk ≠ dst := by rintro rfl; exact nt _ dd
    by_cases hx : mk = mk'
    · subst hx
      cases Data.mint.inj (hm.symm.trans md)
      exact ⟨{ m with supply := m.supply + n }, by rw [final]; exact setData_data _ _ _, rfl⟩
    · exact keep (.of_eq (by rw [final, Ledger.setData_ne _ _ hx, Ledger.setData_ne _ _ h2]))
  | burn mk' acct m0 s s' n mo md so sd sm le sle same auth final =>
    have h2 : mk ≠ acct := by rintro rfl; exact nt _ sd
    by_cases hx : mk = mk'
    · subst hx
      cases Data.mint.inj (hm.symm.trans md)
      exact ⟨{ m with supply := m.supply - n }, by rw [final]; exact setData_data _ _ _, rfl⟩
    · exact keep (.of_eq (by rw [final, Ledger.setData_ne _ _ hx, Ledger.setData_ne _ _ h2]))
  | closeTok k t _ hd _ hf => exact keep (hf _ (by rintro rfl; exact nt _ hd))
  | closeMint k m0 a _ hd ca _ hf =>
    refine keep (hf _ ?_)
    rintro rfl
    cases Data.mint.inj (hm.symm.trans hd)
    rw [hc] at ca; cases ca
  | initTok k b t m0 _ hd _ _ _ _ _ hf => exact keep (hf _ (by rintro rfl; exact nb _ hd))
  | initOther k _ hd _ _ hf =>
    refine keep (hf _ ?_)
    rintro rfl
    rcases hd with ⟨b, hd⟩ | ⟨n, e, hd⟩
    · exact nb _ hd
    · rw [hm] at hd; cases hd

/-- A step of another program keeps a mint, or is an instruction of a token program. -/
theorem baseStep_mint (h : BaseStep cr act L L') (hf : AllFunded L)
    (ho : isTokenProgram (L mk).owner = true) (hm : (L mk).data = .mint m) :
    Kept L L' mk ∨ Eff (act.Signer cr) L L' := by
  have nb : ∀ b, (L mk).data ≠ .bytes b := by intro b; rw [hm]; simp
  cases h with
  | token hp hs he => exact .inr ⟨_, _, _, hp, fun _ h => h, tokenExec_eff he⟩
  | allocate _ ha =>
    unfold sysAllocate at ha
    simp only [bind_ok_iff, require_ok_iff, pure_ok_iff, Bool.and_eq_true, decide_eq_true_eq] at ha
    obtain ⟨_, _, _, ⟨h1, _⟩, rfl⟩ := ha
    exact .inl (kept_setData (by rintro rfl; exact nb _ h1))
  | assign _ hz ha =>
    unfold sysAssign at ha
    split at ha
    · cases ha; exact .inl .rfl'
    · simp only [bind_ok_iff, require_ok_iff, pure_ok_iff] at ha
      obtain ⟨_, _, _, _, rfl⟩ := ha
      refine .inl (.of_eq (Ledger.set_ne _ _ ?_))
      rintro rfl
      obtain ⟨b, hb, _⟩ := hz
      exact nb _ hb
  | createAta _ _ ha =>
    obtain ⟨k, m, _, _, _, kd, _, _, _, _, rfl⟩ := ataCreate_inv ha
    exact .inl (.of_eq (Ledger.set_ne _ _ (by rintro rfl; exact nb _ kd)))
  | gc h0 =>
    refine .inl (.of_eq (Ledger.set_ne _ _ ?_))
    rintro rfl
    have := (hf mk).mint m ho hm
    omega
  | lamports h1 hl => exact .inl (kept_lamports (h1 mk) (hl mk))
  | other hp _ _ hframe _ hlam =>
    rename_i prog _ _ _
    have hne : (L mk).owner ≠ prog := by
      rintro rfl
      rw [ho] at hp; cases hp
    exact .inl ⟨(hframe mk hne).1, (hframe mk hne).2, fun _ => hlam mk hne⟩

theorem freezer_base (h : BaseStep cr act L L') (inv : Inv bk s L) (hf : AllFunded L)
    (hq : FreezerIdle (act.Signer cr) L s.W) (hm : (L s.W).data = .mint m) :
    FreezerKept L' s.W m := by
  rcases baseStep_mint h hf (by rw [(inv.wMint hm).1]; exact wp_token s) hm with h | h
  · exact .of_kept hm h
  · exact h.freezer hm (wrappedExts_noClose (inv.wMint hm).2) hq

theorem freezer_run {ok : Act → Ledger → Prop}
    (hok : ∀ act L, ok act L → Inv bk s L ∧ AllFunded L ∧ FreezerIdle (act.Signer cr) L s.W)
    (h : Run cr ok L L') (hm : (L s.W).data = .mint m) : FreezerKept L' s.W m := by
  induction h generalizing m with
  | refl => exact .of_kept hm .rfl'
  | step h1 h2 _ ih =>
    have hx := hok _ _ h1
    exact (freezer_base h2 hx.1 hx.2.1 hx.2.2 hm).trans fun m1 e1 => ih e1

theorem freezer_step {ok : Act → Ledger → Prop}
    (hok : ∀ act L, ok act L → Inv bk s L ∧ AllFunded L ∧ FreezerIdle (act.Signer cr) L s.W)
    (h : Step cr ok act L L') (inv : Inv bk s L) (hf : AllFunded L)
    (hq : FreezerIdle (act.Signer cr) L s.W) (hm : (L s.W).data = .mint m) :
    FreezerKept L' s.W m := by
  cases h with
  | base h => exact freezer_base h inv hf hq hm
  | wrapHooked hcr hid hs hhook h =>
    obtain ⟨a, _, L1, pda, c⟩ := processWrapHooked_inv h
    obtain ⟨w, r, mt⟩ := mintTo_cpi c.mintTo
    have s1 := (eff_wrapTransfer (fun _ h => .inl h) c.transfer :
      Eff (Act.Signer cr (.tokenWrap _ _ _)) L L1).freezer hm (wrappedExts_noClose (inv.wMint hm).2) hq
    have s2 := s1.trans fun m1 e1 => freezer_run hok (hhook L1) e1
    refine s2.trans fun m1 e1 => ?_
    obtain ⟨_, m', h1, _, _, h2⟩ := mt.mint e1
    exact ⟨m', h1, h2.1⟩
  | tokenWrap hcr hid hs h =>
    obtain ⟨_, m', h1, _, _, h2⟩ :=
      instr_mintUpTo hid (by rw [(inv.wMint hm).1]; exact wp_token s) hm h
    exact ⟨m', h1, h2.1⟩

end

end TokenWrap
