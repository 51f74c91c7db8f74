import Verif.MintLife
/-!
# What can happen to a token account

For every instruction of every program: whose approval is needed to take tokens out of a token
account, to freeze it or to thaw it.
-/

set_option linter.unusedSimpArgs false

namespace TokenWrap

/-- `a` is in charge of the token account `t`: its owner, delegate or close authority, or the
permanent delegate of its mint. -/
def InCharge (L : Ledger) (t : TokenAcct) (a : Pubkey) : Prop :=
  t.owner = a ∨ t.delegate = some a ∨ t.closeAuthority = some a ∨
    ∃ m, (L t.mint).data = .mint m ∧ m.permanentDelegate? = some a

/-- The keys `S` do not include the approval of anybody in charge of the token account at `k`, if it
is of mint `mk`. -/
def Unapproved (mk : Pubkey) (S : Pubkey → Prop) (L : Ledger) (k : Pubkey) : Prop :=
  ∀ t a, (L k).data = .token t → t.mint = mk → InCharge L t a → ¬ ApprovesBy L S a

/-- The keys `S` do not include the approval of the freeze authority of the mint `mk`. -/
def FreezerIdle (S : Pubkey → Prop) (L : Ledger) (mk : Pubkey) : Prop :=
  ∀ m f, (L mk).data = .mint m → m.freezeAuthority = some f → ¬ ApprovesBy L S f

/-- The token account `t` at `k` is still there, with the same mint and authorities and no fewer
tokens. -/
def Stays (L L' : Ledger) (k : Pubkey) (t : TokenAcct) : Prop :=
  (L' k).owner = (L k).owner ∧ ∃ t', (L' k).data = .token t' ∧ t'.mint = t.mint ∧ KeepsAcct t t'

/-- The token account `t` at `k` has the same mint, authorities, balances and frozen flag as before. -/
def Inert (L L' : Ledger) (k : Pubkey) (t : TokenAcct) : Prop :=
  (L' k).owner = (L k).owner ∧ ∃ t', (L' k).data = .token t' ∧ t'.mint = t.mint ∧
    t'.owner = t.owner ∧ t'.delegate = t.delegate ∧ t'.closeAuthority = t.closeAuthority ∧
    t'.amount = t.amount ∧ t'.confidential = t.confidential ∧ t'.frozen = t.frozen ∧
    t'.isNative = t.isNative

/-- `k` is a frozen token account of program `p` and mint `mk`. -/
def FrozenAt (p mk : Pubkey) (L : Ledger) (k : Pubkey) : Prop :=
  (L k).owner = p ∧ ∃ t, (L k).data = .token t ∧ t.mint = mk ∧ t.frozen = true

/-- A token-program instruction authorised by keys in `S`. -/
def Eff (S : Pubkey → Prop) (L L' : Ledger) : Prop :=
  ∃ rm prog signed, isTokenProgram prog = true ∧ (∀ k, signed k = true → S k) ∧
    TokEff rm prog signed L L'

/-- No multisig appears and no mint changes, except in supply, decimals or mint authority. -/
structure Calm (L L' : Ledger) : Prop where
  multisig : ∀ a ms, (L' a).data = .multisig ms → (L a).data = .multisig ms
  mint : ∀ k m', (L' k).data = .mint m' → ∃ m, (L k).data = .mint m ∧
    m'.freezeAuthority = m.freezeAuthority ∧ m'.exts = m.exts

/-- What an instruction of Token Wrap is made of, as far as token accounts are concerned. -/
inductive TwEff (S : Pubkey → Prop) (L L' : Ledger) : Prop
  | frame (h : ∀ k, Kept L L' k ∨ ((isTokenProgram (L k).owner = true → ∀ t, (L k).data ≠ .token t) ∧
      ∀ t, (L' k).data ≠ .token t))
  | wrap (L1 : Ledger) (e : Eff S L L1) (prog mk dst auth : Pubkey) (n : Nat) (m : Mint) (d : TokenAcct)
      (mt : MintedTo prog mk dst auth n L1 L' m d)
  | unwrap (L1 : Ledger) (e : Eff S L L1) (c : Calm L L1) (e' : Eff S L1 L')
  | close (e : Eff S L L')

section
variable {cr : Crypto} {S : Pubkey → Prop} {L L1 L2 L' : Ledger} {k mk : Pubkey} {t : TokenAcct}
  {p : Pubkey}

theorem Stays.refl (hd : (L k).data = .token t) : Stays L L k t :=
  ⟨rfl, t, hd, rfl, rfl, rfl, rfl, Nat.le_refl _, Nat.le_refl _⟩

theorem Stays.of_kept (hd : (L k).data = .token t) (h : Kept L L' k) : Stays L L' k t :=
  ⟨h.1, t, h.2.trans hd, rfl, rfl, rfl, rfl, Nat.le_refl _, Nat.le_refl _⟩

theorem KeepsAcct.trans {t t1 t2 : TokenAcct} (h1 : KeepsAcct t t1) (h2 : KeepsAcct t1 t2) :
    KeepsAcct t t2 :=
  ⟨h2.owner.trans h1.owner, h2.delegate.trans h1.delegate,
    h2.closeAuthority.trans h1.closeAuthority, h1.amount.trans h2.amount,
    h1.confidential.trans h2.confidential⟩

theorem Stays.trans (h1 : Stays L L1 k t)
    (h2 : ∀ t1, (L1 k).data = .token t1 → t1.mint = t.mint → KeepsAcct t t1 → Stays L1 L2 k t1) :
    Stays L L2 k t := by
  obtain ⟨a1, t1, b1, c1, d1⟩ := h1
  obtain ⟨a2, t2, b2, c2, d2⟩ := h2 t1 b1 c1 d1
  exact ⟨a2.trans a1, t2, b2, c2.trans c1, d1.trans d2⟩

theorem KeepsAcct.nobody {t t1 : TokenAcct} (h : KeepsAcct t t1) : ownedByNobody t1 = ownedByNobody t := by
  unfold ownedByNobody; rw [h.owner]

theorem Inert.of_kept (hd : (L k).data = .token t) (h : Kept L L' k) : Inert L L' k t :=
  ⟨h.1, t, h.2.trans hd, rfl, rfl, rfl, rfl, rfl, rfl, rfl, rfl⟩

theorem Inert.trans (h1 : Inert L L1 k t)
    (h2 : ∀ t1, (L1 k).data = .token t1 → t1.mint = t.mint → t1.amount = t.amount →
      t1.confidential = t.confidential → t1.frozen = t.frozen → t1.isNative = t.isNative →
      Inert L1 L2 k t1) : Inert L L2 k t := by
  obtain ⟨a0, t1, a1, a2, a3, a4, a5, a6, a7, a8, a9⟩ := h1
  obtain ⟨b0, t2, b1, b2, b3, b4, b5, b6, b7, b8, b9⟩ := h2 t1 a1 a2 a6 a7 a8 a9
  exact ⟨b0.trans a0, t2, b1, b2.trans a2, b3.trans a3, b4.trans a4, b5.trans a5, b6.trans a6,
    b7.trans a7, b8.trans a8, b9.trans a9⟩

/-! ## Token-program instructions -/

variable {rm : Nat → Nat} {prog : Pubkey} {signed : Pubkey → Bool}

/-- Nobody but those in charge takes anything from a token account. -/
theorem held_tokEff (hd : (L k).data = .token t) (hn : ownedByNobody t = false)
    (hq : ∀ a, InCharge L t a → ¬ Appr prog L signed a) (e : TokEff rm prog signed L L') :
    Stays L L' k t := by
  have keep : Kept L L' k → Stays L L' k t := .of_kept hd
  have upd : ∀ t', (L k).owner = prog → (L' k).owner = prog → (L' k).data = .token t' →
      t'.mint = t.mint → KeepsAcct t t' → Stays L L' k t :=
    fun t' h0 h1 h2 h3 h4 => ⟨h1.trans h0.symm, t', h2, h3, h4⟩
  have pow : ∀ a, HasPower t a → Appr prog L signed a → False := by
    rintro a (h | h | h) h2
    · exact hq a (.inl h) h2
    · exact hq a (.inr (.inl h)) h2
    · exact hq a (.inr (.inr (.inl h))) h2
  cases e with
  | same hf => exact keep (hf _)
  | drain hf => exact keep (hf _)
  | tok k' t0 t' ho0 hd0 ho' hd' hf mint native claim fits auth =>
    by_cases h : k = k'
    · subst h
      cases Data.token.inj (hd.symm.trans hd0)
      rcases auth with h | ⟨a, h1, h2⟩
      · exact upd t' ho0 ho' hd' mint h
      · exact (pow a h1 h2).elim
    · exact keep (hf _ h)
  | move src dst s0 s' d d' ne so sd so' sd' do_ dd do' dd' hf mints smint dmint snative dnative
      claim sfits dfits dkeeps auth =>
    by_cases h : k = src
    · subst h
      cases Data.token.inj (hd.symm.trans sd)
      obtain ⟨a, h1, h2⟩ := auth
      rcases h2 with h | h | h
      · exact absurd h1 (hq a (.inl h))
      · exact absurd h1 (hq a (.inr (.inl h)))
      · exact absurd h1 (hq a (.inr (.inr (.inr h))))
    · by_cases h2 : k = dst
      · subst h2
        cases Data.token.inj (hd.symm.trans dd)
        exact upd d' do_ do' dd' dmint dkeeps
      · exact keep (hf _ h h2)
  | fees mk m mo md fee all =>
    rcases all k with h | ⟨t0, t', h1, h2, h3, h4, h5, h6, h7, h8, h9⟩ | ⟨rfl, _⟩
    · exact keep h
    · cases Data.token.inj (hd.symm.trans h2)
      exact upd t' h1 h3 h4 (h6.trans h5.symm) h8
    · rw [hd] at md; cases md
  | mintUpd k' m m' ho0 hd0 ho' hd' hf =>
    exact keep (hf _ (by rintro rfl; rw [hd] at hd0; cases hd0))
  | mintTo mk dst m d n a mo md do_ dd dm auth appr fit sfit final =>
    have h : k ≠ mk := by rintro rfl; rw [hd] at md; cases md
    by_cases h2 : k = dst
    · subst h2
      cases Data.token.inj (hd.symm.trans dd)
      have e1 : (L' k).owner = (L k).owner ∧
          (L' k).data = .token { t with amount := t.amount + n } := by
        rw [final, Ledger.setData_ne _ _ h]; simp
      exact upd { t with amount := t.amount + n } do_ (e1.1.trans do_) e1.2 rfl
        ⟨rfl, rfl, rfl, Nat.le_add_right _ _, Nat.le_refl _⟩
    · exact keep (.of_eq (by rw [final, Ledger.setData_ne _ _ h, Ledger.setData_ne _ _ h2]))
  | burn mk acct m s0 s' n mo md so sd sm le sle same auth final =>
    have h : k ≠ mk := by rintro rfl; rw [hd] at md; cases md
    by_cases h2 : k = acct
    · subst h2
      cases Data.token.inj (hd.symm.trans sd)
      rcases auth with h | ⟨a, h1, h2⟩
      · rw [hn] at h; cases h
      · rcases h2 with h2 | h2 | h2
        · exact absurd h1 (hq a (.inl h2))
        · exact absurd h1 (hq a (.inr (.inl h2)))
        · exact absurd h1 (hq a (.inr (.inr (.inr ⟨m, by rw [sm]; exact md, h2⟩))))
    · exact keep (.of_eq (by rw [final, Ledger.setData_ne _ _ h, Ledger.setData_ne _ _ h2]))
  | closeTok k' t0 ho0 hd0 he hf auth =>
    by_cases h : k = k'
    · subst h
      cases Data.token.inj (hd.symm.trans hd0)
      rcases auth with h | ⟨a, h1, h2⟩
      · rw [hn] at h; cases h
      · exact (pow a h1 h2).elim
    · exact keep (hf _ h)
  | closeMint k' m a ho0 hd0 ca he hf =>
    exact keep (hf _ (by rintro rfl; rw [hd] at hd0; cases hd0))
  | initTok k' b t0 m ho0 hd0 ho' hd' mo md plain hf =>
    exact keep (hf _ (by rintro rfl; rw [hd] at hd0; cases hd0))
  | initOther k' ho0 hd0 ho' hd' hf =>
    refine keep (hf _ ?_)
    rintro rfl
    rcases hd0 with ⟨b, h⟩ | ⟨n, e, h⟩ <;> rw [hd] at h <;> cases h

/-- A frozen token account with tokens is out of everybody's reach but the freeze authority's. -/
theorem inert_tokEff (hd : (L k).data = .token t) (hz : t.frozen = true) (hn : t.isNative = none)
    (pos : 0 < t.amount + t.confidential)
    (hfee : ∀ m, (L t.mint).data = .mint m → m.transferFee? = none)
    (hq : ¬ FrzAppr prog L signed t.mint) (e : TokEff rm prog signed L L') : Inert L L' k t := by
  have keep : Kept L L' k → Inert L L' k t := .of_kept hd
  cases e with
  | same hf => exact keep (hf _)
  | drain hf => exact keep (hf _)
  | tok k' t0 t' ho0 hd0 ho' hd' hf mint native claim fits auth lamO lam reserve frz nf =>
    by_cases h : k = k'
    · subst h
      cases Data.token.inj (hd.symm.trans hd0)
      have h1 := nf hz
      have h2 := claim hn
      have h3 := h1.amount
      have h4 := h1.confidential
      refine ⟨ho'.trans ho0.symm, t', hd', mint, h1.owner, h1.delegate, h1.closeAuthority,
        by omega, by omega, ?_, native⟩
      rcases frz with h | h
      · exact h
      · exact absurd h hq
    · exact keep (hf _ h)
  | move src dst s0 s' d d' ne so sd so' sd' do_ dd do' dd' hf mints smint dmint snative dnative
      claim sfits dfits dkeeps auth lamO lam lamN srest frz nf =>
    refine keep (hf _ ?_ ?_)
    · rintro rfl
      cases Data.token.inj (hd.symm.trans sd)
      rw [nf.1] at hz; cases hz
    · rintro rfl
      cases Data.token.inj (hd.symm.trans dd)
      rw [nf.2] at hz; cases hz
  | fees mk m mo md fee all =>
    rcases all k with h | ⟨t0, t', h1, h2, h3, h4, h5, h6, h7, h8, h9⟩ | ⟨rfl, _⟩
    · exact keep h
    · cases Data.token.inj (hd.symm.trans h2)
      subst h5
      rw [hfee m md] at fee; cases fee
    · rw [hd] at md; cases md
  | mintUpd k' m m' ho0 hd0 ho' hd' hf =>
    exact keep (hf _ (by rintro rfl; rw [hd] at hd0; cases hd0))
  | mintTo mk dst m d n a mo md do_ dd dm auth appr fit sfit final dn nf =>
    have h : k ≠ mk := by rintro rfl; rw [hd] at md; cases md
    have h2 : k ≠ dst := by
      rintro rfl
      cases Data.token.inj (hd.symm.trans dd)
      rw [nf] at hz; cases hz
    exact keep (.of_eq (by rw [final, Ledger.setData_ne _ _ h, Ledger.setData_ne _ _ h2]))
  | burn mk acct m s0 s' n mo md so sd sm le sle same auth final nf =>
    have h : k ≠ mk := by rintro rfl; rw [hd] at md; cases md
    have h2 : k ≠ acct := by
      rintro rfl
      cases Data.token.inj (hd.symm.trans sd)
      rw [nf] at hz; cases hz
    exact keep (.of_eq (by rw [final, Ledger.setData_ne _ _ h, Ledger.setData_ne _ _ h2]))
  | closeTok k' t0 ho0 hd0 he hf auth lam emp =>
    refine keep (hf _ ?_)
    rintro rfl
    cases Data.token.inj (hd.symm.trans hd0)
    obtain ⟨h1, h2⟩ := emp hn
    omega
  | closeMint k' m a ho0 hd0 ca he hf =>
    exact keep (hf _ (by rintro rfl; rw [hd] at hd0; cases hd0))
  | initTok k' b t0 m ho0 hd0 ho' hd' mo md plain hf =>
    exact keep (hf _ (by rintro rfl; rw [hd] at hd0; cases hd0))
  | initOther k' ho0 hd0 ho' hd' hf =>
    refine keep (hf _ ?_)
    rintro rfl
    rcases hd0 with ⟨b, h⟩ | ⟨n, e, h⟩ <;> rw [hd] at h <;> cases h

theorem FrozenAt.of_kept (h : FrozenAt p mk L' k) (hk : Kept L L' k) : FrozenAt p mk L k := by
  obtain ⟨h1, t, h2, h3⟩ := h
  exact ⟨hk.1.symm.trans h1, t, hk.2.symm.trans h2, h3⟩

/-- Nobody but the freeze authority freezes an account of a mint that does not create frozen
accounts. -/
theorem onset_tokEff
    (hdef : ∀ m, (L mk).data = .mint m → m.defaultFrozen = false)
    (hq : ¬ FrzAppr prog L signed mk) (h : FrozenAt p mk L' k) (e : TokEff rm prog signed L L') :
    FrozenAt p mk L k := by
  have keep : Kept L L' k → FrozenAt p mk L k := h.of_kept
  obtain ⟨ho, t', hd, hm, hz⟩ := id h
  have upd : ∀ t0 t1, (L k).owner = prog → (L' k).owner = prog → (L k).data = .token t0 →
      (L' k).data = .token t1 → t1.mint = t0.mint → t1.frozen = t0.frozen → FrozenAt p mk L k := by
    intro t0 t1 h1 h2 h3 h4 h5 h6
    cases Data.token.inj (hd.symm.trans h4)
    exact ⟨h1.trans (h2.symm.trans ho), t0, h3, h5.symm.trans hm, h6.symm.trans hz⟩
  cases e with
  | same hf => exact keep (hf _)
  | drain hf => exact keep (hf _)
  | tok k' t0 t1 ho0 hd0 ho' hd' hf mint native claim fits auth lamO lam reserve frz nf =>
    by_cases h : k = k'
    · subst h
      rcases frz with h | h
      · exact upd t0 t1 ho0 ho' hd0 hd' mint h
      · cases Data.token.inj (hd.symm.trans hd')
        rw [← mint, hm] at h
        exact absurd h hq
    · exact keep (hf _ h)
  | move src dst s0 s' d d' ne so sd so' sd' do_ dd do' dd' hf mints smint dmint snative dnative
      claim sfits dfits dkeeps auth lamO lam lamN srest frz nf =>
    by_cases h : k = src
    · subst h; exact upd s0 s' so so' sd sd' smint frz.1
    · by_cases h2 : k = dst
      · subst h2; exact upd d d' do_ do' dd dd' dmint frz.2
      · exact keep (hf _ h h2)
  | fees mk m mo md fee all lam frz =>
    rcases all k with h | ⟨t0, t1, h1, h2, h3, h4, h5, h6, h7, h8, h9⟩ | ⟨rfl, m', h1, h2, _⟩
    · exact keep h
    · exact upd t0 t1 h1 h3 h2 h4 (h6.trans h5.symm) (frz k t0 t1 h2 h4)
    · rw [hd] at h2; cases h2
  | mintUpd k' m m' ho0 hd0 ho' hd' hf =>
    exact keep (hf _ (by rintro rfl; rw [hd] at hd'; cases hd'))
  | mintTo mk dst m d n a mo md do_ dd dm auth appr fit sfit final dn nf =>
    have h : k ≠ mk := by rintro rfl; rw [final, setData_data] at hd; cases hd
    by_cases h2 : k = dst
    · subst h2
      have e1 : (L' k).owner = (L k).owner ∧
          (L' k).data = .token { d with amount := d.amount + n } := by
        rw [final, Ledger.setData_ne _ _ h]; simp
      exact upd d _ do_ (e1.1.trans do_) dd e1.2 rfl rfl
    · exact keep (.of_eq (by rw [final, Ledger.setData_ne _ _ h, Ledger.setData_ne _ _ h2]))
  | burn mk acct m s0 s' n mo md so sd sm le sle same auth final nf =>
    have h : k ≠ mk := by rintro rfl; rw [final, setData_data] at hd; cases hd
    by_cases h2 : k = acct
    · subst h2
      have e1 : (L' k).owner = (L k).owner ∧
          (L' k).data = .token { s' with amount := s0.amount - n } := by
        rw [final, Ledger.setData_ne _ _ h]; simp
      exact upd s0 _ so (e1.1.trans so) sd e1.2 same.mint same.frozen
    · exact keep (.of_eq (by rw [final, Ledger.setData_ne _ _ h, Ledger.setData_ne _ _ h2]))
  | closeTok k' t0 ho0 hd0 he hf auth lam emp =>
    exact keep (hf _ (by rintro rfl; rw [he.2] at hd; cases hd))
  | closeMint k' m a ho0 hd0 ca he hf =>
    exact keep (hf _ (by rintro rfl; rw [he.2] at hd; cases hd))
  | initTok k' b t0 m ho0 hd0 ho' hd' mo md plain hf lam nat rent frz =>
    refine keep (hf _ ?_)
    rintro rfl
    cases Data.token.inj (hd.symm.trans hd')
    rw [hm] at md
    rw [hdef m md] at frz
    cases frz hz
  | initOther k' ho0 hd0 ho' hd' hf =>
    refine keep (hf _ ?_)
    rintro rfl
    rcases hd' with ⟨n, e, h⟩ | ⟨ms, h⟩ | ⟨m, h, _⟩ <;> rw [hd] at h <;> cases h

/-! ## The same, in terms of signatures -/

theorem FrzAppr.approves (h : FrzAppr prog L signed mk) (hS : ∀ k, signed k = true → S k) :
    ¬ FreezerIdle S L mk := by
  obtain ⟨m, f, _, h1, h2, h3⟩ := h
  exact fun hq => hq m f h1 h2 (h3.approvesBy hS)

theorem Eff.held (e : Eff S L L') (hd : (L k).data = .token t) (hn : ownedByNobody t = false)
    (hq : Unapproved t.mint S L k) : Stays L L' k t := by
  obtain ⟨rm, prog, signed, _, hS, e⟩ := e
  exact held_tokEff hd hn (fun a h1 h2 => hq t a hd rfl h1 (h2.approvesBy hS)) e

theorem Eff.inert (e : Eff S L L') (hd : (L k).data = .token t) (hz : t.frozen = true)
    (hn : t.isNative = none) (pos : 0 < t.amount + t.confidential)
    (hfee : ∀ m, (L t.mint).data = .mint m → m.transferFee? = none)
    (hq : FreezerIdle S L t.mint) : Inert L L' k t := by
  obtain ⟨rm, prog, signed, _, hS, e⟩ := e
  exact inert_tokEff hd hz hn pos hfee (fun h => h.approves hS hq) e

theorem Eff.onset (e : Eff S L L')
    (hdef : ∀ m, (L mk).data = .mint m → m.defaultFrozen = false)
    (hq : FreezerIdle S L mk) (h : FrozenAt p mk L' k) : FrozenAt p mk L k := by
  obtain ⟨rm, prog, signed, _, hS, e⟩ := e
  exact onset_tokEff hdef (fun h => h.approves hS hq) h e

theorem Calm.approves (c : Calm L L1) {a : Pubkey} (h : ApprovesBy L1 S a) : ApprovesBy L S a := by
  rcases h with h | ⟨ms, mem, h1, h2⟩
  · exact .inl h
  · exact .inr ⟨ms, mem, c.multisig _ _ h1, h2⟩

theorem Calm.freezerIdle (c : Calm L L1) (h : FreezerIdle S L mk) : FreezerIdle S L1 mk := by
  intro m1 f hm hf ha
  obtain ⟨m, hm, h1, _⟩ := c.mint mk m1 hm
  exact h m f hm (h1.symm.trans hf) (c.approves ha)

theorem Calm.pd {P : Mint → Prop} (c : Calm L L1)
    (hP : ∀ m m' : Mint, m'.exts = m.exts → P m → P m') (h : ∀ m, (L mk).data = .mint m → P m) :
    ∀ m, (L1 mk).data = .mint m → P m := by
  intro m1 hm1
  obtain ⟨m, hm, _, he⟩ := c.mint mk m1 hm1
  exact hP m m1 he (h m hm)

theorem Calm.unapproved (c : Calm L L1) (hd : (L k).data = .token t) (h : Stays L L1 k t)
    (hq : Unapproved t.mint S L k) : Unapproved t.mint S L1 k := by
  obtain ⟨_, t1, hd1, hm, hk⟩ := h
  intro t2 a h2 _ hc ha
  cases Data.token.inj (hd1.symm.trans h2)
  refine hq t a hd rfl ?_ (c.approves ha)
  rcases hc with h | h | h | ⟨m1, h1, h2⟩
  · exact .inl (hk.owner.symm.trans h)
  · exact .inr (.inl (hk.delegate.symm.trans h))
  · exact .inr (.inr (.inl (hk.closeAuthority.symm.trans h)))
  · obtain ⟨m, h3, _, h4⟩ := c.mint _ _ h1
    refine .inr (.inr (.inr ⟨m, by rw [← hm]; exact h3, ?_⟩))
    unfold Mint.permanentDelegate? at h2 ⊢
    rw [← h4]; exact h2

/-! ## Instructions of Token Wrap -/

variable {env : Env} {accounts : List Meta}

theorem eff_cpi {pdas borrowed : List Pubkey} {ix : TokenIx}
    (hS : ∀ k, Signs accounts k ∨ k ∈ pdas → S k)
    (h : invokeToken env accounts pdas borrowed prog ix L = .ok L') : Eff S L L' := by
  obtain ⟨h1, _, _, h4, h5⟩ := invokeToken_inv h
  exact ⟨env.rentMin, prog, signedBy ix.metas, by simpa [isTokenProgram] using h1,
    fun k hk => hS k (signedBy_caller h4 hk), tokenExec_eff h5⟩

theorem eff_wrapTransfer {a : WrapAccounts} {m : Mint} {amount fee : Nat}
    (hS : ∀ k, Signs accounts k → S k)
    (h : wrapTransfer env accounts a m amount fee L = .ok L') : Eff S L L' := by
  unfold wrapTransfer at h
  dsimp only at h
  split at h
  · exact eff_cpi (by simpa using hS) h
  · exact eff_cpi (by simpa using hS) h

theorem calm_burn {acct mint : Pubkey} {y : TokenAcct} {w : Mint} {n : Nat}
    (hw : (L mint).data = .mint w)
    (hL : L' = (L.setData acct (.token y)).setData mint (.mint { w with supply := n })) : Calm L L' := by
  subst hL
  constructor
  · intro a ms h
    by_cases e1 : a = mint
    · subst e1; rw [setData_data] at h; cases h
    · rw [Ledger.setData_ne _ _ e1] at h
      by_cases e2 : a = acct
      · subst e2; rw [setData_data] at h; cases h
      · rwa [Ledger.setData_ne _ _ e2] at h
  · intro k m' h
    by_cases e1 : k = mint
    · subst e1; rw [setData_data] at h; cases h; exact ⟨w, hw, rfl, rfl⟩
    · rw [Ledger.setData_ne _ _ e1] at h
      by_cases e2 : k = acct
      · subst e2; rw [setData_data] at h; cases h
      · rw [Ledger.setData_ne _ _ e2] at h; exact ⟨m', h, rfl, rfl⟩

/-- Every instruction of Token Wrap does one of these things to token accounts, with the approval of
nobody but its signers and its own authority addresses. -/
theorem instr_twEff {data : Bytes} (hcr : env.cr = cr) (hid : env.programId = crateId)
    (hi : processInstruction env accounts data L = .ok L') :
    TwEff ((Act.tokenWrap env accounts data).Signer cr) L L' := by
  obtain ⟨ix, rfl, h1⟩ := processInstruction_ok hi
  clear hi
  have fr : ∀ {x : Pubkey}, (∀ k, k ≠ x → Kept L L' k) →
      (isTokenProgram (L x).owner = true → ∀ t, (L x).data ≠ .token t) →
      (∀ t, (L' x).data ≠ .token t) →
      TwEff ((Act.tokenWrap env accounts ix.pack).Signer cr) L L' := by
    intro x h1 h2 h3
    refine .frame fun k => ?_
    by_cases h : k = x
    · subst h; exact .inr ⟨h2, h3⟩
    · exact .inl (h1 k h)
  cases ix with
  | createMint idem =>
    obtain ⟨a, c, h2⟩ := processCreateMint_inv h1
    rcases h2 with ⟨_, rfl, _⟩ | ⟨mb, bb, L1, _, _, _, _, g1, g2⟩
    · exact .frame fun _ => .inl .rfl'
    · obtain ⟨m, A, space, _, _, _, d1, d2, _, _, _, _, _, rfl⟩ := createMint_fresh default_spec g1 g2
      refine .frame fun k => ?_
      by_cases e1 : k = a.backpointer.key
      · subst e1
        exact .inr ⟨fun _ t => by rw [d2]; simp, fun t => by rw [Ledger.set_same]; simp⟩
      · by_cases e2 : k = a.wrappedMint.key
        · subst e2
          exact .inr ⟨fun _ t => by rw [d1]; simp,
            fun t => by rw [Ledger.set_ne _ _ e1, Ledger.set_same]; simp⟩
        · exact .inl (.of_eq (by rw [Ledger.set_ne _ _ e1, Ledger.set_ne _ _ e2]))
  | wrap amount =>
    obtain ⟨a, m0, L1, pda, c⟩ := processWrapHooked_inv (hook := id)
      (by rw [processWrapHooked_id]; exact h1)
    obtain ⟨w, r, mt⟩ := mintTo_cpi c.mintTo
    exact .wrap L1 (eff_wrapTransfer (fun _ h => .inl h) c.transfer) _ _ _ _ _ w r mt
  | unwrap amount =>
    obtain ⟨a, m0, w, hh, h', e, e', d, fee, L1, f⟩ := processUnwrap_effect h1
    obtain ⟨pda, c⟩ := f.ctx
    have hca := c.auth
    rw [hcr] at hca
    exact .unwrap L1 (eff_cpi (fun _ h => .inl (by simpa using h)) c.burn) (calm_burn f.wData f.mid)
      (eff_cpi (Act.signer_pda hca (pda_authority hid c.pdaEq)) c.transfer)
  | closeStuckEscrow =>
    obtain ⟨a, t, m0, pda, c⟩ := processClose_effect h1
    have hca := c.auth
    rw [hcr] at hca
    exact .close (eff_cpi (Act.signer_pda hca (pda_authority hid c.pdaEq)) c.cpi)
  | syncMetadataToToken2022 =>
    obtain ⟨a, src, m0, m', e⟩ := processSync22_effect h1
    have hf := e.final
    subst hf
    exact fr (x := a.wrappedMint.key) (fun k hk => kept_setData hk)
      (fun _ t => by rw [e.wData]; simp) (fun t => by rw [setData_data]; simp)
  | syncMetadataToSplToken =>
    obtain ⟨a, src, data, e⟩ := processSyncSpl_effect h1
    rcases e.run with ⟨_, g⟩ | ⟨_, g⟩
    · have g0 := g
      obtain ⟨_, _, _, _, hb, _, _, _, _, hL⟩ := mplCreate_inv g
      refine fr (x := a.metaplexMetadata.key) (fun k hk => kept_mplCreate g0 hk)
        (fun _ t => by rw [hb]; simp) (fun t => ?_)
      rw [hL]
      simp [Ledger.set_same]
    · obtain ⟨_, md, hd, _, _, _, _, hL⟩ := mplUpdate_inv g
      subst hL
      exact fr (x := a.metaplexMetadata.key) (fun k hk => kept_setData hk)
        (fun _ t => by rw [hd]; simp) (fun t => by rw [setData_data]; simp)
  | setCanonicalPointer q =>
    obtain ⟨a, m0, e⟩ := processPointer_effect h1
    rcases e.final with ⟨⟨hb, _⟩, hL⟩ | ⟨_, ho, hL⟩ | ⟨_, rfl⟩
    · subst hL
      exact fr (x := a.pointer.key) (fun k hk => .of_eq (Ledger.set_ne _ _ hk))
        (fun _ t => by rw [hb]; simp) (fun t => by rw [Ledger.set_same]; simp)
    · subst hL
      refine fr (x := a.pointer.key) (fun k hk => .of_eq (Ledger.set_ne _ _ hk))
        (fun h t => ?_) (fun t => by rw [Ledger.set_same]; simp)
      rw [ho, hid, crate_not_token] at h; cases h
    · exact .frame fun _ => .inl .rfl'

theorem MintedTo.stays {mk dst auth : Pubkey} {n : Nat} {m : Mint} {d : TokenAcct}
    (h : MintedTo prog mk dst auth n L L' m d) (hd : (L k).data = .token t) : Stays L L' k t := by
  have h1 : k ≠ mk := by rintro rfl; have := h.md; rw [hd] at this; cases this
  by_cases h2 : k = dst
  · subst h2
    cases Data.token.inj (hd.symm.trans h.dd)
    exact ⟨h.dstOwner.trans h.do_.symm, _, h.dstData, rfl, rfl, rfl, rfl, Nat.le_add_right _ _, Nat.le_refl _⟩
  · exact .of_kept hd (.of_eq (h.other k h1 h2))

theorem MintedTo.inert {mk dst auth : Pubkey} {n : Nat} {m : Mint} {d : TokenAcct}
    (h : MintedTo prog mk dst auth n L L' m d) (hd : (L k).data = .token t) (hz : t.frozen = true) :
    Inert L L' k t := by
  have h1 : k ≠ mk := by rintro rfl; have := h.md; rw [hd] at this; cases this
  have h2 : k ≠ dst := by
    rintro rfl
    cases Data.token.inj (hd.symm.trans h.dd)
    have := h.nf; rw [hz] at this; cases this
  exact .of_kept hd (.of_eq (h.other k h1 h2))

theorem MintedTo.onset {mk' dst auth : Pubkey} {n : Nat} {m : Mint} {d : TokenAcct}
    (h : MintedTo prog mk' dst auth n L L' m d) (hz : FrozenAt p mk L' k) : FrozenAt p mk L k := by
  obtain ⟨ho, t, hd, hm, hf⟩ := id hz
  have h1 : k ≠ mk' := by rintro rfl; have := h.mkData; rw [hd] at this; cases this
  have h2 : k ≠ dst := by
    rintro rfl
    cases Data.token.inj (hd.symm.trans h.dstData)
    have := h.nf
    dsimp only at hf
    rw [hf] at this; cases this
  exact hz.of_kept (.of_eq (h.other k h1 h2))

/-! ## Steps -/

/-- A step of another program keeps a token account, or is an instruction of a token program. -/
theorem baseStep_tok {act : Act} (h : BaseStep cr act L L') (hf : AllFunded L)
    (ho : isTokenProgram (L k).owner = true) (hd : (L k).data = .token t) :
    Kept L L' k ∨ Eff (act.Signer cr) L L' := by
  have nb : ∀ b, (L k).data ≠ .bytes b := by intro b; rw [hd]; simp
  cases h with
  | token hp hs he => exact .inr ⟨_, _, _, hp, fun _ h => h, tokenExec_eff he⟩
  | allocate _ ha =>
    unfold sysAllocate at ha
    simp only [bind_ok_iff, require_ok_iff, pure_ok_iff, Bool.and_eq_true, decide_eq_true_eq] at ha
    obtain ⟨_, _, _, ⟨h1, _⟩, rfl⟩ := ha
    exact .inl (kept_setData (by rintro rfl; exact nb _ h1))
  | assign _ hz ha =>
    unfold sysAssign at ha
    split at ha
    · cases ha; exact .inl .rfl'
    · simp only [bind_ok_iff, require_ok_iff, pure_ok_iff] at ha
      obtain ⟨_, _, _, _, rfl⟩ := ha
      refine .inl (.of_eq (Ledger.set_ne _ _ ?_))
      rintro rfl
      obtain ⟨b, hb, _⟩ := hz
      exact nb _ hb
  | createAta _ _ ha =>
    obtain ⟨k, m, _, _, _, kd, _, _, _, _, rfl⟩ := ataCreate_inv ha
    exact .inl (.of_eq (Ledger.set_ne _ _ (by rintro rfl; exact nb _ kd)))
  | gc h0 =>
    refine .inl (.of_eq (Ledger.set_ne _ _ ?_))
    rintro rfl
    have := ((hf k).tok t ho hd).pos
    omega
  | lamports h1 hl => exact .inl (kept_lamports (h1 k) (hl k))
  | other hp _ _ hframe _ hlam =>
    rename_i prog _ _ _
    have hne : (L k).owner ≠ prog := by
      rintro rfl
      rw [ho] at hp; cases hp
    exact .inl ⟨(hframe k hne).1, (hframe k hne).2, fun _ => hlam k hne⟩

theorem stays_base {act : Act} (h : BaseStep cr act L L') (hf : AllFunded L)
    (ho : isTokenProgram (L k).owner = true) (hd : (L k).data = .token t)
    (hn : ownedByNobody t = false) (hq : Unapproved t.mint (act.Signer cr) L k) : Stays L L' k t := by
  rcases baseStep_tok h hf ho hd with h | h
  · exact .of_kept hd h
  · exact h.held hd hn hq

theorem stays_run {ok : Act → Ledger → Prop}
    (hok : ∀ act L, ok act L → AllFunded L ∧ Unapproved t.mint (act.Signer cr) L k) (h : Run cr ok L L')
    (ho : isTokenProgram (L k).owner = true) (hd : (L k).data = .token t)
    (hn : ownedByNobody t = false) : Stays L L' k t := by
  induction h generalizing t with
  | refl => exact .refl hd
  | step h1 h2 _ ih =>
    have s1 := stays_base h2 (hok _ _ h1).1 ho hd hn (hok _ _ h1).2
    exact s1.trans fun t1 e1 e2 e3 => ih (by rw [e2]; exact hok) (by rw [s1.1]; exact ho) e1
      (by rw [e3.nobody]; exact hn)

/-- **Key lemma** of C82. -/
theorem stays_step {act : Act} {ok : Act → Ledger → Prop}
    (hok : ∀ act L, ok act L → AllFunded L ∧ Unapproved t.mint (act.Signer cr) L k)
    (h : Step cr ok act L L') (hf : AllFunded L) (hq : Unapproved t.mint (act.Signer cr) L k)
    (ho : isTokenProgram (L k).owner = true) (hd : (L k).data = .token t)
    (hn : ownedByNobody t = false) : Stays L L' k t := by
  cases h with
  | base h => exact stays_base h hf ho hd hn hq
  | wrapHooked hcr hid hs hhook h =>
    obtain ⟨a, m, L1, pda, c⟩ := processWrapHooked_inv h
    obtain ⟨w, r, mt⟩ := mintTo_cpi c.mintTo
    have s1 := (eff_wrapTransfer (fun _ h => .inl h) c.transfer :
      Eff (Act.Signer cr (.tokenWrap _ _ _)) L L1).held hd hn hq
    have s2 := s1.trans fun t1 e1 e2 e3 =>
      stays_run (by rw [e2]; exact hok) (hhook L1) (by rw [s1.1]; exact ho) e1 (by rw [e3.nobody]; exact hn)
    exact s2.trans fun t1 e1 _ _ => mt.stays e1
  | tokenWrap hcr hid hs h =>
    cases instr_twEff hcr hid h with
    | frame h =>
      rcases h k with h | ⟨h, _⟩
      · exact .of_kept hd h
      · exact absurd hd (h ho t)
    | wrap L1 e _ _ _ _ _ _ _ mt =>
      exact (e.held hd hn hq).trans fun t1 e1 _ _ => mt.stays e1
    | unwrap L1 e c e' =>
      have s1 := e.held hd hn hq
      exact s1.trans fun t1 e1 e2 e3 => e'.held e1 (by rw [e3.nobody]; exact hn)
        (by rw [e2]; exact c.unapproved hd s1 hq)
    | close e => exact e.held hd hn hq

end

end TokenWrap
