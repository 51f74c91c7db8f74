import Verif.WorldInv
/-! # Token instructions not signed by the authority are safe -/

set_option linter.unusedSimpArgs false

namespace TokenWrap

open scoped BigOperators

section
variable {bk : Bk} {cr : Crypto} {s : Setting cr} {rm : Nat → Nat} {prog : Pubkey} {signed : Pubkey → Bool} {L L' : Ledger}
  {S : Pubkey → Prop}

/-- Token programs touch only their own accounts, which stay theirs unless closed. -/
theorem TokEff.frame (e : TokEff rm prog signed L L') (x : Pubkey) :
    Kept L L' x ∨ ((L x).owner = prog ∧ ((L' x).owner = prog ∨ Blank L' x)) := by
  cases e with
  | same hf => exact .inl (hf x)
  | drain hf => exact .inl (hf x)
  | tok k t t' ho hd ho' hd' hf =>
    by_cases h : x = k
    · subst h; exact .inr ⟨ho, .inl ho'⟩
    · exact .inl (hf x h)
  | move src dst s s' d d' ne so sd so' sd' do_ dd do' dd' hf =>
    by_cases h : x = src
    · subst h; exact .inr ⟨so, .inl so'⟩
    · by_cases h2 : x = dst
      · subst h2; exact .inr ⟨do_, .inl do'⟩
      · exact .inl (hf x h h2)
  | fees mk m mo md fee all =>
    rcases all x with h | ⟨t, t', h1, h2, h3, h4, _⟩ | ⟨rfl, m', h1, _⟩
    · exact .inl h
    · exact .inr ⟨h1, .inl h3⟩
    · exact .inr ⟨mo, .inl h1⟩
  | mintUpd k m m' ho hd ho' hd' hf =>
    by_cases h : x = k
    · subst h; exact .inr ⟨ho, .inl ho'⟩
    · exact .inl (hf x h)
  | mintTo mk dst m d n a mo md do_ dd dm auth appr fit sfit final =>
    subst final
    by_cases h : x = mk
    · subst h
      refine .inr ⟨mo, .inl ?_⟩
      simp only [Ledger.setData_same, Ledger.setData_apply]
      split
      · exact do_
      · exact mo
    · by_cases h2 : x = dst
      · subst h2; exact .inr ⟨do_, .inl (by rw [Ledger.setData_ne _ _ h]; simpa using do_)⟩
      · exact .inl (.of_eq (by rw [Ledger.setData_ne _ _ h, Ledger.setData_ne _ _ h2]))
  | burn mk acct m s s' n mo md so sd sm le sle same auth final =>
    subst final
    by_cases h : x = mk
    · subst h
      refine .inr ⟨mo, .inl ?_⟩
      simp only [Ledger.setData_same, Ledger.setData_apply]
      split
      · exact so
      · exact mo
    · by_cases h2 : x = acct
      · subst h2; exact .inr ⟨so, .inl (by rw [Ledger.setData_ne _ _ h]; simpa using so)⟩
      · exact .inl (.of_eq (by rw [Ledger.setData_ne _ _ h, Ledger.setData_ne _ _ h2]))
  | closeTok k t ho hd he hf =>
    by_cases h : x = k
    · subst h; exact .inr ⟨ho, .inr he⟩
    · exact .inl (hf x h)
  | closeMint k m a ho hd ca he hf =>
    by_cases h : x = k
    · subst h; exact .inr ⟨ho, .inr he⟩
    · exact .inl (hf x h)
  | initTok k b t m ho hd ho' hd' mo md plain hf =>
    by_cases h : x = k
    · subst h; exact .inr ⟨ho, .inl ho'⟩
    · exact .inl (hf x h)
  | initOther k ho hd ho' hd' hf =>
    by_cases h : x = k
    · subst h; exact .inr ⟨ho, .inl ho'⟩
    · exact .inl (hf x h)

theorem Appr.approvesBy {a : Pubkey} (h : Appr prog L signed a) (hS : ∀ k, signed k = true → S k) :
    ApprovesBy L S a := by
  rcases h with h | ⟨sg, h⟩
  · exact .inl (hS _ h)
  · unfold AuthOk at h
    cases hm : multisigAt prog L a with
    | none => rw [hm] at h; exact .inl (hS _ h)
    | some ms =>
      rw [hm] at h
      unfold multisigAt at hm
      split at hm
      · split at hm
        · rename_i _ ms' hd
          cases hm
          refine .inr ⟨ms, _, hd, List.filter_sublist, h.2, fun x hx => hS x ?_⟩
          exact List.all_eq_true.1 h.1 x hx
        · cases hm
      · cases hm

theorem not_appr_A (h : Blank L s.A) (hp : prog = splTokenId ∨ prog = token2022Id)
    (hA : signed s.A = false) : ¬ Appr prog L signed s.A := by
  have hn : multisigAt prog L s.A = none := by
    unfold multisigAt
    split
    · rename_i ho
      rw [h.1] at ho
      rcases hp with rfl | rfl
      · exact absurd ho.symm spl_ne_system
      · exact absurd ho.symm t22_ne_system
    · rfl
  rintro (h1 | ⟨sg, h1⟩)
  · rw [hA] at h1; cases h1
  · unfold AuthOk at h1; rw [hn] at h1; dsimp only at h1; rw [hA] at h1; cases h1

theorem Blank.owner_ne {k : Pubkey} (h : Blank L k) (hp : prog = splTokenId ∨ prog = token2022Id) :
    (L k).owner ≠ prog := by
  rw [h.1]
  rcases hp with rfl | rfl
  · exact spl_ne_system.symm
  · exact t22_ne_system.symm

theorem Blank.frame {k : Pubkey} (h : Blank L k) (hp : prog = splTokenId ∨ prog = token2022Id)
    (e : TokEff rm prog signed L L') : Kept L L' k := by
  rcases e.frame k with h1 | ⟨h1, _⟩
  · exact h1
  · exact absurd h1 (h.owner_ne hp)

/-- An escrow survives every token instruction that `A` does not authorise, and does not lose
tokens. -/
theorem escrow_safe {p E : Pubkey} (hE : EscrowOk s.u s.A p E L)
    (hp : prog = splTokenId ∨ prog = token2022Id)
    (hA : ¬ Appr prog L signed s.A) (np : bk → PDQuiet s.u S L)
    (hS : ∀ k, signed k = true → S k) (e : TokEff rm prog signed L L') :
    EscrowOk s.u s.A p E L' ∧ (bk → balanceOf L E ≤ balanceOf L' E) := by
  rcases hE with hE | ⟨ho, t, hd, tm, tow, tdel, tca, tam⟩
  · have := hE.frame hp e
    exact ⟨.inl (hE.kept this), fun _ => by rw [balanceOf_kept this]⟩
  · have hE' : EscrowOk s.u s.A p E L := .inr ⟨ho, t, hd, tm, tow, tdel, tca, tam⟩
    have keep : Kept L L' E → EscrowOk s.u s.A p E L' ∧ (bk → balanceOf L E ≤ balanceOf L' E) :=
      fun h => ⟨hE'.kept h, fun _ => by rw [balanceOf_kept h]⟩
    have upd : ∀ t', (L' E).owner = p → (L' E).data = .token t' → t'.mint = t.mint →
        KeepsAcct t t' → t'.amount ≤ u64Max →
        EscrowOk s.u s.A p E L' ∧ (bk → balanceOf L E ≤ balanceOf L' E) := by
      intro t' h1 h2 h3 h4 h5
      refine ⟨.inr ⟨h1, t', h2, h3.trans tm, h4.owner.trans tow, h4.delegate.trans tdel,
        h4.closeAuthority.trans tca, h5⟩, ?_⟩
      rw [balanceOf_token hd, balanceOf_token h2]; exact fun _ => h4.amount
    have pow : ∀ a, HasPower t a → Appr prog L signed a → False := by
      intro a h1 h2
      rcases h1 with h | h | h
      · rw [tow] at h; subst h; exact hA h2
      · rw [tdel] at h; cases h
      · rw [tca] at h; cases h
    -- a permanent delegate takes tokens but not the account
    have taken : ∀ t', (L' E).owner = p → (L' E).data = .token t' → t'.mint = t.mint →
        t'.owner = t.owner → t'.closeAuthority = t.closeAuthority →
        (t'.delegate = t.delegate ∨ t'.delegate = none) → t'.amount ≤ t.amount → ¬ bk →
        EscrowOk s.u s.A p E L' ∧ (bk → balanceOf L E ≤ balanceOf L' E) := by
      intro t' h1 h2 h3 h4 h5 h6 h7 h8
      refine ⟨.inr ⟨h1, t', h2, h3.trans tm, h4.trans tow, ?_, h5.trans tca, by omega⟩,
        fun b => absurd b h8⟩
      rcases h6 with h6 | h6
      · exact h6.trans tdel
      · exact h6
    have spend : ∀ a, Appr prog L signed a → (t.owner = a ∨ t.delegate = some a ∨
        ∃ m, (L t.mint).data = .mint m ∧ m.permanentDelegate? = some a) → ¬ bk := by
      intro a h1 h2 b
      rcases h2 with h | h | ⟨m, h, h'⟩
      · rw [tow] at h; subst h; exact hA h1
      · rw [tdel] at h; cases h
      · rw [tm] at h; exact np b m a h h' (h1.approvesBy hS)
    by_cases hpp : p = prog
    · subst hpp
      cases e with
      | same hf => exact keep (hf _)
      | drain hf => exact keep (hf _)
      | tok k t0 t' ho0 hd0 ho' hd' hf mint native claim fits auth =>
        by_cases h : E = k
        · subst h
          rw [hd] at hd0; cases hd0
          rcases auth with h | ⟨a, h1, h2⟩
          · exact upd t' ho' hd' mint h (fits tam)
          · exact (pow a h1 h2).elim
        · exact keep (hf _ h)
      | move src dst s0 s' d d' ne so sd so' sd' do_ dd do' dd' hf mints smint dmint snative dnative
          claim sfits dfits dkeeps auth _ _ _ srest =>
        by_cases h : E = src
        · subst h
          rw [hd] at sd; cases sd
          obtain ⟨a, h1, h2⟩ := auth
          exact taken s' so' sd' smint srest.1 srest.2.1 srest.2.2 sfits (spend a h1 h2)
        · by_cases h2 : E = dst
          · subst h2
            rw [hd] at dd; cases dd
            exact upd d' do' dd' dmint dkeeps (dfits tam)
          · exact keep (hf _ h h2)
      | fees mk m mo md fee all =>
        rcases all E with h | ⟨t0, t', h1, h2, h3, h4, h5, h6, h7, h8, h9⟩ | ⟨rfl, _⟩
        · exact keep h
        · rw [hd] at h2; cases h2
          exact upd t' h3 h4 (h6.trans h5.symm) h8 (h9 tam)
        · rw [hd] at md; cases md
      | mintUpd k m m' ho0 hd0 ho' hd' hf =>
        by_cases h : E = k
        · subst h; rw [hd] at hd0; cases hd0
        · exact keep (hf _ h)
      | mintTo mk dst m d n a mo md do_ dd dm auth appr fit sfit final =>
        have h : E ≠ mk := by rintro rfl; rw [hd] at md; cases md
        by_cases h2 : E = dst
        · subst h2
          rw [hd] at dd; cases dd
          have e1 : (L' E).owner = (L E).owner ∧
              (L' E).data = .token { t with amount := t.amount + n } := by
            rw [final, Ledger.setData_ne _ _ h]; simp
          exact upd { t with amount := t.amount + n } (e1.1.trans ho) e1.2 rfl
            ⟨rfl, rfl, rfl, by simp, Nat.le_refl _⟩ fit
        · exact keep (.of_eq (by rw [final, Ledger.setData_ne _ _ h, Ledger.setData_ne _ _ h2]))
      | burn mk acct m s0 s' n mo md so sd sm le sle same auth final =>
        have h : E ≠ mk := by rintro rfl; rw [hd] at md; cases md
        by_cases h2 : E = acct
        · subst h2
          rw [hd] at sd; cases sd
          rcases auth with h | ⟨a, h1, h2⟩
          · simp only [ownedByNobody, tow, Bool.or_eq_true, decide_eq_true_eq] at h
            rcases h with h | h
            · exact absurd h s.aFree.1
            · exact absurd h s.aFree.2
          · have e1 : (L' E).owner = (L E).owner ∧
                (L' E).data = .token { s' with amount := t.amount - n } := by
              rw [final, Ledger.setData_ne _ _ h]; simp
            refine taken _ (e1.1.trans ho) e1.2 same.mint same.owner same.closeAuthority
              same.delegate (Nat.sub_le _ _) (spend a h1 ?_)
            rcases h2 with h2 | h2 | h2
            · exact .inl h2
            · exact .inr (.inl h2)
            · exact .inr (.inr ⟨m, by rw [sm]; exact md, h2⟩)
        · exact keep (.of_eq (by rw [final, Ledger.setData_ne _ _ h, Ledger.setData_ne _ _ h2]))
      | closeTok k t0 ho0 hd0 he hf auth =>
        by_cases h : E = k
        · subst h
          rw [hd] at hd0; cases hd0
          rcases auth with h | ⟨a, h1, h2⟩
          · simp only [ownedByNobody, tow, Bool.or_eq_true, decide_eq_true_eq] at h
            rcases h with h | h
            · exact absurd h s.aFree.1
            · exact absurd h s.aFree.2
          · exact (pow a h1 h2).elim
        · exact keep (hf _ h)
      | closeMint k m a ho0 hd0 ca he hf =>
        by_cases h : E = k
        · subst h; rw [hd] at hd0; cases hd0
        · exact keep (hf _ h)
      | initTok k b t0 m ho0 hd0 ho' hd' mo md plain hf =>
        by_cases h : E = k
        · subst h; rw [hd] at hd0; cases hd0
        · exact keep (hf _ h)
      | initOther k ho0 hd0 ho' hd' hf =>
        by_cases h : E = k
        · subst h
          rcases hd0 with ⟨b, h⟩ | ⟨n, e, h⟩ <;> rw [hd] at h <;> cases h
        · exact keep (hf _ h)
    · rcases e.frame E with h | ⟨h, _⟩
      · exact keep h
      · exact absurd (ho.symm.trans h) hpp

/-- The extensions of a wrapped mint name no authority but `A`. -/
theorem wrappedExts_authorities {A W wp a : Pubkey} {exts : List MintExt}
    (h : WrappedExts A W wp exts) (ha : ∃ e ∈ exts, some a ∈ e.authorities) : a = A := by
  obtain ⟨e, he, ha⟩ := ha
  rcases h with ⟨_, rfl⟩ | ⟨_, rfl | ⟨md, rfl, hmd⟩⟩
  · cases he
  · simp only [defaultExts, List.mem_cons, List.not_mem_nil, or_false] at he
    rcases he with rfl | rfl <;> simp_all [MintExt.authorities]
  · simp only [defaultExts, List.cons_append, List.nil_append, List.mem_cons, List.not_mem_nil,
      or_false] at he
    rcases he with rfl | rfl | rfl <;> simp_all [MintExt.authorities]

theorem wrappedExts_noDefault {A W wp : Pubkey} {exts : List MintExt} {e : MintExt}
    (h : WrappedExts A W wp exts) (he : e ∈ exts) : e.tag ≠ 6 := by
  rcases h with ⟨_, rfl⟩ | ⟨_, rfl | ⟨md, rfl, hmd⟩⟩
  · cases he
  · simp only [defaultExts, List.mem_cons, List.not_mem_nil, or_false] at he
    rcases he with rfl | rfl <;> simp [MintExt.tag]
  · simp only [defaultExts, List.cons_append, List.nil_append, List.mem_cons, List.not_mem_nil,
      or_false] at he
    rcases he with rfl | rfl | rfl <;> simp [MintExt.tag]

theorem wrappedExts_noFee {A W wp : Pubkey} {m : Mint} (h : WrappedExts A W wp m.exts) :
    m.transferFee? = none := by
  unfold Mint.transferFee?
  rcases h with ⟨_, h⟩ | ⟨_, h | ⟨md, h, _⟩⟩ <;> rw [h] <;> rfl

theorem wrappedExts_noClose {A W wp : Pubkey} {m : Mint} (h : WrappedExts A W wp m.exts) :
    m.closeAuthority? = none := by
  unfold Mint.closeAuthority?
  rcases h with ⟨_, h⟩ | ⟨_, h | ⟨md, h, _⟩⟩ <;> rw [h] <;> rfl

theorem wrappedExts_noPD {A W wp : Pubkey} {m : Mint} (h : WrappedExts A W wp m.exts) :
    m.permanentDelegate? = none := by
  unfold Mint.permanentDelegate?
  rcases h with ⟨_, h⟩ | ⟨_, h | ⟨md, h, _⟩⟩ <;> rw [h] <;> rfl

/-- The part of `Safe` about the wrapped mint. -/
structure MintSafe (s : Setting cr) (L L' : Ledger) : Prop where
  w : (Blank L' s.W ∧ Blank L' s.B) ∨ WrappedOk s L'
  noNative : ∀ k t, (L' k).owner = s.wp → (L' k).data = .token t → t.mint = s.W → t.isNative = none
  claims : ∀ F : Finset Pubkey, ∑ k ∈ F, claimOf s.wp s.W L' k ≤ supplyOf L' s.W
  supply : supplyOf L' s.W ≤ supplyOf L s.W
  kept : MintKept s.W L L'

theorem noNative_of {k0 : Pubkey}
    (h : ∀ k t, (L k).owner = s.wp → (L k).data = .token t → t.mint = s.W → t.isNative = none)
    (hf : ∀ x, x ≠ k0 → Kept L L' x)
    (hk : ∀ t, (L' k0).data = .token t → t.mint = s.W → t.isNative = none) :
    ∀ k t, (L' k).owner = s.wp → (L' k).data = .token t → t.mint = s.W → t.isNative = none := by
  intro k t h1 h2 h3
  by_cases hx : k = k0
  · subst hx; exact hk t h2 h3
  · rw [(hf k hx).1] at h1; rw [(hf k hx).2] at h2; exact h k t h1 h2 h3

/-- Changes at one non-mint account that do not raise its claim. -/
theorem Inv.mintSafe_one (inv : Inv bk s L) {k0 : Pubkey} (hW : Kept L L' s.W) (hB : Kept L L' s.B)
    (hf : ∀ x, x ≠ k0 → Kept L L' x)
    (hk : ∀ t, (L' k0).data = .token t → t.mint = s.W → t.isNative = none)
    (hc : claimOf s.wp s.W L' k0 ≤ claimOf s.wp s.W L k0) : MintSafe s L L' := by
  refine ⟨inv.wKept hW hB, noNative_of inv.noNative hf hk, ?_, by rw [supplyOf_kept hW],
    .of_kept hW⟩
  rw [supplyOf_kept hW]
  refine sum_mono (Nat.le_refl _) ?_ inv.claims
  intro k
  by_cases h : k = k0
  · subst h; exact hc
  · rw [claimOf_kept (hf k h)]

/-- Token instructions not authorised by `A` are safe for the wrapped mint. -/
theorem mint_safe (inv : Inv bk s L) (hp : prog = splTokenId ∨ prog = token2022Id)
    (hA : ¬ Appr prog L signed s.A) (e : TokEff rm prog signed L L') : MintSafe s L L' := by
  have hB : Kept L L' s.B := by
    rcases e.frame s.B with h | ⟨h, _⟩
    · exact h
    · rcases inv.w with ⟨_, hb⟩ | hw
      · exact absurd h (hb.owner_ne hp)
      · rw [hw.bOwner] at h
        rcases hp with rfl | rfl
        · exact absurd h crate_ne_spl
        · exact absurd h crate_ne_t22
  by_cases hpw : prog = s.wp
  · rcases inv.w with ⟨hWb, hBb⟩ | hw
    · -- the wrapped mint does not exist
      have hW : Kept L L' s.W := hWb.frame hp e
      have hs0 : supplyOf L s.W = 0 := by unfold supplyOf; rw [hWb.2]
      have c0 : ∀ k, claimOf s.wp s.W L k = 0 := by
        intro k
        have := inv.claims {k}
        simpa [hs0] using this
      have notW : ∀ m, (L s.W).data ≠ .mint m := by intro m h; rw [hWb.2] at h; cases h
      -- every token account of mint W in L' has claim 0 and is not native
      have key : ∀ k, (∀ t, (L' k).owner = s.wp → (L' k).data = .token t → t.mint = s.W →
          t.isNative = none) ∧ claimOf s.wp s.W L' k = 0 := by
        intro k
        have base : Kept L L' k → (∀ t, (L' k).owner = s.wp → (L' k).data = .token t →
            t.mint = s.W → t.isNative = none) ∧ claimOf s.wp s.W L' k = 0 := by
          intro h
          refine ⟨?_, by rw [claimOf_kept h, c0]⟩
          intro t h1 h2 h3
          rw [h.1] at h1; rw [h.2] at h2; exact inv.noNative k t h1 h2 h3
        have old : ∀ t t', (L k).owner = s.wp → (L k).data = .token t → (L' k).data = .token t' →
            t'.mint = t.mint → t'.isNative = t.isNative →
            (t.mint = s.W → t.isNative = none → t'.amount + t'.confidential = 0) →
            (∀ t, (L' k).owner = s.wp → (L' k).data = .token t →
            t.mint = s.W → t.isNative = none) ∧ claimOf s.wp s.W L' k = 0 := by
          intro t t' h1 h2 h3 h4 h5 h6
          refine ⟨?_, ?_⟩
          · intro t0 g1 g2 g3
            rw [h3] at g2; cases g2
            rw [h5]; exact inv.noNative k t h1 h2 (h4 ▸ g3)
          · by_cases ho : (L' k).owner = s.wp
            · rw [claimOf_token ho h3]
              split
              · rename_i hm
                rw [h4] at hm
                exact h6 hm (inv.noNative k t h1 h2 hm)
              · rfl
            · exact claimOf_owner ho
        have nontok : (∀ t, (L' k).data ≠ .token t) → (∀ t, (L' k).owner = s.wp →
            (L' k).data = .token t → t.mint = s.W → t.isNative = none) ∧
            claimOf s.wp s.W L' k = 0 :=
          fun h => ⟨fun t _ h2 => absurd h2 (h t), claimOf_nontoken h⟩
        cases e with
        | same hf => exact base (hf k)
        | drain hf => exact base (hf k)
        | tok k0 t t' ho hd ho' hd' hf mint native claim fits auth =>
          by_cases h : k = k0
          · subst h
            refine old t t' (ho.trans hpw) hd hd' mint native ?_
            intro hm hn
            have := c0 k
            rw [claimOf_token (ho.trans hpw) hd, if_pos hm] at this
            rw [claim hn, this]
          · exact base (hf k h)
        | move src dst s0 s' d d' ne so sd so' sd' do_ dd do' dd' hf mints smint dmint snative
            dnative claim sfits dfits dkeeps auth =>
          by_cases h : k = src
          · subst h
            refine old s0 s' (so.trans hpw) sd sd' smint snative ?_
            intro hm hn
            have c1 := c0 k
            have c2 := c0 dst
            rw [claimOf_token (so.trans hpw) sd, if_pos hm] at c1
            rw [claimOf_token (do_.trans hpw) dd, if_pos (mints ▸ hm)] at c2
            omega
          · by_cases h2 : k = dst
            · subst h2
              refine old d d' (do_.trans hpw) dd dd' dmint dnative ?_
              intro hm hn
              have c1 := c0 k
              have c2 := c0 src
              rw [claimOf_token (do_.trans hpw) dd, if_pos hm] at c1
              rw [claimOf_token (so.trans hpw) sd, if_pos (mints ▸ hm)] at c2
              omega
            · exact base (hf k h h2)
        | fees mk m mo md fee all =>
          rcases all k with h | ⟨t, t', h1, h2, h3, h4, h5, h6, h7, h8, h9⟩ | ⟨rfl, m', h1, h2, _⟩
          · exact base h
          · refine old t t' (h1.trans hpw) h2 h4 (h6.trans h5.symm) h7 ?_
            intro hm
            exact absurd md (by rw [← h5, hm]; exact notW m)
          · exact nontok (by rw [h2]; simp)
        | mintUpd k0 m m' ho hd ho' hd' hf =>
          by_cases h : k = k0
          · subst h; exact nontok (by rw [hd']; simp)
          · exact base (hf k h)
        | mintTo mk dst m d n a mo md do_ dd dm auth appr fit sfit final =>
          have hne : mk ≠ dst := by rintro rfl; rw [dd] at md; cases md
          by_cases h : k = mk
          · subst h; exact nontok (by rw [final]; simp)
          · by_cases h2 : k = dst
            · subst h2
              have e1 : (L' k).data = .token { d with amount := d.amount + n } := by
                rw [final, Ledger.setData_ne _ _ h]; simp
              refine old d _ (do_.trans hpw) dd e1 rfl rfl ?_
              intro hm
              exact absurd md (by rw [← dm, hm]; exact notW m)
            · exact base (.of_eq (by rw [final, Ledger.setData_ne _ _ h, Ledger.setData_ne _ _ h2]))
        | burn mk acct m s0 s' n mo md so sd sm le sle same auth final =>
          by_cases h : k = mk
          · subst h; exact nontok (by rw [final]; simp)
          · by_cases h2 : k = acct
            · subst h2
              have e1 : (L' k).data = .token { s' with amount := s0.amount - n } := by
                rw [final, Ledger.setData_ne _ _ h]; simp
              refine old s0 _ (so.trans hpw) sd e1 same.mint same.isNative ?_
              intro hm
              exact absurd md (by rw [← sm, hm]; exact notW m)
            · exact base (.of_eq (by rw [final, Ledger.setData_ne _ _ h, Ledger.setData_ne _ _ h2]))
        | closeTok k0 t ho hd he hf =>
          by_cases h : k = k0
          · subst h; exact nontok (by rw [he.2]; simp)
          · exact base (hf k h)
        | closeMint k0 m a ho hd ca he hf =>
          by_cases h : k = k0
          · subst h; exact nontok (by rw [he.2]; simp)
          · exact base (hf k h)
        | initTok k0 b t m ho hd ho' hd' mo md plain hf =>
          by_cases h : k = k0
          · subst h
            have hne : t.mint ≠ s.W := by intro hm; rw [hm] at md; exact notW m md
            refine ⟨?_, ?_⟩
            · intro t0 _ g2 g3; rw [hd'] at g2; cases g2; exact absurd g3 hne
            · rw [claimOf_token (ho'.trans hpw) hd', if_neg hne]
          · exact base (hf k h)
        | initOther k0 ho hd ho' hd' hf =>
          by_cases h : k = k0
          · subst h
            rcases hd' with ⟨n, e, h⟩ | ⟨ms, h⟩ | ⟨m, h, _⟩ <;> exact nontok (by rw [h]; simp)
          · exact base (hf k h)
      refine ⟨.inl ⟨hWb.kept hW, hBb.kept hB⟩, fun k => (key k).1, ?_, by rw [supplyOf_kept hW],
        .of_kept hW⟩
      intro F
      rw [Finset.sum_congr rfl fun k _ => (key k).2]
      simp
    · -- the wrapped mint exists
      obtain ⟨w, wd, wa, wsup, wex⟩ := hw.mint
      have wo := hw.owner
      have hsup : supplyOf L s.W = w.supply := supplyOf_mint wd
      have one : ∀ {k0 : Pubkey}, s.W ≠ k0 → (∀ x, x ≠ k0 → Kept L L' x) →
          (∀ t, (L' k0).data = .token t → t.mint = s.W → t.isNative = none) →
          claimOf s.wp s.W L' k0 ≤ claimOf s.wp s.W L k0 → MintSafe s L L' :=
        fun hne hf hk hc => inv.mintSafe_one (hf _ hne) hB hf hk hc
      have neW : ∀ {k : Pubkey} {t : TokenAcct}, (L k).data = .token t → s.W ≠ k := by
        rintro k t h rfl; rw [wd] at h; cases h
      cases e with
      | same hf =>
        exact one (k0 := s.A) s.W_ne_A (fun x _ => hf x)
          (by rw [(hf _).2, inv.a.2]; intro t h; cases h) (by rw [claimOf_kept (hf _)])
      | drain hf =>
        exact one (k0 := s.A) s.W_ne_A (fun x _ => hf x)
          (by rw [(hf _).2, inv.a.2]; intro t h; cases h) (by rw [claimOf_kept (hf _)])
      | tok k0 t t' ho hd ho' hd' hf mint native claim fits auth =>
        refine one (neW hd) hf ?_ ?_
        · intro t0 g g'; rw [hd'] at g; cases g
          rw [native]; exact inv.noNative k0 t (ho.trans hpw) hd (mint ▸ g')
        · rw [claimOf_token (ho'.trans hpw) hd', claimOf_token (ho.trans hpw) hd, mint]
          split
          · rename_i hm
            have := claim (inv.noNative k0 t (ho.trans hpw) hd hm)
            omega
          · omega
      | move src dst s0 s' d d' ne so sd so' sd' do_ dd do' dd' hf mints smint dmint snative
          dnative claim sfits dfits dkeeps auth =>
        have hW : Kept L L' s.W := hf _ (neW sd) (neW dd)
        refine ⟨inv.wKept hW hB, ?_, ?_, by rw [supplyOf_kept hW], .of_kept hW⟩
        · intro k t h1 h2 h3
          by_cases hx : k = src
          · subst hx; rw [sd'] at h2; cases h2
            rw [snative]; exact inv.noNative k s0 (so.trans hpw) sd (smint ▸ h3)
          · by_cases hx2 : k = dst
            · subst hx2; rw [dd'] at h2; cases h2
              rw [dnative]; exact inv.noNative k d (do_.trans hpw) dd (dmint ▸ h3)
            · have := hf k hx hx2
              rw [this.1] at h1; rw [this.2] at h2; exact inv.noNative k t h1 h2 h3
        · rw [supplyOf_kept hW]
          refine sum_step {src, dst} ?_ ?_ inv.claims
          · intro k hk
            simp only [Finset.mem_insert, Finset.mem_singleton, not_or] at hk
            rw [claimOf_kept (hf k hk.1 hk.2)]
          · rw [Finset.sum_pair ne, Finset.sum_pair ne, claimOf_token (so'.trans hpw) sd',
              claimOf_token (do'.trans hpw) dd', claimOf_token (so.trans hpw) sd,
              claimOf_token (do_.trans hpw) dd, smint, dmint, mints]
            split <;> omega
      | fees mk m mo md fee all =>
        have hmk : mk ≠ s.W := by
          rintro rfl
          rw [wd] at md; cases md
          rw [wrappedExts_noFee wex] at fee; cases fee
        have hW : Kept L L' s.W := by
          rcases all s.W with h | ⟨t, _, _, h2, _⟩ | ⟨h, _⟩
          · exact h
          · rw [wd] at h2; cases h2
          · exact absurd h.symm hmk
        refine ⟨inv.wKept hW hB, ?_, ?_, by rw [supplyOf_kept hW], .of_kept hW⟩
        · intro k t h1 h2 h3
          rcases all k with h | ⟨t0, t', g1, g2, g3, g4, g5, g6, _⟩ | ⟨rfl, m', g1, g2, _⟩
          · rw [h.1] at h1; rw [h.2] at h2; exact inv.noNative k t h1 h2 h3
          · rw [g4] at h2; cases h2; exact absurd (g6.symm.trans h3) hmk
          · rw [g2] at h2; cases h2
        · rw [supplyOf_kept hW]
          refine sum_mono (Nat.le_refl _) ?_ inv.claims
          intro k
          rcases all k with h | ⟨t0, t', g1, g2, g3, g4, g5, g6, _⟩ | ⟨rfl, m', g1, g2, _⟩
          · rw [claimOf_kept h]
          · rw [claimOf_token (g3.trans hpw) g4, if_neg (by rw [g6]; exact hmk)]; omega
          · rw [claimOf_nontoken (by rw [g2]; simp)]; omega
      | mintUpd k0 m m' ho hd ho' hd' hf supply decimals authority freeze exts tags =>
        by_cases h : s.W = k0
        · rw [← h] at ho hd ho' hd' hf
          rw [wd] at hd; cases hd
          have hau : m'.mintAuthority = some s.A := by
            rcases authority with h | ⟨a, h1, h2⟩
            · rw [h]; exact wa
            · rw [wa] at h1; cases h1; exact absurd h2 hA
          have hex : m'.exts = w.exts := by
            rcases exts with h | ⟨a, h1, h2⟩
            · exact h
            · have : a = s.A := by
                rcases h1 with h1 | h1 | ⟨_, e, he, ht⟩
                · rw [wa] at h1; cases h1; rfl
                · exact wrappedExts_authorities wex h1
                · exact absurd ht (wrappedExts_noDefault wex he)
              subst this; exact absurd h2 hA
          refine ⟨.inr ⟨ho'.trans hpw, ⟨m', hd', hau, by rw [supply]; exact wsup, by rw [hex]; exact wex⟩,
            hB.1.trans hw.bOwner, hB.2.trans hw.bData,
            Nat.lt_of_lt_of_le hw.bLam (hB.lam hw.bOwner)⟩, ?_, ?_, ?_, ?_⟩
          · exact noNative_of inv.noNative hf (by rw [hd']; intro t h; cases h)
          · rw [supplyOf_mint hd', supply, ← hsup]
            refine sum_mono (Nat.le_refl _) ?_ inv.claims
            intro k
            by_cases hk : k = s.W
            · subst hk; rw [claimOf_nontoken (by rw [hd']; simp)]; omega
            · rw [claimOf_kept (hf k hk)]
          · rw [supplyOf_mint hd', supply, hsup]
          · intro m0 hm0
            rw [wd] at hm0; cases hm0
            refine ⟨m', hd', decimals, ?_, hex⟩
            intro hn
            rcases freeze with h | ⟨a, h1, _⟩
            · rw [h]; exact hn
            · rw [hn] at h1; cases h1
        · refine one h hf (by rw [hd']; intro t h; cases h) ?_
          rw [claimOf_nontoken (by rw [hd']; simp)]; omega
      | mintTo mk dst m d n a mo md do_ dd dm auth appr fit sfit final =>
        have hmk : mk ≠ s.W := by
          rintro rfl
          rw [wd] at md; cases md
          rw [wa] at auth; cases auth
          exact hA appr
        have hne : mk ≠ dst := by rintro rfl; rw [dd] at md; cases md
        have hW : Kept L L' s.W := .of_eq (by
          rw [final, Ledger.setData_ne _ _ (Ne.symm hmk), Ledger.setData_ne _ _ (neW dd)])
        have hdst : (L' dst).data = .token { d with amount := d.amount + n } := by
          rw [final, Ledger.setData_ne _ _ (Ne.symm hne)]; simp
        have hmkd : (L' mk).data = .mint { m with supply := m.supply + n } := by rw [final]; simp
        have hoth : ∀ k, k ≠ mk → k ≠ dst → Kept L L' k := fun k h1 h2 => .of_eq (by
          rw [final, Ledger.setData_ne _ _ h1, Ledger.setData_ne _ _ h2])
        refine ⟨inv.wKept hW hB, ?_, ?_, by rw [supplyOf_kept hW], .of_kept hW⟩
        · intro k t h1 h2 h3
          by_cases k1 : k = mk
          · subst k1; rw [hmkd] at h2; cases h2
          · by_cases k2 : k = dst
            · subst k2; rw [hdst] at h2; cases h2; exact absurd (dm.symm.trans h3) hmk
            · rw [(hoth k k1 k2).1] at h1; rw [(hoth k k1 k2).2] at h2
              exact inv.noNative k t h1 h2 h3
        · rw [supplyOf_kept hW]
          refine sum_mono (Nat.le_refl _) ?_ inv.claims
          intro k
          by_cases k1 : k = mk
          · subst k1; rw [claimOf_nontoken (by rw [hmkd]; simp)]; omega
          · by_cases k2 : k = dst
            · subst k2
              by_cases ho : (L' k).owner = s.wp
              · rw [claimOf_token ho hdst, if_neg (by rw [dm]; exact hmk)]; omega
              · rw [claimOf_owner ho]; omega
            · rw [claimOf_kept (hoth k k1 k2)]
      | burn mk acct m s0 s' n mo md so sd sm le sle same auth final =>
        have hne : mk ≠ acct := by rintro rfl; rw [sd] at md; cases md
        have hacct : (L' acct).data = .token { s' with amount := s0.amount - n } := by
          rw [final, Ledger.setData_ne _ _ (Ne.symm hne)]; simp
        have hacctO : (L' acct).owner = (L acct).owner := by
          rw [final, Ledger.setData_ne _ _ (Ne.symm hne)]; simp
        have hmkd : (L' mk).data = .mint { m with supply := m.supply - n } := by rw [final]; simp
        have hmko : (L' mk).owner = (L mk).owner := by
          rw [final]; simp only [Ledger.setData_same, Ledger.setData_ne _ _ hne]
        have hoth : ∀ k, k ≠ mk → k ≠ acct → Kept L L' k := fun k h1 h2 => .of_eq (by
          rw [final, Ledger.setData_ne _ _ h1, Ledger.setData_ne _ _ h2])
        have hnn : ∀ k t, (L' k).owner = s.wp → (L' k).data = .token t → t.mint = s.W →
            t.isNative = none := by
          intro k t h1 h2 h3
          by_cases k1 : k = mk
          · subst k1; rw [hmkd] at h2; cases h2
          · by_cases k2 : k = acct
            · subst k2; rw [hacct] at h2; cases h2
              rw [hacctO] at h1
              exact same.isNative.trans (inv.noNative k s0 h1 sd (same.mint ▸ h3))
            · rw [(hoth k k1 k2).1] at h1; rw [(hoth k k1 k2).2] at h2
              exact inv.noNative k t h1 h2 h3
        by_cases hmk : mk = s.W
        · subst hmk
          rw [wd] at md; cases md
          refine ⟨.inr ⟨hmko.trans wo, ⟨_, hmkd, wa, by dsimp only; omega, wex⟩,
            hB.1.trans hw.bOwner, hB.2.trans hw.bData,
            Nat.lt_of_lt_of_le hw.bLam (hB.lam hw.bOwner)⟩, hnn, ?_, ?_, ?_⟩
          · rw [supplyOf_mint hmkd]
            refine sum_step (a := supplyOf L s.W) {acct} ?_ ?_ inv.claims
            · intro k hk
              simp only [Finset.mem_singleton] at hk
              by_cases k1 : k = s.W
              · subst k1; rw [claimOf_nontoken (by rw [hmkd]; simp)]; omega
              · rw [claimOf_kept (hoth k k1 hk)]
            · rw [Finset.sum_singleton, Finset.sum_singleton,
                claimOf_token (hacctO.trans (so.trans hpw)) hacct, claimOf_token (so.trans hpw) sd,
                if_pos sm, if_pos (same.mint.trans sm), hsup, same.confidential]
              dsimp only
              omega
          · rw [supplyOf_mint hmkd, hsup]; dsimp only; omega
          · intro m0 hm0
            rw [wd] at hm0; cases hm0
            exact ⟨_, hmkd, rfl, fun h => h, rfl⟩
        · have hW : Kept L L' s.W := hoth _ (Ne.symm hmk) (neW sd)
          refine ⟨inv.wKept hW hB, hnn, ?_, by rw [supplyOf_kept hW], .of_kept hW⟩
          rw [supplyOf_kept hW]
          refine sum_mono (Nat.le_refl _) ?_ inv.claims
          intro k
          by_cases k1 : k = mk
          · subst k1; rw [claimOf_nontoken (by rw [hmkd]; simp)]; omega
          · by_cases k2 : k = acct
            · subst k2
              rw [claimOf_token (hacctO.trans (so.trans hpw)) hacct,
                if_neg (by rw [same.mint, sm]; exact hmk)]
              omega
            · rw [claimOf_kept (hoth k k1 k2)]
      | closeTok k0 t ho hd he hf auth =>
        refine one (neW hd) hf (by rw [he.2]; intro t h; cases h) ?_
        rw [claimOf_nontoken (by rw [he.2]; simp)]; omega
      | closeMint k0 m a ho hd ca he hf =>
        have : s.W ≠ k0 := by
          rintro rfl
          rw [wd] at hd; cases hd
          rw [wrappedExts_noClose wex] at ca; cases ca
        refine one this hf (by rw [he.2]; intro t h; cases h) ?_
        rw [claimOf_nontoken (by rw [he.2]; simp)]; omega
      | initTok k0 b t m ho hd ho' hd' mo md plain hf =>
        have : s.W ≠ k0 := by rintro rfl; rw [wd] at hd; cases hd
        refine one this hf ?_ ?_
        · intro t0 g g'; rw [hd'] at g; cases g
          exact (plain (by rw [g']; exact s.wFree)).2.2
        · rw [claimOf_token (ho'.trans hpw) hd']
          split
          · rename_i hm
            have := plain (by rw [hm]; exact s.wFree)
            omega
          · omega
      | initOther k0 ho hd ho' hd' hf =>
        have : s.W ≠ k0 := by
          rintro rfl
          rcases hd with ⟨b, h⟩ | ⟨n, e, h⟩ <;> rw [wd] at h <;> cases h
        have nt : ∀ t, (L' k0).data ≠ .token t := by
          rcases hd' with ⟨n, e, h⟩ | ⟨ms, h⟩ | ⟨m, h, _⟩ <;> rw [h] <;> simp
        refine one this hf (fun t h => absurd h (nt t)) ?_
        rw [claimOf_nontoken nt]; omega
  · -- another token program
    have hW : Kept L L' s.W := by
      rcases inv.w with ⟨hb, _⟩ | hw
      · exact hb.frame hp e
      · rcases e.frame s.W with h | ⟨h, _⟩
        · exact h
        · exact absurd (h.symm.trans hw.owner) hpw
    have key : ∀ k, (L' k).owner = s.wp → Kept L L' k := by
      intro k h
      rcases e.frame k with h1 | ⟨_, h1 | h1⟩
      · exact h1
      · exact absurd (h1.symm.trans h) hpw
      · exact absurd h (h1.owner_ne s.wpOk)
    refine ⟨inv.wKept hW hB, ?_, ?_, by rw [supplyOf_kept hW], .of_kept hW⟩
    · intro k t h1 h2 h3
      have := key k h1
      rw [this.1] at h1; rw [this.2] at h2; exact inv.noNative k t h1 h2 h3
    · rw [supplyOf_kept hW]
      refine sum_mono (Nat.le_refl _) ?_ inv.claims
      intro k
      by_cases ho : (L' k).owner = s.wp
      · rw [claimOf_kept (key k ho)]
      · rw [claimOf_owner ho]; omega

theorem Inv.safe_parts (inv : Inv bk s L) (ha : Kept L L' s.A) (m : MintSafe s L L')
    (es : EscrowOk s.u s.A splTokenId s.Es L' ∧ (bk → balanceOf L s.Es ≤ balanceOf L' s.Es))
    (et : EscrowOk s.u s.A token2022Id s.Et L' ∧ (bk → balanceOf L s.Et ≤ balanceOf L' s.Et)) :
    Safe bk s L L' := by
  refine ⟨⟨inv.a.kept ha, es.1, et.1, m.w, m.noNative, m.claims, ?_⟩, es.2, et.2, m.supply, m.kept⟩
  intro b
  have h1 := es.2 b
  have h2 := et.2 b
  have h3 := m.supply
  have h4 := inv.backed b
  omega

/-- **Key lemma** Every token instruction that the wrapped-mint authority did not sign is safe. -/
theorem tokEff_safe (inv : Inv bk s L) (np : bk → PDQuiet s.u S L) (hS : ∀ k, signed k = true → S k)
    (hp : prog = splTokenId ∨ prog = token2022Id) (hA : signed s.A = false)
    (e : TokEff rm prog signed L L') : Safe bk s L L' := by
  have nA := not_appr_A inv.a hp hA
  exact inv.safe_parts (inv.a.frame hp e) (mint_safe inv hp nA e) (escrow_safe inv.es hp nA np hS e)
    (escrow_safe inv.et hp nA np hS e)

end

end TokenWrap
