import Verif.Custom
import Verif.Props.History
/-!
# The invariant of a wrapped mint under any mint customizer

`WorldInv` … `WorldWrap` once more, for builds of the program with another `MintCustomizer`
(/repo/README.md:112-121): the extensions of the wrapped mint are no longer those of the default build,
and those who have a say over an extension may change it.  What is kept is weaker: the wrapped mint has
neither a transfer fee nor a close authority.
-/

set_option linter.unusedSimpArgs false

namespace TokenWrap.Custom

open TokenWrap
open scoped BigOperators

/-- Neither transfer fees (1) nor a close authority (3). -/
def SafeTags (exts : List MintExt) : Prop := ∀ e ∈ exts, e.tag ≠ 1 ∧ e.tag ≠ 3

/-- The wrapped mint and its backpointer exist and are as created. -/
structure WrappedOk {cr : Crypto} (s : Setting cr) (L : Ledger) : Prop where
  owner : (L s.W).owner = s.wp
  mint : ∃ m, (L s.W).data = .mint m ∧ m.mintAuthority = some s.A ∧ m.supply ≤ u64Max ∧
    SafeTags m.exts
  bOwner : (L s.B).owner = crateId
  bData : (L s.B).data = .bytes s.u.bytes
  bLam : 0 < (L s.B).lamports

/-- What the wrapped mint keeps in every step. -/
def MintKept (W : Pubkey) (L L' : Ledger) : Prop :=
  ∀ m, (L W).data = .mint m → ∃ m', (L' W).data = .mint m' ∧ m'.decimals = m.decimals ∧
    (m.freezeAuthority = none → m'.freezeAuthority = none)

theorem MintKept.trans {W : Pubkey} {L L1 L2 : Ledger} (h1 : MintKept W L L1)
    (h2 : MintKept W L1 L2) : MintKept W L L2 := by
  intro m hm
  obtain ⟨m1, hm1, d1, f1⟩ := h1 m hm
  obtain ⟨m2, hm2, d2, f2⟩ := h2 m1 hm1
  exact ⟨m2, hm2, d2.trans d1, fun h => f2 (f1 h)⟩

theorem MintKept.of_kept {W : Pubkey} {L L' : Ledger} (h : Kept L L' W) : MintKept W L L' := by
  intro m hm; exact ⟨m, h.2.trans hm, rfl, fun h => h⟩

theorem safeTags_noFee {m : Mint} (h : SafeTags m.exts) : m.transferFee? = none := by
  unfold Mint.transferFee?
  rw [List.findSome?_eq_none_iff]
  intro e he
  have := (h e he).1
  cases e <;> first | rfl | simp [MintExt.tag] at this

theorem safeTags_noClose {m : Mint} (h : SafeTags m.exts) : m.closeAuthority? = none := by
  have : (m.exts.findSome? fun | .mintCloseAuthority d => some d | _ => none) = none := by
    rw [List.findSome?_eq_none_iff]
    intro e he
    have := (h e he).2
    cases e <;> first | rfl | simp [MintExt.tag] at this
  exact (congrArg Option.join this).trans rfl

theorem SafeTags.of_tags {l l' : List MintExt} (h : SafeTags l)
    (ht : ∀ e ∈ l', e.tag = 19 ∨ ∃ e0 ∈ l, e0.tag = e.tag) : SafeTags l' := by
  intro e he
  rcases ht e he with h1 | ⟨e0, h1, h2⟩
  · rw [h1]; decide
  · rw [← h2]; exact h e0 h1

theorem SafeTags.of_shape {m m' : Mint} {md : Option TokenMetadata → TokenMetadata} {P Q : Prop}
    (h : SafeTags m.exts)
    (shape : (∃ x, m.tokenMetadata? = some x ∧ m' = withMd m (md (some x))) ∨
      (m.tokenMetadata? = none ∧ P ∧ Q ∧ m' = { m with exts := m.exts ++ [.tokenMetadata (md none)] })) :
    SafeTags m'.exts := by
  rcases shape with ⟨x, _, rfl⟩ | ⟨_, _, _, rfl⟩
  · exact h.of_tags (tags_of_map (mapMetadata_tags _ _))
  · intro e he
    simp only [List.mem_append, List.mem_singleton] at he
    rcases he with he | rfl
    · exact h e he
    · simp [MintExt.tag]

/-- An instruction of a build with another customizer is a CreateMint of that customizer or an
instruction of the published build. -/
theorem processInstructionWith_ok {C : Customizer} {env : Env} {accounts : List Meta} {input : Bytes}
    {L L' : Ledger} (h : processInstructionWith C env accounts input L = .ok L') :
    (∃ idem, input = TokenWrapInstruction.pack (.createMint idem) ∧
      processCreateMint env C accounts idem L = .ok L') ∨
    ((∀ idem, input ≠ TokenWrapInstruction.pack (.createMint idem)) ∧
      processInstruction env accounts input L = .ok L') := by
  unfold processInstructionWith at h
  cases hu : TokenWrapInstruction.unpack input with
  | error e => rw [hu] at h; cases h
  | ok ix =>
    rw [hu] at h
    have hi := (unpack_eq_ok_iff input ix).1 hu
    cases ix with
    | createMint idem => exact .inl ⟨idem, hi, h⟩
    | _ =>
      refine .inr ⟨fun idem he => ?_, ?_⟩
      · rw [he, TokenWrap.unpack_pack] at hu; cases hu
      · unfold processInstruction; rw [hu]; exact h

/-- The invariant.  `bk` says what is claimed about the backing (this needs that no permanent delegate
of the unwrapped mint acts); everything else holds unconditionally. -/
structure Inv (bk : Bk) {cr : Crypto} (s : Setting cr) (L : Ledger) : Prop where
  a : Blank L s.A
  es : EscrowOk s.u s.A splTokenId s.Es L
  et : EscrowOk s.u s.A token2022Id s.Et L
  w : (Blank L s.W ∧ Blank L s.B) ∨ WrappedOk s L
  noNative : ∀ k t, (L k).owner = s.wp → (L k).data = .token t → t.mint = s.W → t.isNative = none
  claims : ∀ F : Finset Pubkey, ∑ k ∈ F, claimOf s.wp s.W L k ≤ supplyOf L s.W
  backed : bk → supplyOf L s.W ≤ balanceOf L s.Es + balanceOf L s.Et + bk.debt

/-- A step that neither creates wrapped supply nor takes from an escrow. -/
structure Safe (bk : Bk) {cr : Crypto} (s : Setting cr) (L L' : Ledger) : Prop where
  inv : Inv bk s L'
  es : bk → balanceOf L s.Es ≤ balanceOf L' s.Es
  et : bk → balanceOf L s.Et ≤ balanceOf L' s.Et
  supply : supplyOf L' s.W ≤ supplyOf L s.W
  kept : MintKept s.W L L'

theorem Safe.trans {bk : Bk} {cr : Crypto} {s : Setting cr} {L L1 L2 : Ledger} (h1 : Safe bk s L L1)
    (h2 : Safe bk s L1 L2) : Safe bk s L L2 :=
  ⟨h2.inv, fun b => (h1.es b).trans (h2.es b), fun b => (h1.et b).trans (h2.et b), h2.supply.trans h1.supply, h1.kept.trans h2.kept⟩

theorem Safe.rfl' {bk : Bk} {cr : Crypto} {s : Setting cr} {L : Ledger} (h : Inv bk s L) : Safe bk s L L :=
  ⟨h, fun _ => Nat.le_refl _, fun _ => Nat.le_refl _, Nat.le_refl _, .of_kept Kept.rfl'⟩

section
variable {bk : Bk} {cr : Crypto} {s : Setting cr} {L L' : Ledger}

theorem WrappedOk.kept (h : WrappedOk s L) (hw : Kept L L' s.W) (hb : Kept L L' s.B) :
    WrappedOk s L' :=
  ⟨hw.1.trans h.owner, by rw [hw.2]; exact h.mint, hb.1.trans h.bOwner, hb.2.trans h.bData,
    Nat.lt_of_lt_of_le h.bLam (hb.lam h.bOwner)⟩

theorem Inv.wKept (h : Inv bk s L) (hw : Kept L L' s.W) (hb : Kept L L' s.B) :
    (Blank L' s.W ∧ Blank L' s.B) ∨ WrappedOk s L' := by
  rcases h.w with ⟨h1, h2⟩ | h
  · exact .inl ⟨h1.kept hw, h2.kept hb⟩
  · exact .inr (h.kept hw hb)

/-- A step that leaves wrapped mint and backpointer alone, does not spoil the escrows and creates no
wrapped tokens. -/
theorem Inv.safe_of (h : Inv bk s L) (ha : Kept L L' s.A) (hw : Kept L L' s.W) (hb : Kept L L' s.B)
    (es : EscrowOk s.u s.A splTokenId s.Es L') (es' : bk → balanceOf L s.Es ≤ balanceOf L' s.Es)
    (et : EscrowOk s.u s.A token2022Id s.Et L') (et' : bk → balanceOf L s.Et ≤ balanceOf L' s.Et)
    (hold : ∀ k t, (L' k).owner = s.wp → (L' k).data = .token t → t.mint = s.W →
      ((L k).owner = s.wp ∧ (L k).data = .token t) ∨
      (t.isNative = none ∧ t.amount = 0 ∧ t.confidential = 0)) : Safe bk s L L' := by
  have hs := supplyOf_kept hw
  refine ⟨⟨h.a.kept ha, es, et, h.wKept hw hb, ?_, ?_, ?_⟩, es', et', by omega, .of_kept hw⟩
  · intro k t h1 h2 h3
    rcases hold k t h1 h2 h3 with ⟨h4, h5⟩ | h4
    · exact h.noNative k t h4 h5 h3
    · exact h4.1
  · rw [hs]
    refine sum_mono (Nat.le_refl _) ?_ h.claims
    intro k
    by_cases ho : (L' k).owner = s.wp
    · cases hd : (L' k).data with
      | token t =>
        rw [claimOf_token ho hd]
        split
        · rename_i hm
          rcases hold k t ho hd hm with ⟨h4, h5⟩ | h4
          · rw [claimOf_token h4 h5, if_pos hm]
          · omega
        · omega
      | _ => rw [claimOf_nontoken (by intro t; rw [hd]; simp)]; omega
    · rw [claimOf_owner ho]; omega
  · intro b; rw [hs]; have := h.backed b; have := es' b; have := et' b; omega

/-- A step outside the five addresses that creates no wrapped tokens. -/
theorem Inv.safe_foreign (h : Inv bk s L) (hk : ∀ k ∈ s.keys, Kept L L' k)
    (hold : ∀ k t, (L' k).owner = s.wp → (L' k).data = .token t → t.mint = s.W →
      ((L k).owner = s.wp ∧ (L k).data = .token t) ∨
      (t.isNative = none ∧ t.amount = 0 ∧ t.confidential = 0)) : Safe bk s L L' := by
  have k1 := hk s.A (by simp [Setting.keys])
  have k2 := hk s.W (by simp [Setting.keys])
  have k3 := hk s.B (by simp [Setting.keys])
  have k4 := hk s.Es (by simp [Setting.keys])
  have k5 := hk s.Et (by simp [Setting.keys])
  exact h.safe_of k1 k2 k3 (h.es.kept k4) (fun _ => by rw [balanceOf_kept k4]) (h.et.kept k5)
    (fun _ => by rw [balanceOf_kept k5]) hold

end


section
variable {bk : Bk} {cr : Crypto} {s : Setting cr} {rm : Nat → Nat} {prog : Pubkey} {signed : Pubkey → Bool} {L L' : Ledger}
  {S : Pubkey → Prop}

/-- The part of `Safe` about the wrapped mint. -/
structure MintSafe (s : Setting cr) (L L' : Ledger) : Prop where
  w : (Blank L' s.W ∧ Blank L' s.B) ∨ WrappedOk s L'
  noNative : ∀ k t, (L' k).owner = s.wp → (L' k).data = .token t → t.mint = s.W → t.isNative = none
  claims : ∀ F : Finset Pubkey, ∑ k ∈ F, claimOf s.wp s.W L' k ≤ supplyOf L' s.W
  supply : supplyOf L' s.W ≤ supplyOf L s.W
  kept : MintKept s.W L L'

/-- Changes at one non-mint account that do not raise its claim. -/
theorem Inv.mintSafe_one (inv : Inv bk s L) {k0 : Pubkey} (hW : Kept L L' s.W) (hB : Kept L L' s.B)
    (hf : ∀ x, x ≠ k0 → Kept L L' x)
    (hk : ∀ t, (L' k0).data = .token t → t.mint = s.W → t.isNative = none)
    (hc : claimOf s.wp s.W L' k0 ≤ claimOf s.wp s.W L k0) : MintSafe s L L' := by
  refine ⟨inv.wKept hW hB, noNative_of inv.noNative hf hk, ?_, by rw [supplyOf_kept hW],
    .of_kept hW⟩
  rw [supplyOf_kept hW]
  refine sum_mono (Nat.le_refl _) ?_ inv.claims
  intro k
  by_cases h : k = k0
  · subst h; exact hc
  · rw [claimOf_kept (hf k h)]

/-- Token instructions not authorised by `A` are safe for the wrapped mint. -/
theorem mint_safe (inv : Inv bk s L) (hp : prog = splTokenId ∨ prog = token2022Id)
    (hA : ¬ Appr prog L signed s.A) (e : TokEff rm prog signed L L') : MintSafe s L L' := by
  have hB : Kept L L' s.B := by
    rcases e.frame s.B with h | ⟨h, _⟩
    · exact h
    · rcases inv.w with ⟨_, hb⟩ | hw
      · exact absurd h (hb.owner_ne hp)
      · rw [hw.bOwner] at h
        rcases hp with rfl | rfl
        · exact absurd h crate_ne_spl
        · exact absurd h crate_ne_t22
  by_cases hpw : prog = s.wp
  · rcases inv.w with ⟨hWb, hBb⟩ | hw
    · -- the wrapped mint does not exist
      have hW : Kept L L' s.W := hWb.frame hp e
      have hs0 : supplyOf L s.W = 0 := by unfold supplyOf; rw [hWb.2]
      have c0 : ∀ k, claimOf s.wp s.W L k = 0 := by
        intro k
        have := inv.claims {k}
        simpa [hs0] using this
      have notW : ∀ m, (L s.W).data ≠ .mint m := by intro m h; rw [hWb.2] at h; cases h
      -- every token account of mint W in L' has claim 0 and is not native
      have key : ∀ k, (∀ t, (L' k).owner = s.wp → (L' k).data = .token t → t.mint = s.W →
          t.isNative = none) ∧ claimOf s.wp s.W L' k = 0 := by
        intro k
        have base : Kept L L' k → (∀ t, (L' k).owner = s.wp → (L' k).data = .token t →
            t.mint = s.W → t.isNative = none) ∧ claimOf s.wp s.W L' k = 0 := by
          intro h
          refine ⟨?_, by rw [claimOf_kept h, c0]⟩
          intro t h1 h2 h3
          rw [h.1] at h1; rw [h.2] at h2; exact inv.noNative k t h1 h2 h3
        have old : ∀ t t', (L k).owner = s.wp → (L k).data = .token t → (L' k).data = .token t' →
            t'.mint = t.mint → t'.isNative = t.isNative →
            (t.mint = s.W → t.isNative = none → t'.amount + t'.confidential = 0) →
            (∀ t, (L' k).owner = s.wp → (L' k).data = .token t →
            t.mint = s.W → t.isNative = none) ∧ claimOf s.wp s.W L' k = 0 := by
          intro t t' h1 h2 h3 h4 h5 h6
          refine ⟨?_, ?_⟩
          · intro t0 g1 g2 g3
            rw [h3] at g2; cases g2
            rw [h5]; exact inv.noNative k t h1 h2 (h4 ▸ g3)
          · by_cases ho : (L' k).owner = s.wp
            · rw [claimOf_token ho h3]
              split
              · rename_i hm
                rw [h4] at hm
                exact h6 hm (inv.noNative k t h1 h2 hm)
              · rfl
            · exact claimOf_owner ho
        have nontok : (∀ t, (L' k).data ≠ .token t) → (∀ t, (L' k).owner = s.wp →
            (L' k).data = .token t → t.mint = s.W → t.isNative = none) ∧
            claimOf s.wp s.W L' k = 0 :=
          fun h => ⟨fun t _ h2 => absurd h2 (h t), claimOf_nontoken h⟩
        cases e with
        | same hf => exact base (hf k)
        | drain hf => exact base (hf k)
        | tok k0 t t' ho hd ho' hd' hf mint native claim fits auth =>
          by_cases h : k = k0
          · subst h
            refine old t t' (ho.trans hpw) hd hd' mint native ?_
            intro hm hn
            have := c0 k
            rw [claimOf_token (ho.trans hpw) hd, if_pos hm] at this
            rw [claim hn, this]
          · exact base (hf k h)
        | move src dst s0 s' d d' ne so sd so' sd' do_ dd do' dd' hf mints smint dmint snative
            dnative claim sfits dfits dkeeps auth =>
          by_cases h : k = src
          · subst h
            refine old s0 s' (so.trans hpw) sd sd' smint snative ?_
            intro hm hn
            have c1 := c0 k
            have c2 := c0 dst
            rw [claimOf_token (so.trans hpw) sd, if_pos hm] at c1
            rw [claimOf_token (do_.trans hpw) dd, if_pos (mints ▸ hm)] at c2
            omega
          · by_cases h2 : k = dst
            · subst h2
              refine old d d' (do_.trans hpw) dd dd' dmint dnative ?_
              intro hm hn
              have c1 := c0 k
              have c2 := c0 src
              rw [claimOf_token (do_.trans hpw) dd, if_pos hm] at c1
              rw [claimOf_token (so.trans hpw) sd, if_pos (mints ▸ hm)] at c2
              omega
            · exact base (hf k h h2)
        | fees mk m mo md fee all =>
          rcases all k with h | ⟨t, t', h1, h2, h3, h4, h5, h6, h7, h8, h9⟩ | ⟨rfl, m', h1, h2, _⟩
          · exact base h
          · refine old t t' (h1.trans hpw) h2 h4 (h6.trans h5.symm) h7 ?_
            intro hm
            exact absurd md (by rw [← h5, hm]; exact notW m)
          · exact nontok (by rw [h2]; simp)
        | mintUpd k0 m m' ho hd ho' hd' hf =>
          by_cases h : k = k0
          · subst h; exact nontok (by rw [hd']; simp)
          · exact base (hf k h)
        | mintTo mk dst m d n a mo md do_ dd dm auth appr fit sfit final =>
          have hne : mk ≠ dst := by rintro rfl; rw [dd] at md; cases md
          by_cases h : k = mk
          · subst h; exact nontok (by rw [final]; simp)
          · by_cases h2 : k = dst
            · subst h2
              have e1 : (L' k).data = .token { d with amount := d.amount + n } := by
                rw [final, Ledger.setData_ne _ _ h]; simp
              refine old d _ (do_.trans hpw) dd e1 rfl rfl ?_
              intro hm
              exact absurd md (by rw [← dm, hm]; exact notW m)
            · exact base (.of_eq (by rw [final, Ledger.setData_ne _ _ h, Ledger.setData_ne _ _ h2]))
        | burn mk acct m s0 s' n mo md so sd sm le sle same auth final =>
          by_cases h : k = mk
          · subst h; exact nontok (by rw [final]; simp)
          · by_cases h2 : k = acct
            · subst h2
              have e1 : (L' k).data = .token { s' with amount := s0.amount - n } := by
                rw [final, Ledger.setData_ne _ _ h]; simp
              refine old s0 _ (so.trans hpw) sd e1 same.mint same.isNative ?_
              intro hm
              exact absurd md (by rw [← sm, hm]; exact notW m)
            · exact base (.of_eq (by rw [final, Ledger.setData_ne _ _ h, Ledger.setData_ne _ _ h2]))
        | closeTok k0 t ho hd he hf =>
          by_cases h : k = k0
          · subst h; exact nontok (by rw [he.2]; simp)
          · exact base (hf k h)
        | closeMint k0 m a ho hd ca he hf =>
          by_cases h : k = k0
          · subst h; exact nontok (by rw [he.2]; simp)
          · exact base (hf k h)
        | initTok k0 b t m ho hd ho' hd' mo md plain hf =>
          by_cases h : k = k0
          · subst h
            have hne : t.mint ≠ s.W := by intro hm; rw [hm] at md; exact notW m md
            refine ⟨?_, ?_⟩
            · intro t0 _ g2 g3; rw [hd'] at g2; cases g2; exact absurd g3 hne
            · rw [claimOf_token (ho'.trans hpw) hd', if_neg hne]
          · exact base (hf k h)
        | initOther k0 ho hd ho' hd' hf =>
          by_cases h : k = k0
          · subst h
            rcases hd' with ⟨n, e, h⟩ | ⟨ms, h⟩ | ⟨m, h, _⟩ <;> exact nontok (by rw [h]; simp)
          · exact base (hf k h)
      refine ⟨.inl ⟨hWb.kept hW, hBb.kept hB⟩, fun k => (key k).1, ?_, by rw [supplyOf_kept hW],
        .of_kept hW⟩
      intro F
      rw [Finset.sum_congr rfl fun k _ => (key k).2]
      simp
    · -- the wrapped mint exists
      obtain ⟨w, wd, wa, wsup, wex⟩ := hw.mint
      have wo := hw.owner
      have hsup : supplyOf L s.W = w.supply := supplyOf_mint wd
      have one : ∀ {k0 : Pubkey}, s.W ≠ k0 → (∀ x, x ≠ k0 → Kept L L' x) →
          (∀ t, (L' k0).data = .token t → t.mint = s.W → t.isNative = none) →
          claimOf s.wp s.W L' k0 ≤ claimOf s.wp s.W L k0 → MintSafe s L L' :=
        fun hne hf hk hc => inv.mintSafe_one (hf _ hne) hB hf hk hc
      have neW : ∀ {k : Pubkey} {t : TokenAcct}, (L k).data = .token t → s.W ≠ k := by
        rintro k t h rfl; rw [wd] at h; cases h
      cases e with
      | same hf =>
        exact one (k0 := s.A) s.W_ne_A (fun x _ => hf x)
          (by rw [(hf _).2, inv.a.2]; intro t h; cases h) (by rw [claimOf_kept (hf _)])
      | drain hf =>
        exact one (k0 := s.A) s.W_ne_A (fun x _ => hf x)
          (by rw [(hf _).2, inv.a.2]; intro t h; cases h) (by rw [claimOf_kept (hf _)])
      | tok k0 t t' ho hd ho' hd' hf mint native claim fits auth =>
        refine one (neW hd) hf ?_ ?_
        · intro t0 g g'; rw [hd'] at g; cases g
          rw [native]; exact inv.noNative k0 t (ho.trans hpw) hd (mint ▸ g')
        · rw [claimOf_token (ho'.trans hpw) hd', claimOf_token (ho.trans hpw) hd, mint]
          split
          · rename_i hm
            have := claim (inv.noNative k0 t (ho.trans hpw) hd hm)
            omega
          · omega
      | move src dst s0 s' d d' ne so sd so' sd' do_ dd do' dd' hf mints smint dmint snative
          dnative claim sfits dfits dkeeps auth =>
        have hW : Kept L L' s.W := hf _ (neW sd) (neW dd)
        refine ⟨inv.wKept hW hB, ?_, ?_, by rw [supplyOf_kept hW], .of_kept hW⟩
        · intro k t h1 h2 h3
          by_cases hx : k = src
          · subst hx; rw [sd'] at h2; cases h2
            rw [snative]; exact inv.noNative k s0 (so.trans hpw) sd (smint ▸ h3)
          · by_cases hx2 : k = dst
            · subst hx2; rw [dd'] at h2; cases h2
              rw [dnative]; exact inv.noNative k d (do_.trans hpw) dd (dmint ▸ h3)
            · have := hf k hx hx2
              rw [this.1] at h1; rw [this.2] at h2; exact inv.noNative k t h1 h2 h3
        · rw [supplyOf_kept hW]
          refine sum_step {src, dst} ?_ ?_ inv.claims
          · intro k hk
            simp only [Finset.mem_insert, Finset.mem_singleton, not_or] at hk
            rw [claimOf_kept (hf k hk.1 hk.2)]
          · rw [Finset.sum_pair ne, Finset.sum_pair ne, claimOf_token (so'.trans hpw) sd',
              claimOf_token (do'.trans hpw) dd', claimOf_token (so.trans hpw) sd,
              claimOf_token (do_.trans hpw) dd, smint, dmint, mints]
            split <;> omega
      | fees mk m mo md fee all =>
        have hmk : mk ≠ s.W := by
          rintro rfl
          rw [wd] at md; cases md
          rw [safeTags_noFee wex] at fee; cases fee
        have hW : Kept L L' s.W := by
          rcases all s.W with h | ⟨t, _, _, h2, _⟩ | ⟨h, _⟩
          · exact h
          · rw [wd] at h2; cases h2
          · exact absurd h.symm hmk
        refine ⟨inv.wKept hW hB, ?_, ?_, by rw [supplyOf_kept hW], .of_kept hW⟩
        · intro k t h1 h2 h3
          rcases all k with h | ⟨t0, t', g1, g2, g3, g4, g5, g6, _⟩ | ⟨rfl, m', g1, g2, _⟩
          · rw [h.1] at h1; rw [h.2] at h2; exact inv.noNative k t h1 h2 h3
          · rw [g4] at h2; cases h2; exact absurd (g6.symm.trans h3) hmk
          · rw [g2] at h2; cases h2
        · rw [supplyOf_kept hW]
          refine sum_mono (Nat.le_refl _) ?_ inv.claims
          intro k
          rcases all k with h | ⟨t0, t', g1, g2, g3, g4, g5, g6, _⟩ | ⟨rfl, m', g1, g2, _⟩
          · rw [claimOf_kept h]
          · rw [claimOf_token (g3.trans hpw) g4, if_neg (by rw [g6]; exact hmk)]; omega
          · rw [claimOf_nontoken (by rw [g2]; simp)]; omega
      | mintUpd k0 m m' ho hd ho' hd' hf supply decimals authority freeze exts tags =>
        by_cases h : s.W = k0
        · rw [← h] at ho hd ho' hd' hf
          rw [wd] at hd; cases hd
          have hau : m'.mintAuthority = some s.A := by
            rcases authority with h | ⟨a, h1, h2⟩
            · rw [h]; exact wa
            · rw [wa] at h1; cases h1; exact absurd h2 hA
          have hex : SafeTags m'.exts := wex.of_tags tags
          refine ⟨.inr ⟨ho'.trans hpw, ⟨m', hd', hau, by rw [supply]; exact wsup, hex⟩,
            hB.1.trans hw.bOwner, hB.2.trans hw.bData,
            Nat.lt_of_lt_of_le hw.bLam (hB.lam hw.bOwner)⟩, ?_, ?_, ?_, ?_⟩
          · exact noNative_of inv.noNative hf (by rw [hd']; intro t h; cases h)
          · rw [supplyOf_mint hd', supply, ← hsup]
            refine sum_mono (Nat.le_refl _) ?_ inv.claims
            intro k
            by_cases hk : k = s.W
            · subst hk; rw [claimOf_nontoken (by rw [hd']; simp)]; omega
            · rw [claimOf_kept (hf k hk)]
          · rw [supplyOf_mint hd', supply, hsup]
          · intro m0 hm0
            rw [wd] at hm0; cases hm0
            refine ⟨m', hd', decimals, ?_⟩
            intro hn
            rcases freeze with h | ⟨a, h1, _⟩
            · rw [h]; exact hn
            · rw [hn] at h1; cases h1
        · refine one h hf (by rw [hd']; intro t h; cases h) ?_
          rw [claimOf_nontoken (by rw [hd']; simp)]; omega
      | mintTo mk dst m d n a mo md do_ dd dm auth appr fit sfit final =>
        have hmk : mk ≠ s.W := by
          rintro rfl
          rw [wd] at md; cases md
          rw [wa] at auth; cases auth
          exact hA appr
        have hne : mk ≠ dst := by rintro rfl; rw [dd] at md; cases md
        have hW : Kept L L' s.W := .of_eq (by
          rw [final, Ledger.setData_ne _ _ (Ne.symm hmk), Ledger.setData_ne _ _ (neW dd)])
        have hdst : (L' dst).data = .token { d with amount := d.amount + n } := by
          rw [final, Ledger.setData_ne _ _ (Ne.symm hne)]; simp
        have hmkd : (L' mk).data = .mint { m with supply := m.supply + n } := by rw [final]; simp
        have hoth : ∀ k, k ≠ mk → k ≠ dst → Kept L L' k := fun k h1 h2 => .of_eq (by
          rw [final, Ledger.setData_ne _ _ h1, Ledger.setData_ne _ _ h2])
        refine ⟨inv.wKept hW hB, ?_, ?_, by rw [supplyOf_kept hW], .of_kept hW⟩
        · intro k t h1 h2 h3
          by_cases k1 : k = mk
          · subst k1; rw [hmkd] at h2; cases h2
          · by_cases k2 : k = dst
            · subst k2; rw [hdst] at h2; cases h2; exact absurd (dm.symm.trans h3) hmk
            · rw [(hoth k k1 k2).1] at h1; rw [(hoth k k1 k2).2] at h2
              exact inv.noNative k t h1 h2 h3
        · rw [supplyOf_kept hW]
          refine sum_mono (Nat.le_refl _) ?_ inv.claims
          intro k
          by_cases k1 : k = mk
          · subst k1; rw [claimOf_nontoken (by rw [hmkd]; simp)]; omega
          · by_cases k2 : k = dst
            · subst k2
              by_cases ho : (L' k).owner = s.wp
              · rw [claimOf_token ho hdst, if_neg (by rw [dm]; exact hmk)]; omega
              · rw [claimOf_owner ho]; omega
            · rw [claimOf_kept (hoth k k1 k2)]
      | burn mk acct m s0 s' n mo md so sd sm le sle same auth final =>
        have hne : mk ≠ acct := by rintro rfl; rw [sd] at md; cases md
        have hacct : (L' acct).data = .token { s' with amount := s0.amount - n } := by
          rw [final, Ledger.setData_ne _ _ (Ne.symm hne)]; simp
        have hacctO : (L' acct).owner = (L acct).owner := by
          rw [final, Ledger.setData_ne _ _ (Ne.symm hne)]; simp
        have hmkd : (L' mk).data = .mint { m with supply := m.supply - n } := by rw [final]; simp
        have hmko : (L' mk).owner = (L mk).owner := by
          rw [final]; simp only [Ledger.setData_same, Ledger.setData_ne _ _ hne]
        have hoth : ∀ k, k ≠ mk → k ≠ acct → Kept L L' k := fun k h1 h2 => .of_eq (by
          rw [final, Ledger.setData_ne _ _ h1, Ledger.setData_ne _ _ h2])
        have hnn : ∀ k t, (L' k).owner = s.wp → (L' k).data = .token t → t.mint = s.W →
            t.isNative = none := by
          intro k t h1 h2 h3
          by_cases k1 : k = mk
          · subst k1; rw [hmkd] at h2; cases h2
          · by_cases k2 : k = acct
            · subst k2; rw [hacct] at h2; cases h2
              rw [hacctO] at h1
              exact same.isNative.trans (inv.noNative k s0 h1 sd (same.mint ▸ h3))
            · rw [(hoth k k1 k2).1] at h1; rw [(hoth k k1 k2).2] at h2
              exact inv.noNative k t h1 h2 h3
        by_cases hmk : mk = s.W
        · subst hmk
          rw [wd] at md; cases md
          refine ⟨.inr ⟨hmko.trans wo, ⟨_, hmkd, wa, by dsimp only; omega, wex⟩,
            hB.1.trans hw.bOwner, hB.2.trans hw.bData,
            Nat.lt_of_lt_of_le hw.bLam (hB.lam hw.bOwner)⟩, hnn, ?_, ?_, ?_⟩
          · rw [supplyOf_mint hmkd]
            refine sum_step (a := supplyOf L s.W) {acct} ?_ ?_ inv.claims
            · intro k hk
              simp only [Finset.mem_singleton] at hk
              by_cases k1 : k = s.W
              · subst k1; rw [claimOf_nontoken (by rw [hmkd]; simp)]; omega
              · rw [claimOf_kept (hoth k k1 hk)]
            · rw [Finset.sum_singleton, Finset.sum_singleton,
                claimOf_token (hacctO.trans (so.trans hpw)) hacct, claimOf_token (so.trans hpw) sd,
                if_pos sm, if_pos (same.mint.trans sm), hsup, same.confidential]
              dsimp only
              omega
          · rw [supplyOf_mint hmkd, hsup]; dsimp only; omega
          · intro m0 hm0
            rw [wd] at hm0; cases hm0
            exact ⟨_, hmkd, rfl, fun h => h⟩
        · have hW : Kept L L' s.W := hoth _ (Ne.symm hmk) (neW sd)
          refine ⟨inv.wKept hW hB, hnn, ?_, by rw [supplyOf_kept hW], .of_kept hW⟩
          rw [supplyOf_kept hW]
          refine sum_mono (Nat.le_refl _) ?_ inv.claims
          intro k
          by_cases k1 : k = mk
          · subst k1; rw [claimOf_nontoken (by rw [hmkd]; simp)]; omega
          · by_cases k2 : k = acct
            · subst k2
              rw [claimOf_token (hacctO.trans (so.trans hpw)) hacct,
                if_neg (by rw [same.mint, sm]; exact hmk)]
              omega
            · rw [claimOf_kept (hoth k k1 k2)]
      | closeTok k0 t ho hd he hf auth =>
        refine one (neW hd) hf (by rw [he.2]; intro t h; cases h) ?_
        rw [claimOf_nontoken (by rw [he.2]; simp)]; omega
      | closeMint k0 m a ho hd ca he hf =>
        have : s.W ≠ k0 := by
          rintro rfl
          rw [wd] at hd; cases hd
          rw [safeTags_noClose wex] at ca; cases ca
        refine one this hf (by rw [he.2]; intro t h; cases h) ?_
        rw [claimOf_nontoken (by rw [he.2]; simp)]; omega
      | initTok k0 b t m ho hd ho' hd' mo md plain hf =>
        have : s.W ≠ k0 := by rintro rfl; rw [wd] at hd; cases hd
        refine one this hf ?_ ?_
        · intro t0 g g'; rw [hd'] at g; cases g
          exact (plain (by rw [g']; exact s.wFree)).2.2
        · rw [claimOf_token (ho'.trans hpw) hd']
          split
          · rename_i hm
            have := plain (by rw [hm]; exact s.wFree)
            omega
          · omega
      | initOther k0 ho hd ho' hd' hf =>
        have : s.W ≠ k0 := by
          rintro rfl
          rcases hd with ⟨b, h⟩ | ⟨n, e, h⟩ <;> rw [wd] at h <;> cases h
        have nt : ∀ t, (L' k0).data ≠ .token t := by
          rcases hd' with ⟨n, e, h⟩ | ⟨ms, h⟩ | ⟨m, h, _⟩ <;> rw [h] <;> simp
        refine one this hf (fun t h => absurd h (nt t)) ?_
        rw [claimOf_nontoken nt]; omega
  · -- another token program
    have hW : Kept L L' s.W := by
      rcases inv.w with ⟨hb, _⟩ | hw
      · exact hb.frame hp e
      · rcases e.frame s.W with h | ⟨h, _⟩
        · exact h
        · exact absurd (h.symm.trans hw.owner) hpw
    have key : ∀ k, (L' k).owner = s.wp → Kept L L' k := by
      intro k h
      rcases e.frame k with h1 | ⟨_, h1 | h1⟩
      · exact h1
      · exact absurd (h1.symm.trans h) hpw
      · exact absurd h (h1.owner_ne s.wpOk)
    refine ⟨inv.wKept hW hB, ?_, ?_, by rw [supplyOf_kept hW], .of_kept hW⟩
    · intro k t h1 h2 h3
      have := key k h1
      rw [this.1] at h1; rw [this.2] at h2; exact inv.noNative k t h1 h2 h3
    · rw [supplyOf_kept hW]
      refine sum_mono (Nat.le_refl _) ?_ inv.claims
      intro k
      by_cases ho : (L' k).owner = s.wp
      · rw [claimOf_kept (key k ho)]
      · rw [claimOf_owner ho]; omega

theorem Inv.safe_parts (inv : Inv bk s L) (ha : Kept L L' s.A) (m : MintSafe s L L')
    (es : EscrowOk s.u s.A splTokenId s.Es L' ∧ (bk → balanceOf L s.Es ≤ balanceOf L' s.Es))
    (et : EscrowOk s.u s.A token2022Id s.Et L' ∧ (bk → balanceOf L s.Et ≤ balanceOf L' s.Et)) :
    Safe bk s L L' := by
  refine ⟨⟨inv.a.kept ha, es.1, et.1, m.w, m.noNative, m.claims, ?_⟩, es.2, et.2, m.supply, m.kept⟩
  intro b
  have h1 := es.2 b
  have h2 := et.2 b
  have h3 := m.supply
  have h4 := inv.backed b
  omega

/-- **Key lemma** Every token instruction that the wrapped-mint authority did not sign is safe. -/
theorem tokEff_safe (inv : Inv bk s L) (np : bk → PDQuiet s.u S L) (hS : ∀ k, signed k = true → S k)
    (hp : prog = splTokenId ∨ prog = token2022Id) (hA : signed s.A = false)
    (e : TokEff rm prog signed L L') : Safe bk s L L' := by
  have nA := not_appr_A inv.a hp hA
  exact inv.safe_parts (inv.a.frame hp e) (mint_safe inv hp nA e) (escrow_safe inv.es hp nA np hS e)
    (escrow_safe inv.et hp nA np hS e)

end


section
variable {bk : Bk} {cr : Crypto} {s : Setting cr} {L L' : Ledger}

theorem Inv.no_token_A (inv : Inv bk s L) {t : TokenAcct} : (L s.A).data ≠ .token t := by
  rw [inv.a.2]; simp

theorem Inv.no_token_W (inv : Inv bk s L) {t : TokenAcct} : (L s.W).data ≠ .token t := by
  rcases inv.w with ⟨h, _⟩ | h
  · rw [h.2]; simp
  · obtain ⟨m, h, _⟩ := h.mint; rw [h]; simp

theorem Inv.no_token_B (inv : Inv bk s L) {t : TokenAcct} : (L s.B).data ≠ .token t := by
  rcases inv.w with ⟨_, h⟩ | h
  · rw [h.2]; simp
  · rw [h.bData]; simp

theorem Inv.no_mint_A (inv : Inv bk s L) {t : Mint} : (L s.A).data ≠ .mint t := by
  rw [inv.a.2]; simp

theorem Inv.no_mint_B (inv : Inv bk s L) {t : Mint} : (L s.B).data ≠ .mint t := by
  rcases inv.w with ⟨_, h⟩ | h
  · rw [h.2]; simp
  · rw [h.bData]; simp

theorem Inv.no_mint_Es (inv : Inv bk s L) {t : Mint} : (L s.Es).data ≠ .mint t := by
  rcases inv.es with h | ⟨_, t, h, _⟩
  · rw [h.2]; simp
  · rw [h]; simp

theorem Inv.no_mint_Et (inv : Inv bk s L) {t : Mint} : (L s.Et).data ≠ .mint t := by
  rcases inv.et with h | ⟨_, t, h, _⟩
  · rw [h.2]; simp
  · rw [h]; simp

/-- The invariant's keys are never owned by anything but system, token programs or Token Wrap. -/
theorem Inv.key_owner (inv : Inv bk s L) {k : Pubkey} (hk : k ∈ s.keys) :
    (L k).owner = systemId ∨ (L k).owner = splTokenId ∨ (L k).owner = token2022Id ∨
      (L k).owner = crateId := by
  simp only [Setting.keys, List.mem_cons, List.not_mem_nil, or_false] at hk
  rcases hk with rfl | rfl | rfl | rfl | rfl
  · rcases inv.w with ⟨h, _⟩ | h
    · exact .inl h.1
    · rw [h.owner]; rcases s.wpOk with h | h
      · exact .inr (.inl h)
      · exact .inr (.inr (.inl h))
  · exact .inl inv.a.1
  · rcases inv.w with ⟨_, h⟩ | h
    · exact .inl h.1
    · exact .inr (.inr (.inr h.bOwner))
  · rcases inv.es with h | ⟨h, _⟩
    · exact .inl h.1
    · exact .inr (.inl h)
  · rcases inv.et with h | ⟨h, _⟩
    · exact .inl h.1
    · exact .inr (.inr (.inl h))

/-- Changing one foreign account to something that is not a token account. -/
theorem Inv.safe_one (inv : Inv bk s L) {k0 : Pubkey} (hk : k0 ∉ s.keys)
    (hf : ∀ x, x ≠ k0 → Kept L L' x)
    (hd : ∀ t, (L' k0).owner = s.wp → (L' k0).data = .token t → t.mint = s.W →
      ((L k0).owner = s.wp ∧ (L k0).data = .token t) ∨
      (t.isNative = none ∧ t.amount = 0 ∧ t.confidential = 0)) : Safe bk s L L' := by
  refine inv.safe_foreign (fun k h => hf k (by rintro rfl; exact hk h)) ?_
  intro k t h1 h2 h3
  by_cases hx : k = k0
  · subst hx; exact hd t h1 h2 h3
  · left; rw [← (hf k hx).1, ← (hf k hx).2]; exact ⟨h1, h2⟩

/-- Where there are no lamports, nothing of the pair exists. -/
theorem Inv.blank_of_empty (inv : Inv bk s L) (hf : AllFunded L) {k : Pubkey} (hk : k ∈ s.keys)
    (h : (L k).lamports = 0) : Blank L k := by
  have esc : ∀ {p E : Pubkey}, (p = splTokenId ∨ p = token2022Id) → EscrowOk s.u s.A p E L →
      (L E).lamports = 0 → Blank L E := by
    rintro p E hp (hb | ⟨ho, t, hd, _⟩) h0
    · exact hb
    · have := ((hf E).tok t (by rw [ho]; simpa [isTokenProgram] using hp) hd).pos
      omega
  simp only [Setting.keys, List.mem_cons, List.not_mem_nil, or_false] at hk
  rcases hk with rfl | rfl | rfl | rfl | rfl
  · rcases inv.w with hb | hw
    · exact hb.1
    · obtain ⟨m, hm, _⟩ := hw.mint
      have := (hf s.W).mint m (by rw [hw.owner]; simpa [isTokenProgram] using s.wpOk) hm
      omega
  · exact inv.a
  · rcases inv.w with hb | hw
    · exact hb.2
    · have := hw.bLam; omega
  · exact esc (.inl rfl) inv.es h
  · exact esc (.inr rfl) inv.et h

/-- **Key lemma** Instructions of other programs neither mint wrapped tokens nor take from an
escrow. -/
theorem baseStep_safe {act : Act} (inv : Inv bk s L) (np : bk → PDIdle cr s.u act L) (hf : AllFunded L)
    (h : BaseStep cr act L L') :
    Safe bk s L L' := by
  cases h with
  | token hp hs h _hr =>
    rename_i env prog ix signed
    refine tokEff_safe inv np (fun _ h => h) (by simpa [isTokenProgram] using hp) ?_ (tokenExec_eff h)
    cases hc : signed s.A with
    | false => rfl
    | true => exact absurd (hs _ hc) s.A_noSign
  | allocate hs h =>
    rename_i key space
    have hk : key ∉ s.keys := fun hk => s.noSign hk hs
    unfold sysAllocate at h
    simp only [bind_ok_iff, require_ok_iff, pure_ok_iff] at h
    obtain ⟨_, _, _, _, rfl⟩ := h
    refine inv.safe_one hk (fun x hx => kept_setData hx) ?_
    intro t _ h2
    rw [setData_data] at h2; cases h2
  | assign hs hz h =>
    rename_i key owner
    have hk : key ∉ s.keys := fun hk => s.noSign hk hs
    unfold sysAssign at h
    split at h
    · cases h; exact .rfl' inv
    · simp only [bind_ok_iff, require_ok_iff, pure_ok_iff] at h
      obtain ⟨_, _, _, _, rfl⟩ := h
      refine inv.safe_one hk (fun x hx => .of_eq (Ledger.set_ne _ _ hx)) ?_
      intro t _ h2
      obtain ⟨b, hb, _⟩ := hz
      rw [Ledger.set_same] at h2
      dsimp only at h2
      rw [hb] at h2; cases h2
  | createAta hcr fit h _hr =>
    rename_i env wallet mint prog
    obtain ⟨k, m, hp, hk, ko, kd, mo, md, _, hne, rfl⟩ := ataCreate_inv h
    rw [hcr] at hk
    have hf : ∀ x, x ≠ k → Kept L (L.set k ⟨max (L k).lamports (env.rentMin (ataLen prog mint L)), prog,
        .token (newTokenAcct (env.rentMin (ataLen prog mint L)) prog (max (L k).lamports (env.rentMin (ataLen prog mint L))) mint m wallet
          [.immutableOwner])⟩) x := fun x hx => .of_eq (Ledger.set_ne _ _ hx)
    have hplain : mint = s.W → ((newTokenAcct (env.rentMin (ataLen prog mint L)) prog (max (L k).lamports (env.rentMin (ataLen prog mint L))) mint m
        wallet [.immutableOwner]).isNative = none ∧ (newTokenAcct (env.rentMin (ataLen prog mint L)) prog
        (max (L k).lamports (env.rentMin (ataLen prog mint L))) mint m wallet [.immutableOwner]).amount = 0 ∧
        (newTokenAcct (env.rentMin (ataLen prog mint L)) prog (max (L k).lamports (env.rentMin (ataLen prog mint L))) mint m
        wallet [.immutableOwner]).confidential = 0) := by
      rintro rfl
      simp [newTokenAcct, s.wFree]
    have hamt : (newTokenAcct (env.rentMin (ataLen prog mint L)) prog (max (L k).lamports (env.rentMin (ataLen prog mint L))) mint m wallet
        [.immutableOwner]).amount ≤ u64Max := by
      have := fit.2 k
      have := fit.1
      simp only [newTokenAcct]
      split <;> omega
    have hb : balanceOf L k = 0 := by unfold balanceOf; rw [kd]
    have tokAt : ∀ t', (L.set k ⟨max (L k).lamports (env.rentMin (ataLen prog mint L)), prog,
        .token (newTokenAcct (env.rentMin (ataLen prog mint L)) prog (max (L k).lamports (env.rentMin (ataLen prog mint L))) mint m wallet
          [.immutableOwner])⟩ k).data = .token t' → t' = newTokenAcct (env.rentMin (ataLen prog mint L)) prog
          (max (L k).lamports (env.rentMin (ataLen prog mint L))) mint m wallet [.immutableOwner] := by
      intro t' h; rw [Ledger.set_same] at h; cases h; rfl
    have hold : ∀ k1 t, (L.set k ⟨max (L k).lamports (env.rentMin (ataLen prog mint L)), prog,
        .token (newTokenAcct (env.rentMin (ataLen prog mint L)) prog (max (L k).lamports (env.rentMin (ataLen prog mint L))) mint m wallet
          [.immutableOwner])⟩ k1).owner = s.wp → (L.set k ⟨max (L k).lamports (env.rentMin (ataLen prog mint L)), prog,
        .token (newTokenAcct (env.rentMin (ataLen prog mint L)) prog (max (L k).lamports (env.rentMin (ataLen prog mint L))) mint m wallet
          [.immutableOwner])⟩ k1).data = .token t → t.mint = s.W →
        ((L k1).owner = s.wp ∧ (L k1).data = .token t) ∨
        (t.isNative = none ∧ t.amount = 0 ∧ t.confidential = 0) := by
      intro k1 t h1 h2 h3
      by_cases hx : k1 = k
      · subst hx
        have := tokAt t h2
        subst this
        exact .inr (hplain h3)
      · left; rw [← (hf k1 hx).1, ← (hf k1 hx).2]; exact ⟨h1, h2⟩
    have esc : ∀ {p E : Pubkey}, Reserved cr (.ata s.A s.u p) E → EscrowOk s.u s.A p E L →
        EscrowOk s.u s.A p E (L.set k ⟨max (L k).lamports (env.rentMin (ataLen prog mint L)), prog,
        .token (newTokenAcct (env.rentMin (ataLen prog mint L)) prog (max (L k).lamports (env.rentMin (ataLen prog mint L))) mint m wallet
          [.immutableOwner])⟩) ∧
        balanceOf L E ≤ balanceOf (L.set k ⟨max (L k).lamports (env.rentMin (ataLen prog mint L)), prog,
        .token (newTokenAcct (env.rentMin (ataLen prog mint L)) prog (max (L k).lamports (env.rentMin (ataLen prog mint L))) mint m wallet
          [.immutableOwner])⟩) E := by
      intro p E hr hE
      by_cases hx : E = k
      · subst hx
        have := hr.unique (j := .ata wallet mint prog) hk
        injection this with h1 h2 h3
        subst h1; subst h2; subst h3
        refine ⟨.inr ⟨by rw [Ledger.set_same], _, by rw [Ledger.set_same], rfl, rfl, rfl, rfl, hamt⟩,
          by omega⟩
      · exact ⟨hE.kept (hf E hx), by rw [balanceOf_kept (hf E hx)]⟩
    have neA : s.A ≠ k := by
      intro h; have := s.rA.unique (j := .ata wallet mint prog) (h ▸ hk); cases this
    have neW : s.W ≠ k := by
      intro h; have := s.rW.unique (j := .ata wallet mint prog) (h ▸ hk); cases this
    have neB : s.B ≠ k := by
      intro h; have := s.rB.unique (j := .ata wallet mint prog) (h ▸ hk); cases this
    exact inv.safe_of (hf _ neA) (hf _ neW) (hf _ neB) (esc s.rEs inv.es).1
      (fun _ => (esc s.rEs inv.es).2) (esc s.rEt inv.et).1 (fun _ => (esc s.rEt inv.et).2) hold
  | gc h =>
    rename_i key
    by_cases hk : key ∈ s.keys
    · have hb : Blank L key := inv.blank_of_empty hf hk h
      have hkept : ∀ x, Kept L (L.set key Account.empty) x := by
        intro x
        by_cases hx : x = key
        · subst hx
          exact .of_lamports (by rw [Ledger.set_same, hb.1]; rfl) (by rw [Ledger.set_same, hb.2]; rfl)
            (by rw [hb.1]; exact system_ne_crate)
        · exact .of_eq (Ledger.set_ne _ _ hx)
      refine inv.safe_foreign (fun k _ => hkept k) ?_
      intro k t h1 h2 _
      left; rw [← (hkept k).1, ← (hkept k).2]; exact ⟨h1, h2⟩
    · refine inv.safe_one hk (fun x hx => .of_eq (Ledger.set_ne _ _ hx)) ?_
      intro t _ h2
      rw [Ledger.set_same] at h2; cases h2
  | lamports h hl =>
    refine inv.safe_foreign (fun k _ => kept_lamports (h k) (hl k)) ?_
    intro k t h1 h2 _
    left; rw [← (h k).1, ← (h k).2]; exact ⟨h1, h2⟩
  | other hp hc hsys hframe hown hlam =>
    rename_i prog
    have htok : prog ≠ splTokenId ∧ prog ≠ token2022Id := by
      simpa [isTokenProgram, not_or] using hp
    refine inv.safe_foreign (fun k hk => ?_) ?_
    · have hne : (L k).owner ≠ prog := ?_
      · exact ⟨(hframe k hne).1, (hframe k hne).2, fun _ => hlam k hne⟩
      rintro rfl
      rcases inv.key_owner hk with h | h | h | h
      · exact hsys h
      · exact htok.1 h
      · exact htok.2 h
      · exact hc h
    · intro k t h1 h2 h3
      by_cases ho : (L k).owner = prog
      · rcases hown k ho with h | ⟨b, h, _⟩
        · rw [h] at h1
          rcases s.wpOk with hw | hw
          · exact absurd (h1.trans hw) htok.1
          · exact absurd (h1.trans hw) htok.2
        · rw [h] at h2; cases h2
      · left
        have := hframe k ho
        rw [← this.1, ← this.2]; exact ⟨h1, h2⟩

theorem run_safe {ok : Act → Ledger → Prop} (hok : ∀ act L, ok act L → (bk → PDIdle cr s.u act L) ∧ AllFunded L) (inv : Inv bk s L)
    (h : Run cr ok L L') : Safe bk s L L' := by
  induction h with
  | refl => exact .rfl' inv
  | step h1 h2 _ ih =>
    have := baseStep_safe inv (hok _ _ h1).1 (hok _ _ h1).2 h2
    exact this.trans (ih this.inv)

/-- A CPI signed by an authority other than `A` is safe. -/
theorem cpi_safe {S : Pubkey → Prop} {env : Env} {accounts : List Meta} {pdas borrowed : List Pubkey} {prog : Pubkey}
    {ix : TokenIx} (inv : Inv bk s L) (np : bk → PDQuiet s.u S L)
    (hS : ∀ k, Signs accounts k ∨ k ∈ pdas → S k) (hs : ∀ k, Signs accounts k → CanSign cr k)
    (hpda : s.A ∉ pdas) (h : invokeToken env accounts pdas borrowed prog ix L = .ok L') :
    Safe bk s L L' := by
  obtain ⟨h1, _, _, h4, h5⟩ := invokeToken_inv h
  refine tokEff_safe inv np (fun k hk => hS k (signedBy_caller h4 hk)) h1 ?_ (tokenExec_eff h5)
  cases hc : signedBy ix.metas s.A with
  | false => rfl
  | true =>
    rcases signedBy_caller h4 hc with h | h
    · exact absurd (hs _ h) s.A_noSign
    · exact absurd h hpda

/-- Minting of another mint is safe. -/
theorem mintedTo_safe_other {prog mk dst auth : Pubkey} {n : Nat} {m : Mint} {d : TokenAcct}
    (inv : Inv bk s L) (h : MintedTo prog mk dst auth n L L' m d) (hmk : mk ≠ s.W) : Safe bk s L L' := by
  have kA : Kept L L' s.A := .of_eq (h.other _ (by rintro rfl; exact inv.no_mint_A h.md)
    (by rintro rfl; exact inv.no_token_A h.dd))
  have kB : Kept L L' s.B := .of_eq (h.other _ (by rintro rfl; exact inv.no_mint_B h.md)
    (by rintro rfl; exact inv.no_token_B h.dd))
  have kW : Kept L L' s.W := .of_eq (h.other _ (Ne.symm hmk)
    (by rintro rfl; exact inv.no_token_W h.dd))
  refine inv.safe_of kA kW kB (h.escrow inv.es).1 (fun _ => (h.escrow inv.es).2) (h.escrow inv.et).1
    (fun _ => (h.escrow inv.et).2) ?_
  intro k t h1 h2 h3
  by_cases k1 : k = mk
  · subst k1; rw [h.mkData] at h2; cases h2
  · by_cases k2 : k = dst
    · subst k2; rw [h.dstData] at h2; cases h2
      exact absurd (h.dm.symm.trans h3) hmk
    · rw [h.other k k1 k2] at h1 h2; exact .inl ⟨h1, h2⟩

/-- Minting of the wrapped mint itself keeps everything but the backing. -/
theorem mintedTo_wrapped {prog dst auth : Pubkey} {n : Nat} {m : Mint} {d : TokenAcct}
    (inv : Inv bk s L) (h : MintedTo prog s.W dst auth n L L' m d)
    (hb : bk → supplyOf L s.W + n ≤ balanceOf L s.Es + balanceOf L s.Et + bk.debt) :
    Inv bk s L' ∧ supplyOf L' s.W = supplyOf L s.W + n ∧ Kept L L' s.Es ∧ Kept L L' s.Et ∧
      MintKept s.W L L' := by
  have hw : WrappedOk s L := by
    rcases inv.w with ⟨hb, _⟩ | hw
    · have := h.md; rw [hb.2] at this; cases this
    · exact hw
  obtain ⟨w, wd, wa, wsup, wex⟩ := hw.mint
  have hd := h.md
  rw [wd] at hd; cases hd
  have hp : prog = s.wp := h.mo.symm.trans hw.owner
  subst hp
  have nE : ∀ {p E : Pubkey}, E ≠ s.W → EscrowOk s.u s.A p E L → Kept L L' E := by
    intro p E hne hE
    refine .of_eq (h.other _ hne ?_)
    rintro rfl
    rcases hE with h3 | ⟨ho, t, h3, tm, _⟩
    · have := h.dd; rw [h3.2] at this; cases this
    · have hd := h.dd
      rw [h3] at hd; cases hd
      exact s.W_ne_u (tm.symm.trans h.dm)
  have kEs := nE (Ne.symm s.W_ne_Es) inv.es
  have kEt := nE (Ne.symm s.W_ne_Et) inv.et
  have kA : Kept L L' s.A := .of_eq (h.other _ (Ne.symm s.W_ne_A)
    (by rintro rfl; exact inv.no_token_A h.dd))
  have kB : Kept L L' s.B := .of_eq (h.other _ (Ne.symm s.W_ne_B)
    (by rintro rfl; exact inv.no_token_B h.dd))
  have hs : supplyOf L s.W = m.supply := supplyOf_mint wd
  have hs' : supplyOf L' s.W = m.supply + n := supplyOf_mint h.mkData
  refine ⟨⟨inv.a.kept kA, inv.es.kept kEs, inv.et.kept kEt, .inr ⟨h.mkOwner, ⟨_, h.mkData, wa,
    h.sfit, wex⟩, kB.1.trans hw.bOwner, kB.2.trans hw.bData,
    Nat.lt_of_lt_of_le hw.bLam (kB.lam hw.bOwner)⟩, ?_, ?_, ?_⟩, by omega, kEs, kEt, ?_⟩
  · intro k t h1 h2 h3
    by_cases k1 : k = s.W
    · subst k1; rw [h.mkData] at h2; cases h2
    · by_cases k2 : k = dst
      · subst k2; rw [h.dstData] at h2; cases h2
        exact inv.noNative k d h.do_ h.dd h.dm
      · rw [h.other k k1 k2] at h1 h2; exact inv.noNative k t h1 h2 h3
  · rw [hs']
    refine sum_step (a := supplyOf L s.W) {dst} ?_ ?_ inv.claims
    · intro k hk
      simp only [Finset.mem_singleton] at hk
      by_cases k1 : k = s.W
      · subst k1; rw [claimOf_nontoken (by rw [h.mkData]; simp)]; omega
      · rw [claimOf_kept (.of_eq (h.other k k1 hk))]
    · rw [Finset.sum_singleton, Finset.sum_singleton, claimOf_token h.dstOwner h.dstData,
        claimOf_token h.do_ h.dd, if_pos h.dm, if_pos h.dm, hs]
      dsimp only
      omega
  · intro b; have := hb b; rw [balanceOf_kept kEs, balanceOf_kept kEt]; omega
  · intro m0 hm0
    rw [wd] at hm0; cases hm0
    exact ⟨_, h.mkData, rfl, fun h => h⟩

end

/-- What a step can do to a pair. -/
inductive StepEff (bk : Bk) {cr : Crypto} (s : Setting cr) (act : Act) (L L' : Ledger) : Prop
  /-- creates no wrapped tokens, takes nothing from the escrows -/
  | quiet (h : Safe bk s L L')
  /-- a metadata sync of the wrapped mint -/
  | sync (hs : IsSyncOf s.W act) (inv : Inv bk s L') (kept : MintKept s.W L L')
      (supply : supplyOf L' s.W = supplyOf L s.W)
      (es : balanceOf L' s.Es = balanceOf L s.Es) (et : balanceOf L' s.Et = balanceOf L s.Et)
  /-- a Wrap: the escrows receive at least as much as the supply grows -/
  | wrap (amount : UInt64) (x : Nat) (hw : IsWrapOf s.W amount act) (hx : x ≤ amount.toNat)
      (inv : Inv bk s L') (kept : MintKept s.W L L')
      (supply : supplyOf L' s.W ≤ supplyOf L s.W + x)
      (es : bk → balanceOf L s.Es ≤ balanceOf L' s.Es) (et : bk → balanceOf L s.Et ≤ balanceOf L' s.Et)
      (recv : bk → balanceOf L s.Es + balanceOf L s.Et + x ≤ balanceOf L' s.Es + balanceOf L' s.Et)
  /-- an Unwrap: the supply shrinks by the amount that leaves an escrow -/
  | unwrap (amount : UInt64) (hu : IsUnwrapOf s.W amount act)
      (inv : Inv bk s L') (kept : MintKept s.W L L')
      (supply : supplyOf L' s.W + amount.toNat = supplyOf L s.W)
      (es : balanceOf L' s.Es = balanceOf L s.Es ∨
        balanceOf L' s.Es + amount.toNat = balanceOf L s.Es)
      (et : balanceOf L' s.Et = balanceOf L s.Et ∨
        balanceOf L' s.Et + amount.toNat = balanceOf L s.Et)
      (paid : balanceOf L s.Es + balanceOf L s.Et ≤
        balanceOf L' s.Es + balanceOf L' s.Et + amount.toNat)

theorem StepEff.inv {bk : Bk} {cr : Crypto} {s : Setting cr} {act : Act} {L L' : Ledger}
    (h : StepEff bk s act L L') : Inv bk s L' := by
  cases h with
  | quiet h => exact h.inv
  | sync _ inv => exact inv
  | wrap _ _ _ _ inv => exact inv
  | unwrap _ _ inv => exact inv

theorem StepEff.kept {bk : Bk} {cr : Crypto} {s : Setting cr} {act : Act} {L L' : Ledger}
    (h : StepEff bk s act L L') : MintKept s.W L L' := by
  cases h with
  | quiet h => exact h.kept
  | sync _ _ k => exact k
  | wrap _ _ _ _ _ k => exact k
  | unwrap _ _ _ k => exact k

section
variable {bk : Bk} {cr : Crypto} {s : Setting cr} {L L' : Ledger} {env : Env} {accounts : List Meta}

/-- Nobody can make `A` approve. -/
theorem not_approves_A (inv : Inv bk s L) (hs : ∀ k, Signs accounts k → CanSign cr k) :
    ¬ Approves L accounts s.A := by
  unfold Approves
  rw [inv.a.2]
  intro h
  exact s.A_noSign (hs _ h)

theorem wrapTransfer_safe {S : Pubkey → Prop} {a : WrapAccounts} {m : Mint} {amount fee : Nat} (inv : Inv bk s L)
    (np : bk → PDQuiet s.u S L) (hS : ∀ k, Signs accounts k → S k)
    (hs : ∀ k, Signs accounts k → CanSign cr k)
    (h : wrapTransfer env accounts a m amount fee L = .ok L') : Safe bk s L L' := by
  unfold wrapTransfer at h
  dsimp only at h
  split at h
  · exact cpi_safe inv np (by simpa using hS) hs (by simp) h
  · exact cpi_safe inv np (by simpa using hS) hs (by simp) h

/-- Tokens arriving in an escrow from outside. -/
theorem escrow_receives {S : Pubkey → Prop} {p E src : Pubkey} {t d t' : TokenAcct} {n fee : Nat}
    (inv : Inv bk s L) (np : PDQuiet s.u S L) (hS : ∀ k, Signs accounts k → S k)
    (hs : ∀ k, Signs accounts k → CanSign cr k)
    (hE : EscrowOk s.u s.A p E L) (hd : (L E).data = .token d) (ht : (L src).data = .token t)
    {auth : Pubkey} {m : Mint} {prog : Pubkey} (hm : (L s.u).data = .mint m)
    (sp : SpentBy t (pdOf prog m) auth n) (ap : Approves L accounts auth)
    (mv : Transferred L L' src E t' d n fee) :
    fee ≤ n ∧ balanceOf L' E = balanceOf L E + (n - fee) := by
  have hne : src ≠ E := by
    rintro rfl
    rcases hE with hb | ⟨_, t0, h0, _, tow, tdel, _⟩
    · rw [hb.2] at hd; cases hd
    · rw [ht] at h0; cases h0
      have : auth = s.A := by
        cases sp with
        | permanentDelegate h =>
          unfold pdOf at h
          split at h
          · exact absurd (ap.approvesBy hS) (np m auth hm h)
          · cases h
        | delegate h => rw [tdel] at h; cases h
        | owner h => rw [tow] at h; exact h.symm
      subst this
      exact not_approves_A inv hs ap
  rcases mv with ⟨h, _⟩ | ⟨_, h⟩
  · exact absurd h hne
  · obtain ⟨h1, _, _, _, _, h6, _⟩ := transferMove_inv hne h
    rw [balanceOf_token h6, balanceOf_token hd]
    exact ⟨h1, rfl⟩

/-- What a Wrap of the pair does that credits `x`. -/
structure WrapEff (bk : Bk) {cr : Crypto} (s : Setting cr) (L L' : Ledger) (x : Nat) : Prop where
  inv : Inv bk s L'
  kept : MintKept s.W L L'
  supply : supplyOf L' s.W ≤ supplyOf L s.W + x
  es : bk → balanceOf L s.Es ≤ balanceOf L' s.Es
  et : bk → balanceOf L s.Et ≤ balanceOf L' s.Et
  recv : bk → balanceOf L s.Es + balanceOf L s.Et + x ≤ balanceOf L' s.Es + balanceOf L' s.Et

/-- Wrap of the pair, with or without a transfer hook: what is credited is the amount less the fee. -/
theorem wrap_step_W {amount : UInt64} {hook : Ledger → Ledger} {ok : Act → Ledger → Prop}
    (hok : ∀ act L, ok act L → (bk → PDIdle cr s.u act L) ∧ AllFunded L) (inv : Inv bk s L)
    (np : bk → PDIdle cr s.u (.tokenWrap env accounts (TokenWrapInstruction.wrap amount).pack) L)
    (hcr : env.cr = cr)
    (hs : ∀ k, Signs accounts k → CanSign cr k) (hhook : ∀ L1, Run cr ok L1 (hook L1))
    (h : processWrapHooked env accounts amount hook L = .ok L')
    (hacc : (accounts[1]?).map Meta.key = some s.W) :
    ∃ m p fee, (L s.u).data = .mint m ∧ (p = splTokenId ∨ p = token2022Id) ∧
      (p = splTokenId → m.exts = []) ∧ feeOf p env.epoch m amount.toNat = .ok fee ∧
      fee ≤ amount.toNat ∧ WrapEff bk s L L' (amount.toNat - fee) := by
  obtain ⟨a, m, L1, pda, c⟩ := processWrapHooked_inv h
  have s1 : Safe bk s L L1 := wrapTransfer_safe inv np (fun _ h => .inl h) hs c.transfer
  have s2 : Safe bk s L1 (hook L1) := run_safe hok s1.inv (hhook L1)
  have s12 := s1.trans s2
  obtain ⟨w, r, mt⟩ := mintTo_cpi c.mintTo
  have hcm := c.mint
  have hca := c.auth
  have hce := c.escrow
  rw [hcr] at hcm hca hce
  have hW : a.wrappedMint.key = s.W := by
    rw [c.accounts_eq] at hacc; simpa using hacc
  obtain ⟨hu, hp⟩ := s.pair_of_W hcm hW
  rw [hW] at hca
  have hA := s.auth_of_W hca
  obtain ⟨t, d, t', tr⟩ := wrapTransfer_inv c.uMint c.transfer
  rw [hA, hu] at hce
  have hum := c.uMint
  rw [hu] at hum
  have hx : bk → wrapFee env m amount.toNat ≤ amount.toNat ∧
      balanceOf L s.Es + balanceOf L s.Et + (amount.toNat - wrapFee env m amount.toNat) ≤
        balanceOf L1 s.Es + balanceOf L1 s.Et := by
    intro b
    rcases s.escrow_of tr.uprog hce with ⟨_, he⟩ | ⟨_, he⟩
    · have := tr.moved
      rw [he] at this
      have hd := tr.escData
      rw [he] at hd
      have := escrow_receives inv (np b) (fun _ h => .inl h) hs inv.es hd tr.srcData hum tr.spent tr.approved this
      have := s1.et b
      omega
    · have := tr.moved
      rw [he] at this
      have hd := tr.escData
      rw [he] at hd
      have := escrow_receives inv (np b) (fun _ h => .inl h) hs inv.et hd tr.srcData hum tr.spent tr.approved this
      have := s1.es b
      omega
  rw [hW] at mt
  have q1 := s12.supply
  obtain ⟨i1, i2, i3, i4, i5⟩ := mintedTo_wrapped s2.inv mt (by
    intro b
    have := inv.backed b
    have := hx b
    have := s2.es b
    have := s2.et b
    omega)
  refine ⟨m, _, wrapFee env m amount.toNat, hum, tr.uprog, tr.splExts, tr.feeEq, c.feeLe, i1,
    s12.kept.trans i5, by omega, ?_, ?_, ?_⟩
  · intro b; rw [balanceOf_kept i3]; exact s12.es b
  · intro b; rw [balanceOf_kept i4]; exact s12.et b
  · intro b
    have := hx b
    have := s2.es b
    have := s2.et b
    rw [balanceOf_kept i3, balanceOf_kept i4]; omega

/-- Wrap, with or without a transfer hook. -/
theorem wrap_step {amount : UInt64} {hook : Ledger → Ledger} {ok : Act → Ledger → Prop}
    (hok : ∀ act L, ok act L → (bk → PDIdle cr s.u act L) ∧ AllFunded L) (inv : Inv bk s L)
    (np : bk → PDIdle cr s.u (.tokenWrap env accounts (TokenWrapInstruction.wrap amount).pack) L)
    (hcr : env.cr = cr)
    (hs : ∀ k, Signs accounts k → CanSign cr k) (hhook : ∀ L1, Run cr ok L1 (hook L1))
    (h : processWrapHooked env accounts amount hook L = .ok L') :
    StepEff bk s (.tokenWrap env accounts (TokenWrapInstruction.wrap amount).pack) L L' := by
  by_cases hacc : (accounts[1]?).map Meta.key = some s.W
  · obtain ⟨m, p, fee, _, _, _, _, _, e⟩ := wrap_step_W hok inv np hcr hs hhook h hacc
    exact .wrap amount (amount.toNat - fee) ⟨env, accounts, rfl, hacc⟩ (Nat.sub_le _ _) e.inv e.kept
      e.supply e.es e.et e.recv
  · obtain ⟨a, m, L1, pda, c⟩ := processWrapHooked_inv h
    have s1 : Safe bk s L L1 := wrapTransfer_safe inv np (fun _ h => .inl h) hs c.transfer
    have s2 : Safe bk s L1 (hook L1) := run_safe hok s1.inv (hhook L1)
    obtain ⟨w, r, mt⟩ := mintTo_cpi c.mintTo
    have hW : a.wrappedMint.key ≠ s.W := by
      rintro hW
      exact hacc (by rw [c.accounts_eq]; simp [hW])
    exact .quiet ((s1.trans s2).trans (mintedTo_safe_other s2.inv mt hW))

/-- Tokens leaving an escrow by `A`'s signature. -/
theorem escrow_pays {p E dst : Pubkey} {e e' d : TokenAcct} {n fee : Nat} (inv : Inv bk s L)
    (hp : p = splTokenId ∨ p = token2022Id)
    (hEp : (p = splTokenId ∧ E = s.Es) ∨ (p = token2022Id ∧ E = s.Et))
    (hed : (L E).data = .token e) (same : SameButDelegation e e')
    (hdo : (L dst).owner = p) (hdd : (L dst).data = .token d) (hdm : d.mint = s.u)
    (hb : bk → supplyOf L s.W + n ≤ balanceOf L s.Es + balanceOf L s.Et + bk.debt) (hn : n ≤ e.amount)
    (mv : Transferred L L' E dst e' d n fee) :
    Inv bk s L' ∧ Kept L L' s.W ∧
      (balanceOf L' s.Es = balanceOf L s.Es ∨ balanceOf L' s.Es + n = balanceOf L s.Es) ∧
      (balanceOf L' s.Et = balanceOf L s.Et ∨ balanceOf L' s.Et + n = balanceOf L s.Et) ∧
      balanceOf L s.Es + balanceOf L s.Et ≤ balanceOf L' s.Es + balanceOf L' s.Et + n := by
  rcases mv with ⟨rfl, rfl⟩ | ⟨hne, mv⟩
  · exact ⟨inv, .rfl', .inl rfl, .inl rfl, by omega⟩
  obtain ⟨_, m2, _, m4, m5, m6, m7, m8, _⟩ := transferMove_inv hne mv
  have hE : EscrowOk s.u s.A p E L := by
    rcases hEp with ⟨rfl, rfl⟩ | ⟨rfl, rfl⟩
    · exact inv.es
    · exact inv.et
  have kW : Kept L L' s.W := by
    refine .of_eq (m8 _ ?_ ?_)
    · rintro h; rw [← h] at hed; exact inv.no_token_W hed
    · rintro rfl; exact inv.no_token_W hdd
  have kA : Kept L L' s.A := by
    refine .of_eq (m8 _ ?_ ?_)
    · rintro h; rw [← h] at hed; exact inv.no_token_A hed
    · rintro rfl; exact inv.no_token_A hdd
  have kB : Kept L L' s.B := by
    refine .of_eq (m8 _ ?_ ?_)
    · rintro h; rw [← h] at hed; exact inv.no_token_B hed
    · rintro rfl; exact inv.no_token_B hdd
  -- the escrow itself
  have hE' : EscrowOk s.u s.A p E L' ∧ balanceOf L' E + n = balanceOf L E ∧ (L E).owner = p ∧
      e.mint = s.u := by
    rcases hE with hb | ⟨ho, t, h0, tm, tow, tdel, tca, tam⟩
    · rw [hb.2] at hed; cases hed
    · rw [hed] at h0; cases h0
      have hdel : e'.delegate = none := by
        rcases same.delegate with h | h
        · rw [h, tdel]
        · exact h
      refine ⟨.inr ⟨m5.trans ho, _, m4, same.mint.trans tm, same.owner.trans tow, hdel,
        same.closeAuthority.trans tca, ?_⟩, ?_, ho, tm⟩
      · have := same.amount; dsimp only; omega
      · rw [balanceOf_token m4, balanceOf_token hed]
        have := same.amount; dsimp only; omega
  obtain ⟨e1, e2, e3, e4⟩ := hE'
  -- the other escrow
  have other : ∀ {p2 E2 : Pubkey}, p2 ≠ p → E2 ≠ E → (p2 = splTokenId ∨ p2 = token2022Id) →
      EscrowOk s.u s.A p2 E2 L → Kept L L' E2 := by
    intro p2 E2 hpp hEE _ hE2
    refine .of_eq (m8 _ hEE ?_)
    rintro rfl
    rcases hE2 with hb | ⟨ho, _⟩
    · rw [hb.2] at hdd; cases hdd
    · exact hpp (ho.symm.trans hdo)
  have claims0 : ∀ k, claimOf s.wp s.W L' k ≤ claimOf s.wp s.W L k := by
    intro k
    by_cases k1 : k = E
    · subst k1
      by_cases ho : (L' k).owner = s.wp
      · rw [claimOf_token ho m4, if_neg]
        · omega
        · show e'.mint ≠ s.W
          rw [same.mint, e4]; exact s.W_ne_u
      · rw [claimOf_owner ho]; omega
    · by_cases k2 : k = dst
      · subst k2
        by_cases ho : (L' k).owner = s.wp
        · rw [claimOf_token ho m6, if_neg]
          · omega
          · show d.mint ≠ s.W
            rw [hdm]; exact s.W_ne_u
        · rw [claimOf_owner ho]; omega
      · rw [claimOf_kept (.of_eq (m8 k k1 k2))]
  have noNat : ∀ k t, (L' k).owner = s.wp → (L' k).data = .token t → t.mint = s.W →
      t.isNative = none := by
    intro k t h1 h2 h3
    by_cases k1 : k = E
    · subst k1; rw [m4] at h2; cases h2
      exact absurd ((same.mint.trans e4).symm.trans h3) s.W_ne_u
    · by_cases k2 : k = dst
      · subst k2; rw [m6] at h2; cases h2
        exact absurd (hdm.symm.trans h3) s.W_ne_u
      · rw [m8 k k1 k2] at h1 h2; exact inv.noNative k t h1 h2 h3
  have hsup := supplyOf_kept kW
  rcases hEp with ⟨rfl, rfl⟩ | ⟨rfl, rfl⟩
  · have k2 := other (Ne.symm spl_ne_2022) (Ne.symm s.Es_ne_Et) (.inr rfl) inv.et
    have hb2 := balanceOf_kept k2
    refine ⟨⟨inv.a.kept kA, e1, inv.et.kept k2, inv.wKept kW kB, noNat, ?_, ?_⟩, kW,
      .inr e2, .inl hb2, ?_⟩
    · rw [hsup]; exact sum_mono (Nat.le_refl _) claims0 inv.claims
    · intro b; have := hb b; rw [hsup, hb2]; omega
    · rw [hb2]; omega
  · have k2 := other spl_ne_2022 s.Es_ne_Et (.inl rfl) inv.es
    have hb2 := balanceOf_kept k2
    refine ⟨⟨inv.a.kept kA, inv.es.kept k2, e1, inv.wKept kW kB, noNat, ?_, ?_⟩, kW,
      .inl hb2, .inr e2, ?_⟩
    · rw [hsup]; exact sum_mono (Nat.le_refl _) claims0 inv.claims
    · intro b; have := hb b; rw [hsup, hb2]; omega
    · rw [hb2]; omega

theorem unwrap_step {amount : UInt64} (inv : Inv bk s L)
    (np : bk → PDIdle cr s.u (.tokenWrap env accounts (TokenWrapInstruction.unwrap amount).pack) L)
    (hcr : env.cr = cr)
    (hid : env.programId = crateId) (hs : ∀ k, Signs accounts k → CanSign cr k)
    (h : processUnwrap env accounts amount L = .ok L') :
    StepEff bk s (.tokenWrap env accounts (TokenWrapInstruction.unwrap amount).pack) L L' := by
  obtain ⟨a, m, w, hh, h', e, e', d, fee, L1, f⟩ := processUnwrap_effect h
  obtain ⟨pda, c⟩ := f.ctx
  have s1 : Safe bk s L L1 := cpi_safe inv np (by simp; exact fun _ h => .inl h) hs (by simp) c.burn
  have hcm := c.mint
  have hca := c.auth
  have hce := c.escrow
  rw [hcr] at hcm hca hce
  have hpda : pda = a.authority.key := pda_authority hid c.pdaEq
  by_cases hW : a.wrappedMint.key = s.W
  · obtain ⟨hu, hp⟩ := s.pair_of_W hcm hW
    rw [hW] at hca
    have hA := s.auth_of_W hca
    rw [hA, hu] at hce
    have hEp := s.escrow_of f.uprog hce
    have hmid := f.mid
    rw [hW] at hmid
    have hsup : supplyOf L1 s.W + amount.toNat = supplyOf L s.W := by
      have h1 : (L1 s.W).data = .mint { w with supply := w.supply - amount.toNat } := by
        rw [hmid]; exact setData_data _ _ _
      have h2 := f.wData
      rw [hW] at h2
      have := f.wSupply
      rw [supplyOf_mint h1, supplyOf_mint h2]
      dsimp only
      omega
    have hdm := f.dMint
    rw [hu] at hdm
    -- the burn leaves the escrows exactly alone
    have kE : ∀ {p E : Pubkey}, E ≠ s.W → EscrowOk s.u s.A p E L → balanceOf L1 E = balanceOf L E := by
      intro p E hne hE
      refine balanceOf_kept (.of_eq ?_)
      rw [hmid, Ledger.setData_ne _ _ hne]
      refine Ledger.setData_ne _ _ ?_
      rintro rfl
      rcases hE with hb | ⟨_, t, h0, tm, _⟩
      · have := f.hData; rw [hb.2] at this; cases this
      · have := f.hData
        rw [h0] at this; cases this
        have := f.hMint
        rw [hW, tm] at this
        exact s.W_ne_u this
    have b1 := kE (Ne.symm s.W_ne_Es) inv.es
    have b2 := kE (Ne.symm s.W_ne_Et) inv.et
    obtain ⟨i1, i2, i3, i4, i5⟩ := escrow_pays (n := amount.toNat) s1.inv f.uprog hEp f.eData f.eSame
      f.dOwner f.dData hdm (fun b => by have := inv.backed b; omega) f.eEnough f.moved
    have hsup' := supplyOf_kept i2
    refine .unwrap amount ⟨env, accounts, rfl, ?_⟩ i1 (s1.kept.trans (.of_kept i2)) (by omega)
      (by omega) (by omega) (by omega)
    rw [c.accounts_eq]; simp [hW]
  · have hne := s.auth_ne hca hW
    have np1 := fun b => pdQuiet_burn (np b) f.wData f.hData f.mid
    exact .quiet (s1.trans (cpi_safe s1.inv np1 (Act.signer_pda hca hpda) hs (by simp [hpda, hne])
      c.transfer))

theorem close_step {data : Bytes} (inv : Inv bk s L)
    (np : bk → PDIdle cr s.u (.tokenWrap env accounts data) L) (hcr : env.cr = cr)
    (hid : env.programId = crateId) (hs : ∀ k, Signs accounts k → CanSign cr k)
    (h : processCloseStuckEscrow env accounts L = .ok L') : Safe bk s L L' := by
  obtain ⟨a, t, m, pda, c⟩ := processClose_effect h
  have hcm := c.mint
  have hca := c.auth
  have hce := c.escrow
  rw [hcr] at hcm hca hce
  have hpda : pda = a.authority.key := pda_authority hid c.pdaEq
  by_cases hW : a.wrappedMint.key = s.W
  · obtain ⟨hu, hp⟩ := s.pair_of_W hcm hW
    rw [hW] at hca
    have hA := s.auth_of_W hca
    rw [hA, hu] at hce
    have hEt : a.escrow.key = s.Et := by
      rcases s.escrow_of (.inr rfl) hce with ⟨h, _⟩ | ⟨_, h⟩
      · exact absurd h (Ne.symm spl_ne_2022)
      · exact h
    have hf := c.final
    have hne := c.ne
    have hd := c.eData
    rw [hEt] at hf hne hd
    have hk : ∀ x, x ≠ s.Et → Kept L L' x := by
      intro x hx
      rw [hf]
      by_cases h2 : x = a.destination.key
      · subst h2
        exact kept_closeOut hne hx
      · exact .of_eq (closeOut_other _ hx h2)
    have hbl : Blank L' s.Et := by
      unfold Blank; rw [hf, closeOut_same]; exact ⟨rfl, rfl⟩
    have hb0 : balanceOf L s.Et = 0 := by rw [balanceOf_token hd]; exact c.empty
    refine inv.safe_of (hk _ s.A_ne_Et) (hk _ s.W_ne_Et) (hk _ s.B_ne_Et)
      (inv.es.kept (hk _ s.Es_ne_Et)) (fun _ => by rw [balanceOf_kept (hk _ s.Es_ne_Et)]) (.inl hbl)
      (fun _ => by omega) ?_
    intro k t h1 h2 h3
    by_cases hx : k = s.Et
    · subst hx; rw [hbl.2] at h2; cases h2
    · left; rw [← (hk k hx).1, ← (hk k hx).2]; exact ⟨h1, h2⟩
  · have hne := s.auth_ne hca hW
    exact cpi_safe inv np (Act.signer_pda hca hpda) hs (by simp [hpda, hne]) c.cpi

theorem createMint_step {C : Customizer} {exts : Pubkey → Pubkey → List MintExt}
    {freeze : Mint → Option Pubkey} (spec : CustomizerSpec C exts freeze)
    (safe : ∀ A W, SafeTags (exts A W)) {idem : Bool} (inv : Inv bk s L) (hcr : env.cr = cr)
    (hid : env.programId = crateId) (hr : ∀ n, 0 < env.rentMin n)
    (h : processCreateMint env C accounts idem L = .ok L') :
    Safe bk s L L' := by
  obtain ⟨a, c, h⟩ := processCreateMint_inv h
  rcases h with ⟨_, rfl, _⟩ | ⟨mb, bb, L1, hl, hlb, _, _, h1, h2⟩
  · exact .rfl' inv
  obtain ⟨m, A, space, _, _, brent, d1, d2, um, wu, wb, hA, hp, rfl⟩ :=
    createMint_fresh spec h1 h2
  have hcm := c.mint
  have hcb := c.bp
  rw [hcr] at hcm hcb hA
  have hk : ∀ L2 : Ledger, L2 = (L.set a.wrappedMint.key ⟨(L a.wrappedMint.key).lamports,
      a.wrappedTokenProgram.key,
        .mint { mintAuthority := some A, supply := 0, decimals := m.decimals,
                freezeAuthority := freeze m,
                exts := if a.wrappedTokenProgram.key = token2022Id then
                  exts A a.wrappedMint.key else [] }⟩).set a.backpointer.key
        ⟨(L a.backpointer.key).lamports, env.programId, .bytes a.unwrappedMint.key.bytes⟩ →
      Safe bk s L L2 := by
    intro L2 h2
    have hbk : (L2 a.backpointer.key).owner = env.programId ∧
        (L2 a.backpointer.key).data = .bytes a.unwrappedMint.key.bytes := by
      rw [h2, Ledger.set_same]; exact ⟨rfl, rfl⟩
    have hbl : 0 < (L2 a.backpointer.key).lamports := by
      rw [h2, Ledger.set_same]; exact Nat.lt_of_lt_of_le (hr 32) brent
    have hwk : (L2 a.wrappedMint.key).owner = a.wrappedTokenProgram.key ∧
        (L2 a.wrappedMint.key).data = .mint
          { mintAuthority := some A, supply := 0, decimals := m.decimals,
            freezeAuthority := freeze m,
            exts := (if a.wrappedTokenProgram.key = token2022Id then
                  exts A a.wrappedMint.key else []) } := by
      rw [h2, Ledger.set_ne _ _ wb, Ledger.set_same]; exact ⟨rfl, rfl⟩
    have hf : ∀ x, x ≠ a.wrappedMint.key → x ≠ a.backpointer.key → Kept L L2 x := by
      intro x x1 x2
      exact .of_eq (by rw [h2, Ledger.set_ne _ _ x2, Ledger.set_ne _ _ x1])
    have hold : ∀ k t, (L2 k).owner = s.wp → (L2 k).data = .token t → t.mint = s.W →
        ((L k).owner = s.wp ∧ (L k).data = .token t) ∨
        (t.isNative = none ∧ t.amount = 0 ∧ t.confidential = 0) := by
      intro k t g1 g2 _
      by_cases k1 : k = a.wrappedMint.key
      · subst k1; rw [hwk.2] at g2; cases g2
      · by_cases k2 : k = a.backpointer.key
        · subst k2; rw [hbk.2] at g2; cases g2
        · left; rw [← (hf k k1 k2).1, ← (hf k k1 k2).2]; exact ⟨g1, g2⟩
    by_cases hW : a.wrappedMint.key = s.W
    · obtain ⟨hu, hwp⟩ := s.pair_of_W hcm hW
      rw [hW] at hA hcb
      have hA' := s.auth_of_W hA
      have hB : a.backpointer.key = s.B := by
        have := s.rB.address
        simp only [PdaInput.address] at this
        rw [this] at hcb; exact (Option.some.inj hcb).symm
      have hblank : Blank L s.W := by
        rw [← hW]; unfold Blank; rw [d1]; exact ⟨rfl, rfl⟩
      have hs0 : supplyOf L s.W = 0 := by unfold supplyOf; rw [hblank.2]
      rw [hW] at hwk hf
      rw [hB] at hbk hf hbl
      have kA := hf s.A (Ne.symm s.W_ne_A) s.A_ne_B
      have kEs := hf s.Es (Ne.symm s.W_ne_Es) (Ne.symm s.B_ne_Es)
      have kEt := hf s.Et (Ne.symm s.W_ne_Et) (Ne.symm s.B_ne_Et)
      have hs2 : supplyOf L2 s.W = 0 := supplyOf_mint hwk.2
      refine ⟨⟨inv.a.kept kA, inv.es.kept kEs, inv.et.kept kEt, .inr ⟨hwk.1.trans hwp,
        ⟨_, hwk.2, by rw [hA'], by simp, ?_⟩, hbk.1.trans hid, by rw [hbk.2, hu], hbl⟩, ?_, ?_, ?_⟩,
        fun _ => by rw [balanceOf_kept kEs], fun _ => by rw [balanceOf_kept kEt], by omega, ?_⟩
      · dsimp only
        split
        · exact safe _ _
        · intro e he; cases he
      · intro k t g1 g2 g3
        rcases hold k t g1 g2 g3 with ⟨g4, g5⟩ | g
        · exact inv.noNative k t g4 g5 g3
        · exact g.1
      · rw [hs2]
        have := inv.claims
        rw [hs0] at this
        refine sum_mono (Nat.le_refl _) ?_ this
        intro k
        by_cases k1 : k = s.W
        · subst k1; rw [claimOf_nontoken (by rw [hwk.2]; simp)]; omega
        · by_cases k2 : k = s.B
          · subst k2; rw [claimOf_nontoken (by rw [hbk.2]; simp)]; omega
          · rw [claimOf_kept (hf k k1 k2)]
      · intro _; rw [hs2]; omega
      · intro m0 hm0; rw [hblank.2] at hm0; cases hm0
    · have hne : a.wrappedMint.key ∉ s.keys := by
        refine s.foreign (i := .wrappedMint a.unwrappedMint.key a.wrappedTokenProgram.key) hcm
          ⟨?_, by simp, by simp, by simp, by simp⟩
        intro he
        injection he with h1 h2
        rw [h1, h2] at hcm
        have := s.rW.address
        simp only [PdaInput.address] at this
        rw [this] at hcm; exact hW (Option.some.inj hcm).symm
      have hnb : a.backpointer.key ∉ s.keys := by
        refine s.foreign (i := .backpointer a.wrappedMint.key) hcb
          ⟨by simp, by simp, ?_, by simp, by simp⟩
        intro he
        injection he with h1
        exact hW h1
      exact inv.safe_foreign (fun k hk => hf k (by rintro rfl; exact hne hk)
        (by rintro rfl; exact hnb hk)) hold
  exact hk _ rfl

/-- Replacing a mint by a mint at a foreign address. -/
theorem Inv.safe_setMint (inv : Inv bk s L) {k : Pubkey} {m : Mint} (hk : k ∉ s.keys) :
    Safe bk s L (L.setData k (.mint m)) := by
  refine inv.safe_one hk (fun x hx => kept_setData hx) ?_
  intro t _ h2
  rw [setData_data] at h2; cases h2

theorem sync22_step (inv : Inv bk s L) (hcr : env.cr = cr)
    (h : processSyncToToken2022 env accounts L = .ok L') :
    StepEff bk s (.tokenWrap env accounts TokenWrapInstruction.syncMetadataToToken2022.pack) L L' := by
  obtain ⟨a, src, m, m', e⟩ := processSync22_effect h
  have hcm := e.mint
  have hca := e.auth
  rw [hcr] at hcm hca
  by_cases hW : a.wrappedMint.key = s.W
  · obtain ⟨hu, hwp⟩ := s.pair_of_W hcm hW
    rw [hW] at hca
    have hA := s.auth_of_W hca
    have hd := e.wData
    have hf := e.final
    have hsh := e.shape
    rw [hW] at hd hf
    rw [hW, hA] at hsh
    have hw : WrappedOk s L := by
      rcases inv.w with ⟨hb, _⟩ | hw
      · rw [hb.2] at hd; cases hd
      · exact hw
    obtain ⟨w, wd, wa, wsup, wex⟩ := hw.mint
    rw [wd] at hd; cases hd
    have hm' : m' = { m with exts := m'.exts } := e.same.1
    have f1 : m'.mintAuthority = m.mintAuthority := by rw [hm']
    have f2 : m'.supply = m.supply := by rw [hm']
    have f3 : m'.decimals = m.decimals := by rw [hm']
    have f4 : m'.freezeAuthority = m.freezeAuthority := by rw [hm']
    have hd' : (L' s.W).data = .mint m' := by rw [hf]; exact setData_data _ _ _
    have ho' : (L' s.W).owner = (L s.W).owner := by rw [hf]; simp
    have hk : ∀ x, x ≠ s.W → Kept L L' x := by intro x hx; rw [hf]; exact kept_setData hx
    have hsup : supplyOf L' s.W = supplyOf L s.W := by
      rw [supplyOf_mint hd', supplyOf_mint wd, f2]
    have kEs := hk s.Es (Ne.symm s.W_ne_Es)
    have kEt := hk s.Et (Ne.symm s.W_ne_Et)
    have kB := hk s.B (Ne.symm s.W_ne_B)
    have hin : IsSyncOf s.W (.tokenWrap env accounts
        TokenWrapInstruction.syncMetadataToToken2022.pack) := by
      obtain ⟨rest, hacc, _⟩ := parseSync22_ok_iff.1 e.parsed
      exact ⟨env, accounts, rfl, by rw [hacc]; simp [hW]⟩
    refine .sync hin ⟨inv.a.kept (hk _ (Ne.symm s.W_ne_A)), inv.es.kept kEs, inv.et.kept kEt,
      .inr ⟨ho'.trans hw.owner, ⟨m', hd', by rw [f1]; exact wa, by rw [f2]; exact wsup,
        wex.of_shape hsh⟩, kB.1.trans hw.bOwner, kB.2.trans hw.bData,
        Nat.lt_of_lt_of_le hw.bLam (kB.lam hw.bOwner)⟩, ?_, ?_, ?_⟩ ?_ hsup
      (balanceOf_kept kEs) (balanceOf_kept kEt)
    · intro k t g1 g2 g3
      by_cases k1 : k = s.W
      · subst k1; rw [hd'] at g2; cases g2
      · rw [(hk k k1).1] at g1; rw [(hk k k1).2] at g2; exact inv.noNative k t g1 g2 g3
    · rw [hsup]
      refine sum_mono (Nat.le_refl _) ?_ inv.claims
      intro k
      by_cases k1 : k = s.W
      · subst k1; rw [claimOf_nontoken (by rw [hd']; simp)]; omega
      · rw [claimOf_kept (hk k k1)]
    · rw [hsup, balanceOf_kept kEs, balanceOf_kept kEt]; exact inv.backed
    · intro m0 hm0
      rw [wd] at hm0; cases hm0
      exact ⟨m', hd', f3, fun h => by rw [f4]; exact h⟩
  · have hne : a.wrappedMint.key ∉ s.keys := by
      refine s.foreign (i := .wrappedMint a.unwrappedMint.key token2022Id) hcm
        ⟨?_, by simp, by simp, by simp, by simp⟩
      intro he
      injection he with h1 h2
      rw [h1, h2] at hcm
      have := s.rW.address
      simp only [PdaInput.address] at this
      rw [this] at hcm; exact hW (Option.some.inj hcm).symm
    rw [e.final]
    exact .quiet (inv.safe_setMint hne)

theorem syncSpl_step (inv : Inv bk s L) (hcr : env.cr = cr)
    (h : processSyncToSplToken env accounts L = .ok L') : Safe bk s L L' := by
  obtain ⟨a, src, data, e⟩ := processSyncSpl_effect h
  have hx := e.pda
  rw [hcr] at hx
  have hne : a.metaplexMetadata.key ∉ s.keys :=
    s.foreign (i := .metaplex a.wrappedMint.key) hx ⟨by simp, by simp, by simp, by simp, by simp⟩
  rcases e.run with ⟨_, h⟩ | ⟨_, h⟩
  · have g0 := h
    obtain ⟨_, _, _, _, _, _, _, _, _, rfl⟩ := mplCreate_inv h
    refine inv.safe_one hne ?_ ?_
    · intro x hx
      exact kept_mplCreate g0 hx
    · intro t _ h2
      rw [Ledger.set_same] at h2; cases h2
  · obtain ⟨_, md, _, _, _, _, _, rfl⟩ := mplUpdate_inv h
    refine inv.safe_one hne (fun x hx => kept_setData hx) ?_
    intro t _ h2
    rw [setData_data] at h2; cases h2

theorem pointer_step {p : Pubkey} (inv : Inv bk s L) (hcr : env.cr = cr)
    (h : processSetCanonicalPointer env accounts p L = .ok L') : Safe bk s L L' := by
  obtain ⟨a, m, e⟩ := processPointer_effect h
  have hx := e.pointer
  rw [hcr] at hx
  have hne : a.pointer.key ∉ s.keys :=
    s.foreign (i := .canonicalPointer a.unwrappedMint.key) hx
      ⟨by simp, by simp, by simp, by simp, by simp⟩
  have fin : L' = L.set a.pointer.key ⟨(L a.pointer.key).lamports, env.programId, .bytes p.bytes⟩ →
      Safe bk s L L' := by
    rintro rfl
    refine inv.safe_one hne (fun x hx => .of_eq (Ledger.set_ne _ _ hx)) ?_
    intro t _ h2
    rw [Ledger.set_same] at h2; cases h2
  rcases e.final with ⟨_, h⟩ | ⟨_, _, h⟩ | ⟨_, rfl⟩
  · exact fin h
  · exact fin h
  · exact .rfl' inv

/-- **Main lemma** Every step of a history of a build does to the pair one of the four things. -/
theorem step_eff {C : Customizer} {exts : Pubkey → Pubkey → List MintExt}
    {freeze : Mint → Option Pubkey} (spec : CustomizerSpec C exts freeze)
    (safe : ∀ A W, SafeTags (exts A W)) {act : Act} {ok : Act → Ledger → Prop}
    (hok : ∀ act L, ok act L → (bk → PDIdle cr s.u act L) ∧ AllFunded L) (inv : Inv bk s L)
    (h0 : ok act L) (h : BuildStep C cr ok act L L') : StepEff bk s act L L' := by
  have np := (hok act L h0).1
  cases h with
  | base h => exact .quiet (baseStep_safe inv np (hok act L h0).2 h)
  | wrapHooked hcr hid hs hhook h => exact wrap_step hok inv np hcr hs hhook h
  | tokenWrap hcr hid hs h hr =>
    rcases processInstructionWith_ok h with ⟨idem, _, h⟩ | ⟨hne, h0⟩
    · exact .quiet (createMint_step spec safe inv hcr hid hr h)
    obtain ⟨ix, rfl, hx⟩ := processInstruction_ok h0
    cases ix with
    | createMint idem => exact absurd rfl (hne idem)
    | wrap amount =>
      exact wrap_step (hook := id) (ok := ok) hok inv np hcr hs (fun _ => .refl)
        (by rw [processWrapHooked_id]; exact hx)
    | unwrap amount => exact unwrap_step inv np hcr hid hs hx
    | closeStuckEscrow => exact .quiet (close_step inv np hcr hid hs hx)
    | syncMetadataToToken2022 => exact sync22_step inv hcr hx
    | syncMetadataToSplToken => exact .quiet (syncSpl_step inv hcr hx)
    | setCanonicalPointer p => exact .quiet (pointer_step inv hcr hx)


end

end TokenWrap.Custom
