import Verif.Props.History
/-! # Different pairs are isolated (C29) -/

set_option linter.unusedSimpArgs false

namespace TokenWrap

/-- The wrapped mint an instruction names, by its documented position in the account list
(/repo/program/src/instruction.rs). SetCanonicalPointer names none. -/
def namedWrappedMint : TokenWrapInstruction → List Meta → Option Pubkey
  | .createMint _, accounts => (accounts[0]?).map Meta.key
  | .wrap _, accounts => (accounts[1]?).map Meta.key
  | .unwrap _, accounts => (accounts[7]?).map Meta.key
  | .closeStuckEscrow, accounts => (accounts[3]?).map Meta.key
  | .syncMetadataToToken2022, accounts => (accounts[0]?).map Meta.key
  | .syncMetadataToSplToken, accounts => (accounts[2]?).map Meta.key
  | .setCanonicalPointer _, _ => none

section
variable {cr : Crypto} {s : Setting cr} {ok : Act → Ledger → Prop} {L0 L L' : Ledger} {trace : List Act}
  {env : Env} {accounts : List Meta} {ix : TokenWrapInstruction}

theorem Inv.W_not_token {bk : Bk} (h : Inv bk s L) (t : TokenAcct) : (L s.W).data ≠ .token t := by
  rcases h.w with ⟨h1, _⟩ | hw
  · rw [h1.2]; simp
  · obtain ⟨m, hm, _⟩ := hw.mint; rw [hm]; simp

theorem Inv.B_bytes {bk : Bk} (h : Inv bk s L) : ∃ b, (L s.B).data = .bytes b := by
  rcases h.w with ⟨_, h1⟩ | hw
  · exact ⟨_, h1.2⟩
  · exact ⟨_, hw.bData⟩

theorem isolated_keys {bk : Bk} (hi : Inv bk s L) (hcr : env.cr = cr)
    (h : processInstruction env accounts ix.pack L = .ok L')
    (hn : namedWrappedMint ix accounts ≠ some s.W) : Kept L L' s.W ∧ Kept L L' s.B := by
  obtain ⟨b, hb⟩ := hi.B_bytes
  have wt := hi.W_not_token
  rw [processInstruction_pack] at h
  cases ix with
  | createMint idem =>
    obtain ⟨a, c, h⟩ := processCreateMint_inv h
    obtain ⟨rest, hacc⟩ := c.accounts_eq
    have hne : a.wrappedMint.key ≠ s.W := by
      intro he; exact hn (by rw [hacc]; simp [namedWrappedMint, he])
    have hcm := c.mint
    have hcb := c.bp
    rw [hcr] at hcm hcb
    have x1 : s.W ≠ a.backpointer.key := by
      intro he
      have := s.rW.unique (j := .backpointer _) (he ▸ hcb); cases this
    have x2 : s.B ≠ a.backpointer.key := by
      intro he
      have := s.rB.unique (j := .backpointer _) (he ▸ hcb); injection this with this; exact hne this
    have x3 : s.B ≠ a.wrappedMint.key := by
      intro he
      have := s.rB.unique (j := .wrappedMint _ _) (he ▸ hcm); cases this
    rcases h with ⟨_, rfl, _⟩ | ⟨mb, bb, L1, _, _, _, _, g1, g2⟩
    · exact ⟨.rfl', .rfl'⟩
    · obtain ⟨m, A, space, _, _, _, d1, d2, _, _, _, _, _, rfl⟩ := createMint_fresh default_spec g1 g2
      exact ⟨.of_eq (by rw [Ledger.set_ne _ _ x1, Ledger.set_ne _ _ (Ne.symm hne)]),
        .of_eq (by rw [Ledger.set_ne _ _ x2, Ledger.set_ne _ _ x3])⟩
  | wrap amount =>
    obtain ⟨a, m, w, t, d, t', r, L1, e⟩ := processWrap_effect h
    obtain ⟨pda, c⟩ := e.ctx
    have hne : a.wrappedMint.key ≠ s.W := by
      intro he; exact hn (by rw [c.accounts_eq]; simp [namedWrappedMint, he])
    have f : ∀ k, (∀ t, (L k).data ≠ .token t) → k ≠ a.wrappedMint.key → Kept L L' k := by
      intro k hk hkw
      have k1 : k ≠ a.unwrappedTokenAccount.key := by rintro rfl; exact hk _ e.tr.srcData
      have k2 : k ≠ a.escrow.key := by rintro rfl; exact hk _ e.tr.escData
      have k3 : k ≠ a.recipient.key := by rintro rfl; exact hk _ e.rData
      refine .of_eq ?_
      rw [e.final, Ledger.setData_ne _ _ hkw, Ledger.setData_ne _ _ k3, e.tr.moved.other k1 k2]
    exact ⟨f _ wt (Ne.symm hne), f _ (by intro t; rw [hb]; simp)
      (by intro he; rw [he, e.wData] at hb; cases hb)⟩
  | unwrap amount =>
    obtain ⟨a, m, w, hh, h', e, e', d, fee, L1, f⟩ := processUnwrap_effect h
    obtain ⟨pda, c⟩ := f.ctx
    have hne : a.wrappedMint.key ≠ s.W := by
      intro he; exact hn (by rw [c.accounts_eq]; simp [namedWrappedMint, he])
    have g : ∀ k, (∀ t, (L k).data ≠ .token t) → k ≠ a.wrappedMint.key → Kept L L' k := by
      intro k hk hkw
      have k0 : k ≠ a.wrappedTokenAccount.key := by rintro rfl; exact hk _ f.hData
      have kk : L1 k = L k := by
        rw [f.mid, Ledger.setData_ne _ _ hkw, Ledger.setData_ne _ _ k0]
      have k1 : k ≠ a.escrow.key := by
        rintro rfl; refine hk e ?_; rw [← kk]; exact f.eData
      have k2 : k ≠ a.recipient.key := by
        rintro rfl; refine hk d ?_; rw [← kk]; exact f.dData
      exact .of_eq (by rw [f.moved.other k1 k2, kk])
    exact ⟨g _ wt (Ne.symm hne), g _ (by intro t; rw [hb]; simp)
      (by intro he; rw [he, f.wData] at hb; cases hb)⟩
  | closeStuckEscrow =>
    obtain ⟨a, t, m, pda, c⟩ := processClose_effect h
    have f : ∀ k, (∀ t, (L k).data ≠ .token t) → Kept L L' k := by
      intro k hk
      have k1 : k ≠ a.escrow.key := by rintro rfl; exact hk _ c.eData
      rw [c.final]
      exact kept_closeOut c.ne k1
    exact ⟨f _ wt, f _ (by intro t; rw [hb]; simp)⟩
  | syncMetadataToToken2022 =>
    obtain ⟨a, src, m, m', e⟩ := processSync22_effect h
    have hne : a.wrappedMint.key ≠ s.W := by
      intro he
      refine hn ?_
      have := e.parsed
      unfold parseSync22 at this
      split at this
      · cases this; simp [namedWrappedMint, he] at *; exact he
      · cases this
    rw [e.final]
    exact ⟨kept_setData (Ne.symm hne), kept_setData (by intro he; rw [he, e.wData] at hb; cases hb)⟩
  | syncMetadataToSplToken =>
    obtain ⟨a, src, data, e⟩ := processSyncSpl_effect h
    have hx := e.pda
    rw [hcr] at hx
    have x1 : s.W ≠ a.metaplexMetadata.key := by
      intro he
      have := s.rW.unique (j := .metaplex _) (he ▸ hx); cases this
    have x2 : s.B ≠ a.metaplexMetadata.key := by
      intro he
      have := s.rB.unique (j := .metaplex _) (he ▸ hx); cases this
    have f : ∀ k, k ≠ a.metaplexMetadata.key → Kept L L' k := by
      intro k hk
      rcases e.run with ⟨_, g⟩ | ⟨_, g⟩
      · have g0 := g
        obtain ⟨_, _, _, _, hb, _, _, _, _, rfl⟩ := mplCreate_inv g
        exact kept_mplCreate g0 hk
      · obtain ⟨_, md, hd, _, _, _, _, rfl⟩ := mplUpdate_inv g
        exact kept_setData hk
    exact ⟨f _ x1, f _ x2⟩
  | setCanonicalPointer p =>
    obtain ⟨a, m, e⟩ := processPointer_effect h
    have hx := e.pointer
    rw [hcr] at hx
    have x1 : s.W ≠ a.pointer.key := by
      intro he
      have := s.rW.unique (j := .canonicalPointer _) (he ▸ hx); cases this
    have x2 : s.B ≠ a.pointer.key := by
      intro he
      have := s.rB.unique (j := .canonicalPointer _) (he ▸ hx); cases this
    have f : ∀ k, k ≠ a.pointer.key → Kept L L' k := by
      intro k hk
      rcases e.final with ⟨_, rfl⟩ | ⟨_, _, rfl⟩ | ⟨_, rfl⟩
      · exact .of_eq (Ledger.set_ne _ _ hk)
      · exact .of_eq (Ledger.set_ne _ _ hk)
      · exact .rfl'
    exact ⟨f _ x1, f _ x2⟩

/-- **C29** In every history, an instruction of Token Wrap that names another wrapped mint (or none)
leaves this pair's wrapped mint and backpointer exactly as they are, in particular the supply. -/
theorem pairs_isolated (h0 : Fresh s L0) (h : History cr ok L0 trace L) (hcr : env.cr = cr)
    (hx : processInstruction env accounts ix.pack L = .ok L')
    (hn : namedWrappedMint ix accounts ≠ some s.W) :
    ((L' s.W).owner = (L s.W).owner ∧ (L' s.W).data = (L s.W).data) ∧
    ((L' s.B).owner = (L s.B).owner ∧ (L' s.B).data = (L s.B).data) ∧
    supplyOf L' s.W = supplyOf L s.W := by
  obtain ⟨k1, k2⟩ := isolated_keys (h.inv' h0) hcr hx hn
  exact ⟨⟨k1.1, k1.2⟩, ⟨k2.1, k2.2⟩, supplyOf_kept k1⟩

/-- **C29** Such an instruction takes nothing out of this pair's escrows; they can only receive
tokens. -/
theorem pairs_isolated_escrow (h0 : Fresh s L0) (h : History cr ok L0 trace L)
    (hnp : PDIdle cr s.u (.tokenWrap env accounts ix.pack) L) (hcr : env.cr = cr) (hid : env.programId = crateId)
    (hr : ∀ n, 0 < env.rentMin n) (hs : ∀ k, Signs accounts k → CanSign cr k)
    (hx : processInstruction env accounts ix.pack L = .ok L')
    (hn : namedWrappedMint ix accounts ≠ some s.W) :
    balanceOf L s.Es ≤ balanceOf L' s.Es ∧ balanceOf L s.Et ≤ balanceOf L' s.Et := by
  cases h.effB h0 hnp (.tokenWrap hcr hid hs hx hr) with
  | quiet h => exact ⟨h.es trivial, h.et trivial⟩
  | sync _ _ _ _ h1 h2 => exact ⟨h1.ge, h2.ge⟩
  | wrap amount x hw hx _ _ h1 h2 h3 h4 => exact ⟨h2 trivial, h3 trivial⟩
  | unwrap amount hu _ _ h1 =>
    obtain ⟨env', accounts', he, hk⟩ := hu
    injection he with _ e2 e3
    have := pack_injective e3
    subst this e2
    exact absurd hk hn

end

end TokenWrap
