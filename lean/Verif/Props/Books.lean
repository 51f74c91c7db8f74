import Verif.Props.HistoryExample
import Verif.Props.PostState
/-!
# C92: the books balance

Over any history of anybody's actions, the amounts of all Unwraps of a wrapped mint plus the supply
that is left never exceed the amounts of all Wraps; and as long as no permanent delegate of the
unwrapped mint acts, the escrows hold everything that was credited and not yet unwrapped.
-/

set_option linter.unusedSimpArgs false

namespace TokenWrap

/-! ## Specification: sums over the executed instructions -/

/-- The amount that an action wraps into `W`: that of a Wrap naming `W` as wrapped mint (second
account), 0 for everything else. -/
def Act.wraps (W : Pubkey) : Act → Nat
  | .tokenWrap _ accounts data => match TokenWrapInstruction.unpack data with
    | .ok (.wrap amount) => if (accounts[1]?).map Meta.key = some W then amount.toNat else 0
    | _ => 0
  | _ => 0

/-- The amount that an action unwraps from `W`: that of an Unwrap naming `W` as wrapped mint (eighth
account), 0 for everything else. -/
def Act.unwraps (W : Pubkey) : Act → Nat
  | .tokenWrap _ accounts data => match TokenWrapInstruction.unpack data with
    | .ok (.unwrap amount) => if (accounts[7]?).map Meta.key = some W then amount.toNat else 0
    | _ => 0
  | _ => 0

/-- Sum of all Wrap amounts of `W` in a history. -/
def totalWrapped (W : Pubkey) (trace : List Act) : Nat := (trace.map (Act.wraps W)).sum

/-- Sum of all Unwrap amounts of `W` in a history. -/
def totalUnwrapped (W : Pubkey) (trace : List Act) : Nat := (trace.map (Act.unwraps W)).sum

/-- `x` is what an action credits to holders of `W` when it starts in state `L`: for a Wrap naming `W`,
its amount less the transfer fee that the unwrapped mint `u` charges for it at that moment, 0 for
everything else. -/
def Credits (u W : Pubkey) (act : Act) (L : Ledger) (x : Nat) : Prop :=
  (∃ env accounts amount m fee,
    act = .tokenWrap env accounts (TokenWrapInstruction.wrap amount).pack ∧
    (accounts[1]?).map Meta.key = some W ∧ (L u).data = .mint m ∧
    IsMintFee m env.epoch amount.toNat fee ∧ x = amount.toNat - fee) ∨
  ((∀ amount, ¬ IsWrapOf W amount act) ∧ x = 0)

/-- A history of which the Wraps of `W` credited `n` in total. -/
inductive HistoryCrediting (cr : Crypto) (ok : Act → Ledger → Prop) (u W : Pubkey) (L0 : Ledger) :
    List Act → Ledger → Nat → Prop
  | start : HistoryCrediting cr ok u W L0 [] L0 0
  | step {trace : List Act} {act : Act} {L L' : Ledger} {n x : Nat}
      (h : HistoryCrediting cr ok u W L0 trace L n) (hok : ok act L) (hs : Step cr ok act L L')
      (hc : Credits u W act L x) : HistoryCrediting cr ok u W L0 (act :: trace) L' (n + x)

/-! ## Steps -/

section
variable {cr : Crypto} {s : Setting cr} {ok : Act → Ledger → Prop} {L0 L L' : Ledger} {trace : List Act}
  {act : Act}

theorem IsWrapOf.wraps {W : Pubkey} {amount : UInt64} (h : IsWrapOf W amount act) :
    act.wraps W = amount.toNat ∧ act.unwraps W = 0 := by
  obtain ⟨env, accounts, rfl, ha⟩ := h
  simp only [Act.wraps, Act.unwraps, unpack_pack, ha, if_true, and_self]

theorem IsUnwrapOf.unwraps {W : Pubkey} {amount : UInt64} (h : IsUnwrapOf W amount act) :
    act.unwraps W = amount.toNat ∧ act.wraps W = 0 := by
  obtain ⟨env, accounts, rfl, ha⟩ := h
  simp only [Act.wraps, Act.unwraps, unpack_pack, ha, if_true, and_self]

/-- An executed Unwrap burns its amount of the wrapped mint it names. -/
theorem Step.unwraps (hs : Step cr ok act L L') (hne : act.unwraps s.W ≠ 0) :
    supplyOf L' s.W + act.unwraps s.W = supplyOf L s.W := by
  cases hs with
  | base h => cases h <;> exact absurd rfl hne
  | wrapHooked =>
    simp only [Act.unwraps, unpack_pack] at hne
    exact absurd rfl hne
  | tokenWrap hcr hid hsg h hr =>
    rename_i env accounts data
    simp only [Act.unwraps] at hne ⊢
    unfold processInstruction at h
    cases hx : TokenWrapInstruction.unpack data with
    | error e => rw [hx] at h; cases h
    | ok ix =>
      rw [hx] at h hne
      simp only [ok_bind] at h
      cases ix with
      | unwrap amount =>
        dsimp only at h hne ⊢
        split at hne
        · rename_i hW
          rw [if_pos hW]
          obtain ⟨a, m, w, hh, h', e, e', d, fee, L1, ef⟩ := processUnwrap_effect h
          obtain ⟨pda, c⟩ := ef.ctx
          rw [c.accounts_eq] at hW
          have hW' : a.wrappedMint.key = s.W := by simpa using hW
          have hu : a.unwrappedMint.key = s.u := by
            have q := c.mint
            rw [hcr, hW'] at q
            have := s.rW.unique (j := .wrappedMint a.unwrappedMint.key a.wrappedTokenProgram.key) q
            injection this with q1 _
          have hwu : a.wrappedMint.key ≠ a.unwrappedMint.key := by
            rw [hW', hu]; exact Ne.symm s.uFree.1
          obtain ⟨n1, n2, n3, n4, o1, o2, hm⟩ := ef.distinct hwu
          have hk : L' a.wrappedMint.key = L1 a.wrappedMint.key := ef.moved.other n3 n4
          rw [← hW']
          have e1 : supplyOf L' a.wrappedMint.key = w.supply - amount.toNat := by
            unfold supplyOf
            rw [hk, ef.mid, Ledger.setData_same]
          have e2 : supplyOf L a.wrappedMint.key = w.supply := by
            unfold supplyOf
            rw [ef.wData]
          have := ef.wSupply
          omega
        · exact absurd rfl hne
      | _ => exact absurd rfl hne

/-- The books of one step. -/
theorem Step.books (h0 : Fresh s L0) (h : History cr ok L0 trace L) (hk : ok act L)
    (hs : Step cr ok act L L') :
    supplyOf L' s.W + act.unwraps s.W ≤ supplyOf L s.W + act.wraps s.W := by
  by_cases hne : act.unwraps s.W = 0
  · rw [hne]
    cases h.eff' h0 hk hs with
    | quiet h => have := h.supply; omega
    | sync _ _ _ h1 => omega
    | wrap amount x hw hx _ _ h1 => rw [hw.wraps.1]; omega
    | unwrap amount hu _ _ h1 => omega
  · have := hs.unwraps hne
    omega

/-! ## C92 -/

/-- **C92** In every history, everything ever unwrapped plus what is still outstanding is at most
everything ever wrapped.  No condition on the unwrapped mint, its extensions, hooks or delegates. -/
theorem unwrapped_within_wrapped (h0 : Fresh s L0) (h : History cr ok L0 trace L) :
    totalUnwrapped s.W trace + supplyOf L s.W ≤ totalWrapped s.W trace := by
  induction h with
  | start => rw [supplyOf_blank h0.W]; exact Nat.le_refl _
  | step h h1 h2 ih =>
    have := h2.books h0 h h1
    simp only [totalUnwrapped, totalWrapped, List.map_cons, List.sum_cons] at ih ⊢
    omega

theorem HistoryCrediting.history {n : Nat} (h : HistoryCrediting cr ok s.u s.W L0 trace L n) :
    History cr ok L0 trace L := by
  induction h with
  | start => exact .start
  | step _ h1 h2 _ ih => exact .step ih h1 h2

/-- A step that is a Wrap of the pair. -/
theorem Step.wrapEff {bk : Bk} {amount : UInt64} (hok : ∀ act L, ok act L → bk → PDIdle cr s.u act L)
    (hi : Inv bk s L) (hf : Funds L) (h0 : ok act L) (hs : Step cr ok act L L')
    (hw : IsWrapOf s.W amount act) :
    ∃ x, Credits s.u s.W act L x ∧ x ≤ amount.toNat ∧ WrapEff bk s L L' x := by
  obtain ⟨env, accounts, rfl, hacc⟩ := hw
  have np := hok _ _ h0
  have hok' : ∀ act L, (ok act L ∧ Funds L) → (bk → PDIdle cr s.u act L) ∧ AllFunded L :=
    fun act L h => ⟨hok act L h.1, h.2.all⟩
  have fin : ∀ {hook : Ledger → Ledger}, env.cr = cr → (∀ k, Signs accounts k → CanSign cr k) →
      (∀ L1, Run cr (fun act L => ok act L ∧ Funds L) L1 (hook L1)) →
      processWrapHooked env accounts amount hook L = .ok L' →
      ∃ x, Credits s.u s.W (.tokenWrap env accounts (TokenWrapInstruction.wrap amount).pack) L x ∧
        x ≤ amount.toNat ∧ WrapEff bk s L L' x := by
    intro hook hcr hsg hh hx
    obtain ⟨m, p, fee, g1, g2, g3, g4, g5, g6⟩ := wrap_step_W hok' hi np hcr hsg hh hx hacc
    exact ⟨_, .inl ⟨env, accounts, amount, m, fee, rfl, hacc, g1, feeOf_isMintFee g2 g3 g4, rfl⟩,
      Nat.sub_le _ _, g6⟩
  have hs' := hs.funded hf
  clear hs
  generalize hact : Act.tokenWrap env accounts (TokenWrapInstruction.wrap amount).pack = act' at hs'
  cases hs' with
  | base h => subst hact; cases h
  | tokenWrap hcr hid hsg h hr =>
    cases hact
    rw [processInstruction_pack] at h
    exact fin (hook := id) hcr hsg (fun _ => .refl) (by rw [processWrapHooked_id]; exact h)
  | wrapHooked hcr hid hsg hhook h hr =>
    injection hact with h1 h2 h3
    subst h1 h2
    have := pack_injective h3
    injection this with h4
    subst h4
    exact fin hcr hsg hhook h

/-- What an action credits is determined by the state it starts in. -/
theorem Credits.unique {u W : Pubkey} {x y : Nat} (hx : Credits u W act L x) (hy : Credits u W act L y) :
    x = y := by
  rcases hx with ⟨env, acc, am, m, f, rfl, h1, h2, h3, rfl⟩ | ⟨hn, rfl⟩
  · rcases hy with ⟨env', acc', am', m', f', he, h1', h2', h3', rfl⟩ | ⟨hn, _⟩
    · injection he with e1 e2 e3
      subst e1 e2
      have := pack_injective e3
      injection this with e4
      subst e4
      rw [h2] at h2'; cases h2'
      rw [isMintFee_unique h3 h3']
    · exact absurd ⟨env, acc, rfl, h1⟩ (hn am)
  · rcases hy with ⟨env', acc', am', m', f', rfl, h1', _⟩ | ⟨_, rfl⟩
    · exact absurd ⟨env', acc', rfl, h1'⟩ (hn am')
    · rfl

/-- **C92** Every history credits some total, … -/
theorem credited_total_exists (h0 : Fresh s L0) (h : History cr ok L0 trace L) :
    ∃ n, HistoryCrediting cr ok s.u s.W L0 trace L n := by
  induction h with
  | start => exact ⟨0, .start⟩
  | step h h1 h2 ih =>
    rename_i tr act L1 L2
    obtain ⟨n, ih⟩ := ih
    by_cases hw : ∃ amount, IsWrapOf s.W amount act
    · obtain ⟨amount, hw⟩ := hw
      obtain ⟨x, hx, _⟩ := h2.wrapEff (bk := .off) (fun _ _ _ h => h.elim) (h.inv' h0)
        (h.funds h0.funds) h1 hw
      exact ⟨_, .step ih h1 h2 hx⟩
    · exact ⟨_, .step ih h1 h2 (.inr ⟨fun a ha => hw ⟨a, ha⟩, rfl⟩)⟩

/-- **C92** … at most what was wrapped and at least everything ever unwrapped plus what is still
outstanding; no condition on the unwrapped mint, its extensions, hooks or delegates. -/
theorem unwrapped_within_credited {n : Nat} (h0 : Fresh s L0)
    (h : HistoryCrediting cr ok s.u s.W L0 trace L n) :
    n ≤ totalWrapped s.W trace ∧ totalUnwrapped s.W trace + supplyOf L s.W ≤ n := by
  induction h with
  | start => rw [supplyOf_blank h0.W]; exact ⟨Nat.le_refl _, Nat.le_refl _⟩
  | step h h1 h2 hc ih =>
    rename_i tr act L1 L2 n x
    have hh := h.history
    simp only [totalUnwrapped, totalWrapped, List.map_cons, List.sum_cons] at ih ⊢
    obtain ⟨i1, i2⟩ := ih
    by_cases hw : ∃ amount, IsWrapOf s.W amount act
    · obtain ⟨amount, hw⟩ := hw
      obtain ⟨y, hy, hle, e⟩ := h2.wrapEff (bk := .off) (fun _ _ _ h => h.elim) (hh.inv' h0)
        (hh.funds h0.funds) h1 hw
      have := hc.unique hy
      obtain ⟨q1, q2⟩ := hw.wraps
      have := e.supply
      omega
    · have hx : x = 0 := hc.unique (.inr ⟨fun a ha => hw ⟨a, ha⟩, rfl⟩)
      have : supplyOf L2 s.W + act.unwraps s.W ≤ supplyOf L1 s.W := by
        by_cases hz : act.unwraps s.W = 0
        · rw [hz]
          cases hh.eff' h0 h1 h2 with
          | quiet h => have := h.supply; omega
          | sync _ _ _ h1 => omega
          | wrap amount x hw' => exact absurd ⟨amount, hw'⟩ hw
          | unwrap amount hu _ _ h1 => omega
        · exact Nat.le_of_eq (h2.unwraps hz)
      omega

/-- **C92** If no permanent delegate of the unwrapped mint acts, the escrows hold at least everything
that was ever credited by Wraps less everything that was ever unwrapped: whatever else happens, what
the Wraps put in leaves the escrows by Unwraps only. -/
theorem books_balance {n : Nat} (h0 : Fresh s L0)
    (h : HistoryCrediting cr (PDIdle cr s.u) s.u s.W L0 trace L n) :
    n ≤ escrowed s L + totalUnwrapped s.W trace := by
  induction h with
  | start => exact Nat.zero_le _
  | step h h1 h2 hc ih =>
    rename_i tr act L1 L2 n x
    have hh := h.history
    simp only [totalUnwrapped, List.map_cons, List.sum_cons] at ih ⊢
    unfold escrowed at ih ⊢
    by_cases hw : ∃ amount, IsWrapOf s.W amount act
    · obtain ⟨amount, hw⟩ := hw
      obtain ⟨y, hy, hle, e⟩ := h2.wrapEff (bk := .full) (fun _ _ h _ => h) (hh.invB h0)
        (hh.funds h0.funds) h1 hw
      have := hc.unique hy
      obtain ⟨q1, q2⟩ := hw.wraps
      have := e.recv trivial
      omega
    · have hx : x = 0 := hc.unique (.inr ⟨fun a ha => hw ⟨a, ha⟩, rfl⟩)
      cases hh.effB h0 h1 h2 with
      | quiet e =>
        have a1 := e.es trivial
        have a2 := e.et trivial
        omega
      | sync _ _ _ e1 e2 e3 => omega
      | wrap amount x hw' => exact absurd ⟨amount, hw'⟩ hw
      | unwrap amount hu _ _ e1 e2 e3 e4 =>
        obtain ⟨q1, q2⟩ := hu.unwraps
        omega

/-- **C92** In particular nobody can take out what nobody put in: as long as nothing was wrapped,
there is no supply and no Unwrap succeeds. -/
theorem nothing_from_nothing (h0 : Fresh s L0) (h : History cr ok L0 trace L)
    (hz : totalWrapped s.W trace = 0) :
    supplyOf L s.W = 0 ∧ totalUnwrapped s.W trace = 0 := by
  have := unwrapped_within_wrapped h0 h
  omega

end

/-! ## Concrete instance -/

namespace Example.Hist

-- the example history: 1000 wrapped, 300 unwrapped, 700 outstanding
example : totalWrapped s.W (.tokenWrap env unwrapAccs (TokenWrapInstruction.unwrap 300).pack :: tr7) = 1000 ∧
    totalUnwrapped s.W (.tokenWrap env unwrapAccs (TokenWrapInstruction.unwrap 300).pack :: tr7) = 300 ∧
    supplyOf L8 s.W = 700 := by decide +kernel

example : totalUnwrapped s.W
      (.tokenWrap env unwrapAccs (TokenWrapInstruction.unwrap 300).pack :: tr7) + supplyOf L8 s.W ≤
    totalWrapped s.W (.tokenWrap env unwrapAccs (TokenWrapInstruction.unwrap 300).pack :: tr7) :=
  unwrapped_within_wrapped fresh hist8

-- the Wraps of the history credited exactly 1000 in total, of which 300 were unwrapped
example : ∃ n, HistoryCrediting cr (PDIdle cr s.u) s.u s.W L0
      (.tokenWrap env unwrapAccs (TokenWrapInstruction.unwrap 300).pack :: tr7) L8 n ∧
    n = 1000 ∧ n ≤ escrowed s L8 + 300 := by
  obtain ⟨n, hn⟩ := credited_total_exists fresh ((hist8.plain fresh.funds plain).1)
  have h1 := unwrapped_within_credited fresh hn
  have h2 := books_balance fresh hn
  have e1 : totalWrapped s.W
      (.tokenWrap env unwrapAccs (TokenWrapInstruction.unwrap 300).pack :: tr7) = 1000 ∧
    totalUnwrapped s.W
      (.tokenWrap env unwrapAccs (TokenWrapInstruction.unwrap 300).pack :: tr7) = 300 ∧
    supplyOf L8 s.W = 700 := by decide +kernel
  rw [e1.1, e1.2.1, e1.2.2] at h1
  rw [e1.2.1] at h2
  exact ⟨n, hn, Nat.le_antisymm h1.1 h1.2, h2⟩

end Example.Hist

end TokenWrap
