import Verif.Props.Custody
import Verif.Props.Conserve
import Verif.Props.PostState
import Verif.Props.HistoryExample
/-!
# C108: wrapping wrapped tokens

A wrapped mint is itself a mint, so it can be wrapped again, by anybody, any number of times.  Each
such layer is backed by the one below, in every history and under no condition: a wrapped mint never
has a permanent delegate or a transfer fee.  Hence the tokens of every layer are backed by the tokens
locked in the bottom escrows, wrapping a wrapped token is exactly 1:1, and the holder of a token of a
higher layer can always get back down.
-/

set_option linter.unusedSimpArgs false

namespace TokenWrap

open scoped BigOperators

section
variable {cr : Crypto} {s s' s0 top : Setting cr} {ok : Act → Ledger → Prop} {L0 L L' : Ledger}
  {trace : List Act} {act : Act} {env : Env}

/-! ## Specification -/

/-- Nothing of the pair exists, and no token account of either token program names its wrapped mint. -/
structure Untouched (s : Setting cr) (L : Ledger) : Prop where
  fresh : Fresh s L
  noHolder : ∀ k t, isTokenProgram (L k).owner = true → (L k).data = .token t → t.mint ≠ s.W

/-- A tower of wrappings over the pair `s0`, of which nothing exists in `L0`: each pair wraps the
wrapped mint of the pair below. -/
inductive Tower (L0 : Ledger) (s0 : Setting cr) : Setting cr → Prop
  | base (h : Untouched s0 L0) : Tower L0 s0 s0
  | wrap {s s' : Setting cr} (below : Tower L0 s0 s) (h : Untouched s' L0) (hu : s'.u = s.W) :
      Tower L0 s0 s'

/-! ## Backing -/

/-- The invariant as a condition on a history. -/
theorem History.known (h0 : Fresh s L0) (h : History cr ok L0 trace L) :
    History cr (fun act L => ok act L ∧ Inv .off s L ∧ Funds L) L0 trace L := by
  induction h with
  | start => exact .start
  | step h hok hs ih =>
    exact .step ih ⟨hok, h.inv' h0, h.funds h0.funds⟩ (hs.known (h.inv' h0) (h.funds h0.funds))

/-- A wrapped mint has neither permanent delegate nor transfer fee. -/
theorem WrappedExts.plain {A W wp : Pubkey} {m : Mint} (h : WrappedExts A W wp m.exts) :
    m.permanentDelegate? = none ∧ m.transferFee? = none := by
  unfold Mint.permanentDelegate? Mint.transferFee?
  rcases h with ⟨_, h⟩ | ⟨_, h | ⟨md, h, _⟩⟩ <;> rw [h] <;> exact ⟨rfl, rfl⟩

theorem Inv.noPD {bk : Bk} (h : Inv bk s L) : NoPD s.W L := by
  intro m hm
  rcases h.w with ⟨hb, _⟩ | hw
  · rw [hb.2] at hm; cases hm
  · obtain ⟨x, hx, _, _, he⟩ := hw.mint
    cases Data.mint.inj (hx.symm.trans hm)
    exact he.plain.1

/-- No permanent delegate of a wrapped mint ever acts: there is none. -/
theorem History.wrapped_idle (h0 : Fresh s L0) (h : History cr ok L0 trace L) :
    History cr (PDIdle cr s.W) L0 trace L :=
  (h.known h0).weaken fun _ _ h => h.2.1.noPD.idle

/-- **C108** One layer: in every history, the tokens that wrap a wrapped token are backed by it, and the
wrapped tokens locked for that are part of its supply. -/
theorem wrapped_wrapping_backed (h : Untouched s L0) (h' : Untouched s' L0) (hu : s'.u = s.W)
    (hist : History cr ok L0 trace L) :
    supplyOf L s'.W ≤ escrowed s' L ∧ escrowed s' L ≤ supplyOf L s.W := by
  refine ⟨always_backed h'.fresh (hu ▸ hist.wrapped_idle h.fresh), ?_⟩
  have h1 := h.fresh.W_not_native
  have h2 := h.fresh.conserved h.noHolder
  rw [← hu] at h1 h2
  have h3 := escrowed_within_unwrapped_supply h'.fresh h1 h2 hist
  rw [hu, (wrapped_supply_exact h.fresh h.noHolder hist).2] at h3
  exact h3

theorem Tower.untouched (h : Tower L0 s0 top) : Untouched top L0 := by
  cases h with
  | base h => exact h
  | wrap _ h _ => exact h

theorem Tower.untouched_base (h : Tower L0 s0 top) : Untouched s0 L0 := by
  induction h with
  | base h => exact h
  | wrap _ _ _ ih => exact ih

/-- **C108** In every history, no layer of a tower has more tokens than a layer below. -/
theorem tower_supply (h : Tower L0 s0 top) (hist : History cr ok L0 trace L) :
    supplyOf L top.W ≤ supplyOf L s0.W := by
  induction h with
  | base => exact Nat.le_refl _
  | wrap below h hu ih =>
    have := wrapped_wrapping_backed below.untouched h hu hist
    omega

/-- **C108** If no permanent delegate of the bottom mint acts, the tokens of every layer are backed by
the bottom escrows. -/
theorem tower_backed (h : Tower L0 s0 top) (hist : History cr (PDIdle cr s0.u) L0 trace L) :
    supplyOf L top.W ≤ escrowed s0 L := by
  have h1 := tower_supply h hist
  have h2 := always_backed h.untouched_base.fresh hist
  unfold escrowed
  omega

/-- **C108** The same in every history whatsoever, for a bottom mint that starts without permanent
delegate and close authority. -/
theorem tower_backed_plain {p : Pubkey} {dec : UInt8} (h : Tower L0 s0 top)
    (hm : PlainMint p s0.u dec L0) (hist : History cr ok L0 trace L) :
    supplyOf L top.W ≤ balanceOf L (s0.escrowFor p) :=
  (tower_supply h hist).trans (always_backed_plain h.untouched_base.fresh hm hist)

/-! ## Exactly 1:1 -/

theorem Inv.mint_plain {bk : Bk} {m : Mint} (h : Inv bk s L) (hm : (L s.W).data = .mint m) :
    m.permanentDelegate? = none ∧ m.transferFee? = none := by
  rcases h.w with ⟨hb, _⟩ | hw
  · rw [hb.2] at hm; cases hm
  · obtain ⟨x, hx, _, _, he⟩ := hw.mint
    cases Data.mint.inj (hx.symm.trans hm)
    exact he.plain

theorem isMintFee_none {m : Mint} {epoch amount fee : Nat} (h : m.transferFee? = none)
    (hf : IsMintFee m epoch amount fee) : fee = 0 := by
  unfold IsMintFee at hf; rw [h] at hf; exact hf

/-- **C108** Wrapping wrapped tokens credits exactly what is taken: there is no fee, whatever fee the
bottom mint charges. -/
theorem wrapped_wrap_exact {amount : UInt64} {recipient wmint auth uprog wprog src umint escrow
    tauth : Meta} {rest : List Meta} (h0 : Fresh s L0) (hist : History cr ok L0 trace L)
    (hw : umint.key = s.W)
    (h : processInstruction env ([recipient, wmint, auth, uprog, wprog, src, umint, escrow, tauth] ++
      rest) (TokenWrapInstruction.wrap amount).pack L = .ok L') (hne : src.key ≠ escrow.key) :
    balanceOf L' src.key + amount.toNat = balanceOf L src.key ∧
    balanceOf L' escrow.key = balanceOf L escrow.key + amount.toNat ∧
    balanceOf L' recipient.key = balanceOf L recipient.key + amount.toNat ∧
    supplyOf L' wmint.key = supplyOf L wmint.key + amount.toNat := by
  obtain ⟨m, fee, hm, hf, hle, h1, h2, h3, h4⟩ := wrap_credits_exactly_what_escrow_receives h hne
  rw [hw] at hm
  have := isMintFee_none ((hist.inv' h0).mint_plain hm).2 hf
  subst this
  exact ⟨h1, h2, h3, h4⟩

/-- **C108** Unwrapping to a wrapped token pays exactly what is burned. -/
theorem wrapped_unwrap_exact {amount : UInt64} {escrow recipient auth umint wprog uprog holder wmint
    tauth : Meta} {rest : List Meta} (h0 : Fresh s L0) (hist : History cr ok L0 trace L)
    (hw : umint.key = s.W)
    (h : processInstruction env ([escrow, recipient, auth, umint, wprog, uprog, holder, wmint,
      tauth] ++ rest) (TokenWrapInstruction.unwrap amount).pack L = .ok L')
    (hwu : wmint.key ≠ umint.key) (hne : escrow.key ≠ recipient.key) :
    balanceOf L' holder.key + amount.toNat = balanceOf L holder.key ∧
    supplyOf L' wmint.key + amount.toNat = supplyOf L wmint.key ∧
    balanceOf L' escrow.key + amount.toNat = balanceOf L escrow.key ∧
    balanceOf L' recipient.key = balanceOf L recipient.key + amount.toNat := by
  obtain ⟨m, fee, hm, hf, hle, h1, h2, h3, h4⟩ := unwrap_pays_one_for_one h hwu hne
  rw [hw] at hm
  have := isMintFee_none ((hist.inv' h0).mint_plain hm).2 hf
  subst this
  exact ⟨h1, h2, h3, h4⟩

/-! ## Getting back down -/

/-- The escrow address of the other token program stays empty. -/
theorem upper_other_blank (h : Fresh s L0) (h' : Fresh s' L0) (hu : s'.u = s.W)
    (hist : History cr ok L0 trace L) : Blank L (s'.escrowOther s.wp) := by
  have hP : ∀ {act L L'}, (Inv .off s L ∧ Funds L) → BaseStep cr act L L' → Inv .off s L' ∧ Funds L' :=
    fun hp hb => ⟨(baseStep_safe hp.1 (fun h : False => h.elim) hp.2.all hb).inv, hp.2.baseStep hb⟩
  have hPt : ∀ {env : Env} {accounts a m amount fee L L'}, (Inv .off s L ∧ Funds L) →
      (∀ n, 0 < env.rentMin n) → (∀ k, Signs accounts k → CanSign cr k) →
      TokenWrap.wrapTransfer env accounts a m amount fee L = .ok L' → Inv .off s L' ∧ Funds L' :=
    fun hp hr hs hw => ⟨(wrapTransfer_safe (S := fun _ => True) hp.1 (fun h : False => h.elim)
      (fun _ _ => trivial) hs hw).inv, hp.2.wrapTransfer hr hw⟩
  have hPs : ∀ {act L L'}, (Inv .off s L ∧ Funds L) →
      Step cr (fun act L => ok act L ∧ Inv .off s L ∧ Funds L) act L L' → Inv .off s L' ∧ Funds L' :=
    fun {act L _} hp hs => ⟨(step_eff' (ok := fun _ _ => True) (fun _ _ _ (h : False) => h.elim) hp.1 hp.2 trivial
      (hs.weaken fun _ _ _ => trivial)).inv, hp.2.step hs⟩
  have hno : ∀ {q E}, Reserved cr (.ata s'.A s'.u q) E → s.wp ≠ q → (q = splTokenId ∨ q = token2022Id) →
      ∀ L, (Inv .off s L ∧ Funds L) →
      ∀ wallet mint prog, associatedTokenAddress cr wallet mint prog = some E →
      (L mint).owner ≠ prog := by
    intro q E r hpq hq L hL wallet mint prog ha hown
    have := r.unique (j := .ata wallet mint prog) ha
    injection this with _ h2 h3
    subst h2 h3
    rw [hu] at hown
    rcases hL.1.w with ⟨hb, _⟩ | hw
    · rw [hb.1] at hown
      rcases hq with h | h <;> rw [h] at hown
      · exact spl_ne_system hown.symm
      · exact t22_ne_system hown.symm
    · exact hpq (hw.owner.symm.trans hown)
  have hk := hist.known h
  unfold Setting.escrowOther
  by_cases hp : s.wp = splTokenId
  · rw [if_pos hp]
    exact (hk.blankS s'.rEt ⟨_, _, _, rfl⟩ s'.Et_noSign hP hPt hPs
      (hno s'.rEt (by rw [hp]; exact spl_ne_2022) (.inr rfl)) h'.Et ⟨h.inv, h.funds⟩).1
  · rw [if_neg hp]
    exact (hk.blankS s'.rEs ⟨_, _, _, rfl⟩ s'.Es_noSign hP hPt hPs
      (hno s'.rEs hp (.inl rfl)) h'.Es ⟨h.inv, h.funds⟩).1

/-- **C108** In every history the supply of a wrapping of a wrapped mint is covered by the one escrow
account under the token program of that wrapped mint. -/
theorem upper_backed (h : Fresh s L0) (h' : Fresh s' L0) (hu : s'.u = s.W)
    (hist : History cr ok L0 trace L) : supplyOf L s'.W ≤ balanceOf L (s'.escrowFor s.wp) := by
  have h1 := always_backed h' (hu ▸ hist.wrapped_idle h)
  rw [← Setting.escrowed_eq (upper_other_blank h h' hu hist)]
  exact h1

/-- Tokens in the escrow of the layer above and in another account are together within the supply. -/
theorem room_below {k : Pubkey} {t e : TokenAcct} (hi : Inv .off s L)
    (hk : HoldsWrapped s L k t) (he : HoldsWrapped s L (s'.escrowFor s.wp) e)
    (hne : k ≠ s'.escrowFor s.wp) : t.amount + e.amount ≤ u64Max := by
  classical
  have h1 := hi.claims {k, s'.escrowFor s.wp}
  rw [Finset.sum_pair hne, claimOf_holds hk, claimOf_holds he] at h1
  have h2 : supplyOf L s.W ≤ u64Max := by
    rcases hi.w with ⟨hb, _⟩ | hw
    · rw [supplyOf_blank hb]; exact Nat.zero_le _
    · obtain ⟨m, hm, _, hs, _⟩ := hw.mint
      rw [supplyOf_mint hm]; exact hs
  omega

/-- **C108** One layer down, in every history and with no condition on any mint: whoever may spend tokens
of the upper layer can unwrap any positive part of them into an unfrozen account of the wrapped mint
below, as long as the escrow is not frozen (which only the freeze authority of that mint could do) and
the token program does not veto.  The recipient always has room. -/
theorem upper_redeemable {holder mid tauth : Pubkey} {members : List Pubkey} {t tm : TokenAcct}
    {amount : UInt64} (h : Fresh s L0) (h' : Fresh s' L0) (hu : s'.u = s.W)
    (hist : History cr ok L0 trace L) (hcr : env.cr = cr) (hid : env.programId = crateId)
    (hrej : ∀ p ix sg L, env.reject p ix sg L = none)
    (hold : HoldsWrapped s' L holder t) (thawed : t.frozen = false)
    (pos : amount ≠ 0) (enough : amount.toNat ≤ t.amount)
    (spend : CanSpend t none tauth amount.toNat) (approval : BuiltApproval s'.wp L tauth members)
    (usable : EscrowUsable L (s'.escrowFor s.wp))
    (recv : HoldsWrapped s L mid tm) (rThawed : tm.frozen = false) (notEscrow : mid ≠ s'.escrowFor s.wp) :
    ∃ L', processInstruction env
      (Build.unwrap crateId (s'.escrowFor s.wp) mid s'.A s.W s'.wp s.wp holder s'.W tauth members
        amount).accounts
      (Build.unwrap crateId (s'.escrowFor s.wp) mid s'.A s.W s'.wp s.wp holder s'.W tauth members
        amount).data L = .ok L' := by
  have hi := hist.inv' h
  have hi' := (hu ▸ hist.wrapped_idle h : History cr (PDIdle cr s'.u) L0 trace L).invB h'
  have hb := upper_backed h h' hu hist
  have hle := hi'.holder_le hold
  have hpos : 0 < amount.toNat := by
    rcases Nat.eq_zero_or_pos amount.toNat with h | h
    · exact absurd (UInt64.toNat_inj.1 (by simpa using h)) pos
    · exact h
  obtain ⟨eo, e, ed, em, _, _, eam⟩ := hi'.escrow_token (p := s.wp) s.wpOk (by omega)
  have hroom := room_below (s' := s') hi recv ⟨eo, ed, em.trans hu⟩ notEscrow
  have hw : WrappedOk s L := by
    rcases hi.w with ⟨h1, _⟩ | h1
    · have := (hi.holder_le recv)
      have h3 := hi.holder_le (s := s) ⟨eo, ed, em.trans hu⟩
      rw [supplyOf_blank h1] at h3
      omega
    · exact h1
  obtain ⟨m, hm, _, _, he⟩ := hw.mint
  have := hi'.redeemable (env := env) (p := s.wp) (rcp := mid) (m := m) (hist.funds h.funds).all s.wpOk
    (by rw [hu]; exact hw.owner) hb hcr hid hrej hold thawed pos enough spend approval
    (by rw [hu]; exact hm) (by
      intro hs
      rcases he with ⟨_, he⟩ | ⟨he, _⟩
      · exact he
      · rw [hs] at he; exact absurd he spl_ne_2022)
    (by intro c hc; rw [he.plain.2] at hc; cases hc) usable
    ⟨tm, recv.1, recv.2.1, by rw [hu]; exact recv.2.2, rThawed, by omega, .inl he.plain.2⟩
  rwa [hu] at this

/-! ## All the way down -/

theorem BuiltApproval.same {p a : Pubkey} {ms : List Pubkey} (h : BuiltApproval p L a ms)
    (hk : L' a = L a ∨ ((∀ x, (L a).data ≠ .multisig x) ∧ ∀ x, (L' a).data ≠ .multisig x)) :
    BuiltApproval p L' a ms := by
  rcases hk with hk | ⟨h1, h2⟩
  · unfold BuiltApproval; rw [hk]; exact h
  · rcases h with ⟨h3, _⟩ | ⟨x, _, h3, _⟩
    · exact .inl ⟨h3, h2⟩
    · exact absurd h3 (h1 x)

theorem ledgerAfterUnwrap_other {holder W E rcp auth A k : Pubkey} {h e d : TokenAcct} {w : Mint}
    {hpd epd : Option Pubkey} {amount fee : Nat}
    (hk : k ≠ holder ∧ k ≠ W ∧ k ≠ E ∧ k ≠ rcp) :
    ledgerAfterUnwrap L holder W E rcp h e d w hpd epd auth A amount fee k = L k := by
  unfold ledgerAfterUnwrap
  rw [if_neg hk.1, if_neg hk.2.1, if_neg hk.2.2.1, if_neg hk.2.2.2]

theorem ledgerAfterUnwrap_rcp {holder W E rcp auth A : Pubkey} {h e d : TokenAcct} {w : Mint}
    {hpd epd : Option Pubkey} {amount fee : Nat}
    (hk : rcp ≠ holder ∧ rcp ≠ W ∧ rcp ≠ E) :
    ledgerAfterUnwrap L holder W E rcp h e d w hpd epd auth A amount fee rcp =
      ⟨(L rcp).lamports + nativeLamports e amount, (L rcp).owner, .token (receivedBy d amount fee)⟩ := by
  unfold ledgerAfterUnwrap
  rw [if_neg hk.1, if_neg hk.2.1, if_neg hk.2.2, if_pos rfl]

/-- No account is or becomes a multisig by an Unwrap. -/
theorem ledgerAfterUnwrap_multisig {holder W E rcp auth A : Pubkey} {h e d : TokenAcct} {w : Mint}
    {hpd epd : Option Pubkey} {amount fee : Nat} (hh : (L holder).data = .token h)
    (hw : (L W).data = .mint w) (he : (L E).data = .token e) (hd : (L rcp).data = .token d)
    (k : Pubkey) :
    ledgerAfterUnwrap L holder W E rcp h e d w hpd epd auth A amount fee k = L k ∨
    ((∀ x, (L k).data ≠ .multisig x) ∧
      ∀ x, (ledgerAfterUnwrap L holder W E rcp h e d w hpd epd auth A amount fee k).data ≠ .multisig x) := by
  unfold ledgerAfterUnwrap
  by_cases h1 : k = holder
  · rw [if_pos h1]
    right; constructor
    · intro x; rw [h1, hh]; simp
    · intro x; simp
  rw [if_neg h1]
  by_cases h2 : k = W
  · rw [if_pos h2]
    right; constructor
    · intro x; rw [h2, hw]; simp
    · intro x; simp
  rw [if_neg h2]
  by_cases h3 : k = E
  · rw [if_pos h3]
    right; constructor
    · intro x; rw [h3, he]; simp
    · intro x; simp
  rw [if_neg h3]
  by_cases h4 : k = rcp
  · rw [if_pos h4]
    right; constructor
    · intro x; rw [h4, hd]; simp
    · intro x; simp
  exact .inl (if_neg h4)

/-- **C108** All the way down, in every history whatsoever: if the bottom mint `s.u` started without
permanent delegate and close authority, tokens that wrap its wrapped token can be turned back into
bottom tokens by two Unwraps, the first into any usable account `mid` of the wrapped mint.  The
recipient gets the amount less the bottom mint's transfer fee; both supplies shrink by the amount;
`mid` ends as it was. -/
theorem redeemable_to_the_bottom {holder mid rcp tauth tauth2 p : Pubkey} {dec : UInt8}
    {members members2 : List Pubkey} {t tm : TokenAcct} {m : Mint} {amount : UInt64}
    (h : Fresh s L0) (h' : Fresh s' L0) (hu : s'.u = s.W) (hm : PlainMint p s.u dec L0)
    (hist : History cr ok L0 trace L)
    (hcr : env.cr = cr) (hid : env.programId = crateId) (hr : ∀ n, 0 < env.rentMin n)
    (hrej : ∀ p ix sg L, env.reject p ix sg L = none)
    (hold : HoldsWrapped s' L holder t) (thawed : t.frozen = false)
    (pos : amount ≠ 0) (enough : amount.toNat ≤ t.amount)
    (spend : CanSpend t none tauth amount.toNat) (approval : BuiltApproval s'.wp L tauth members)
    (usable : EscrowUsable L (s'.escrowFor s.wp))
    (recv : HoldsWrapped s L mid tm) (mThawed : tm.frozen = false) (notEscrow : mid ≠ s'.escrowFor s.wp)
    (sign : ∀ k, k = tauth ∨ k ∈ members → CanSign cr k)
    (spend2 : CanSpend tm none tauth2 amount.toNat) (approval2 : BuiltApproval s.wp L tauth2 members2)
    (umint : (L s.u).data = .mint m) (spl : p = splTokenId → m.exts = []) (fees : FeesValid m)
    (usable2 : EscrowUsable L (s.escrowFor p))
    (recv2 : CanReceive L p s.u rcp m amount.toNat) (notEscrow2 : rcp ≠ s.escrowFor p) :
    ∃ L1 L2 fee, processInstruction env
        (Build.unwrap crateId (s'.escrowFor s.wp) mid s'.A s.W s'.wp s.wp holder s'.W tauth members
          amount).accounts
        (Build.unwrap crateId (s'.escrowFor s.wp) mid s'.A s.W s'.wp s.wp holder s'.W tauth members
          amount).data L = .ok L1 ∧
      processInstruction env
        (Build.unwrap crateId (s.escrowFor p) rcp s.A s.u s.wp p mid s.W tauth2 members2 amount).accounts
        (Build.unwrap crateId (s.escrowFor p) rcp s.A s.u s.wp p mid s.W tauth2 members2 amount).data L1 =
          .ok L2 ∧
      IsMintFee m env.epoch amount.toNat fee ∧ fee ≤ amount.toNat ∧
      balanceOf L2 rcp = balanceOf L rcp + (amount.toNat - fee) ∧
      balanceOf L1 holder + amount.toNat = balanceOf L holder ∧
      balanceOf L2 mid = balanceOf L mid ∧
      supplyOf L1 s'.W + amount.toNat = supplyOf L s'.W ∧
      supplyOf L2 s.W + amount.toNat = supplyOf L s.W := by
  obtain ⟨L1, hL1⟩ := upper_redeemable h h' hu hist hcr hid hrej hold thawed pos enough spend approval
    usable recv mThawed notEscrow
  have hWW : s'.W ≠ s.W := by rw [← hu]; exact s'.uFree.1.symm
  have huW' : s.u ≠ s'.W := by
    intro e
    obtain ⟨_, _, m0, hm0, _⟩ := hm
    rw [e, h'.W.2] at hm0; cases hm0
  have hstep : Step cr (fun _ _ => True) (.tokenWrap env _ _) L L1 := .tokenWrap hcr hid (by
    rintro k ⟨x, hx, rfl, hs⟩
    simp only [Build.unwrap, List.mem_append, List.mem_cons, List.not_mem_nil, or_false,
      List.mem_map] at hx
    rcases hx with (rfl | rfl | rfl | rfl | rfl | rfl | rfl | rfl | rfl) | ⟨y, hy, rfl⟩ <;>
      first
      | exact sign _ (.inr hy)
      | exact sign _ (.inl rfl)
      | cases hs) hL1 hr
  have hist1 : History cr (fun _ _ => True) L0 _ L1 :=
    (hist.weaken fun _ _ _ => trivial).step trivial hstep
  have hx := hL1
  simp only [Build.unwrap] at hx
  obtain ⟨e1, e2, e3, e4⟩ := wrapped_unwrap_exact h hist rfl hx hWW (Ne.symm notEscrow)
  obtain ⟨h0, e, d, m1, w, fee1, g1, g2, g3, g4, g5, g6, _, _, _, _, hL⟩ :=
    unwrap_post_state hx hWW notEscrow
  dsimp only [Meta.rw, Meta.ro] at g1 g2 g3 g4 g5 hL e1 e2 e3 e4
  obtain rfl := Data.token.inj (g1.symm.trans hold.2.1)
  obtain rfl := Data.token.inj (g3.symm.trans recv.2.1)
  have hfee1 := isMintFee_none ((hist.inv' h).mint_plain g4).2 g6
  have hE : e.mint = s.W := by
    have hi' := hist.inv' h'
    obtain ⟨_, e0, he0, hem, _⟩ := hi'.escrow_token (p := s.wp) s.wpOk (by
      have hb := upper_backed h h' hu hist
      have := hi'.holder_le hold
      have : 0 < amount.toNat := by
        rcases Nat.eq_zero_or_pos amount.toNat with h | h
        · exact absurd (UInt64.toNat_inj.1 (by simpa using h)) pos
        · exact h
      omega)
    obtain rfl := Data.token.inj (g2.symm.trans he0)
    rw [hem, hu]
  -- what the second Unwrap reads is untouched, except `mid`
  have tokU : ∀ {k : Pubkey} {x : TokenAcct}, (L k).data = .token x → x.mint = s.u → L1 k = L k := by
    intro k x hk hxm
    rw [hL]
    refine ledgerAfterUnwrap_other ⟨?_, ?_, ?_, ?_⟩
    · rintro rfl
      obtain rfl := Data.token.inj (hk.symm.trans g1)
      exact huW' (hxm.symm.trans hold.2.2)
    · rintro rfl; rw [g5] at hk; cases hk
    · rintro rfl
      obtain rfl := Data.token.inj (hk.symm.trans g2)
      exact s.uFree.1 (hxm.symm.trans hE)
    · rintro rfl
      obtain rfl := Data.token.inj (hk.symm.trans g3)
      exact s.uFree.1 (hxm.symm.trans recv.2.2)
  have u1 : L1 s.u = L s.u := by
    rw [hL]
    refine ledgerAfterUnwrap_other ⟨?_, huW', ?_, ?_⟩
    · intro q; rw [q, g1] at umint; cases umint
    · intro q; rw [q, g2] at umint; cases umint
    · intro q; rw [q, g3] at umint; cases umint
  have mid1 : L1 mid = ⟨(L mid).lamports + nativeLamports e amount.toNat, (L mid).owner,
      .token (receivedBy d amount.toNat fee1)⟩ := by
    rw [hL]
    refine ledgerAfterUnwrap_rcp ⟨?_, ?_, notEscrow⟩
    · rintro rfl
      obtain rfl := Data.token.inj (g1.symm.trans g3)
      exact hWW (hold.2.2.symm.trans recv.2.2)
    · rintro rfl; rw [g5] at g3; cases g3
  have hpos2 : amount.toNat ≤ (receivedBy d amount.toNat fee1).amount := by
    rw [hfee1]; unfold receivedBy; dsimp only; omega
  obtain ⟨dr, r1, r2, r3, r4, r5, r6⟩ := recv2.acct
  have rcp1 := tokU r2 r3
  have usable2' : EscrowUsable L1 (s.escrowFor p) := by
    intro x hx1
    have hi := hist.inv' h
    have hp := hm.1
    have key : EscrowOk s.u s.A p (s.escrowFor p) L := by
      unfold Setting.escrowFor
      rcases hp with rfl | rfl
      · rw [if_pos rfl]; exact hi.es
      · rw [if_neg (Ne.symm spl_ne_2022)]; exact hi.et
    rcases key with hb | ⟨_, y, hy, hym, _⟩
    · have : L1 (s.escrowFor p) = L (s.escrowFor p) := by
        rw [hL]
        refine ledgerAfterUnwrap_other ⟨?_, ?_, ?_, ?_⟩ <;> intro q
        · rw [q] at hb; rw [hb.2] at g1; cases g1
        · rw [q] at hb; rw [hb.2] at g5; cases g5
        · rw [q] at hb; rw [hb.2] at g2; cases g2
        · rw [q] at hb; rw [hb.2] at g3; cases g3
      rw [this, hb.2] at hx1; cases hx1
    · rw [tokU hy hym, hy] at hx1
      cases hx1
      exact usable2 _ hy
  obtain ⟨L2, hL2⟩ := always_redeemable_plain (env := env) (p := p) (holder := mid) (rcp := rcp)
    (tauth := tauth2) (members := members2) (t := receivedBy d amount.toNat fee1) (amount := amount)
    (m := m) h hm hist1 hcr hid hrej
    ⟨by rw [mid1]; exact recv.1, by rw [mid1], recv.2.2⟩ mThawed pos hpos2 spend2
    (approval2.same (by rw [hL]; exact ledgerAfterUnwrap_multisig g1 g5 g2 g3 _))
    (by rw [u1]; exact umint) spl fees usable2'
    ⟨dr, by rw [rcp1]; exact r1, by rw [rcp1]; exact r2, r3, r4, r5, r6⟩
  have hy := hL2
  simp only [Build.unwrap] at hy
  obtain ⟨m2, fee, q1, q2, q3, q4, q5, q6, q7⟩ :=
    unwrap_pays_one_for_one hy (by dsimp only [Meta.rw, Meta.ro]; exact s.uFree.1.symm)
      (by dsimp only [Meta.rw, Meta.ro]; exact Ne.symm notEscrow2)
  dsimp only [Meta.rw, Meta.ro] at q1 q4 q5 q6 q7
  rw [u1, umint] at q1
  obtain rfl := Data.mint.inj q1
  have sW : supplyOf L1 s.W = supplyOf L s.W := by
    unfold supplyOf
    rw [hL, ledgerAfterUnwrap_other ⟨?_, Ne.symm hWW, ?_, ?_⟩]
    · intro q; rw [← q, g4] at g1; cases g1
    · intro q; rw [← q, g4] at g2; cases g2
    · intro q; rw [← q, g4] at g3; cases g3
  refine ⟨L1, L2, fee, hL1, hL2, q2, q3, ?_, e1, ?_, e2, ?_⟩
  · rw [q7]; unfold balanceOf; rw [rcp1]
  · omega
  · rw [← sW]; exact q5

end

/-! ## A concrete tower: an SPL Token mint, wrapped as Token-2022, wrapped again as SPL Token -/

namespace Example.Hist.Tower

open TokenWrap.Example (ok get get_eq)

def s3 : Setting cr where
  u := W
  wp := splTokenId
  W := W3
  A := A3
  B := B3
  Es := Es3
  Et := Et3
  wpOk := .inl rfl
  rW := reserved (by simp [table]) (by decide +kernel) (by decide +kernel)
  rA := reserved (by simp [table]) (by decide +kernel) (by decide +kernel)
  rB := reserved (by simp [table]) (by decide +kernel) (by decide +kernel)
  rEs := reserved (by simp [table]) (by decide +kernel) (by decide +kernel)
  rEt := reserved (by simp [table]) (by decide +kernel) (by decide +kernel)
  uFree := by decide +kernel
  aFree := by decide +kernel
  wFree := by decide +kernel

def rcp3 : Pubkey := .lit 58

theorem noHolder {w : Pubkey} (hw : w ≠ u ∧ w ∉ nativeMints) (k : Pubkey) (t : TokenAcct)
    (hd : (L0 k).data = .token t) : t.mint ≠ w := by
  rcases L0_token hd with rfl | rfl
  · have : (L0 src).data = .token (TokenWrap.Example.acct u user 5000 []) := by decide +kernel
    rw [this] at hd; cases hd
    exact fun h => hw.1 h.symm
  · have : (L0 sol).data = .token solAcct := by decide +kernel
    rw [this] at hd; cases hd
    rintro rfl
    exact hw.2 (by decide +kernel)

theorem untouched : Untouched s L0 := ⟨fresh, fun k t _ hd => noHolder (by decide +kernel) k t hd⟩

theorem untouched3 : Untouched s3 L0 where
  fresh :=
    { W := by unfold Blank; decide +kernel
      A := by unfold Blank; decide +kernel
      B := by unfold Blank; decide +kernel
      Es := by unfold Blank; decide +kernel
      Et := by unfold Blank; decide +kernel
      noHolder := fun k t _ hd => noHolder (by decide +kernel) k t hd
      funds := L0_funds }
  noHolder := fun k t _ hd => noHolder (by decide +kernel) k t hd

theorem tower : Tower L0 s s3 := .wrap (.base untouched) untouched3 rfl

def mintAccs3 : List Meta := (Build.createMint crateId W3 B3 W splTokenId false).accounts
def initIx3 : TokenIx := .initializeAccount3 rcp3 W3 user []
def wrapAccs3 : List Meta :=
  (Build.wrap crateId rcp3 W3 A3 token2022Id splTokenId rcp W Et3 user [] 400).accounts

def T1 : Ledger := fun k => if k ∈ [W3, B3, rcp3] then { L0 k with lamports := 200 } else L0 k
def T2 := get (ataCreate env A u splTokenId T1)
def T3 := get (processInstruction env mintAccs (TokenWrapInstruction.createMint false).pack T2)
def T4 := get (ataCreate env A3 W token2022Id T3)
def T5 := get (processInstruction env mintAccs3 (TokenWrapInstruction.createMint false).pack T4)
def T6 := get (sysAllocate (fun k => k = rcp) rcp 165 T5)
def T7 := get (sysAssign (fun k => k = rcp) rcp token2022Id T6)
def T8 := get (tokenExec env token2022Id initIx (fun _ => false) T7)
def T9 := get (sysAllocate (fun k => k = rcp3) rcp3 165 T8)
def T10 := get (sysAssign (fun k => k = rcp3) rcp3 splTokenId T9)
def T11 := get (tokenExec env splTokenId initIx3 (fun _ => false) T10)
def T12 := get (processInstruction env wrapAccs (TokenWrapInstruction.wrap 1000).pack T11)
def T13 := get (processInstruction env wrapAccs3 (TokenWrapInstruction.wrap 400).pack T12)

theorem T1_lamports (k : Pubkey) : (T1 k).lamports ≤ u64Max := by
  unfold T1
  split
  · show 200 ≤ u64Max; decide
  · exact L0_lamports k

theorem T2_lamports (k : Pubkey) : (T2 k).lamports ≤ u64Max := by
  have h := ataCreate_ok (env := env) (wallet := A) (mint := u) (prog := splTokenId) (k := Es)
    (m := TokenWrap.Example.uMint []) (L := T1) (.inl rfl) (by decide +kernel) (by decide +kernel)
    (by decide +kernel) (by decide +kernel) (by decide +kernel) (fun _ => rfl)
  generalize hacc : Account.mk _ _ _ = acc at h
  have h1 : T2 = T1.set Es acc := by unfold T2; rw [h]; rfl
  rw [h1]
  by_cases hk : k = Es
  · subst hk
    rw [← h1]; decide +kernel
  · rw [Ledger.set_ne _ _ hk]; exact T1_lamports k

variable {ok' : Act → Ledger → Prop}

theorem st3 : Step cr ok' (.tokenWrap env mintAccs (TokenWrapInstruction.createMint false).pack) T2 T3 :=
  .tokenWrap rfl rfl (signs_of (by decide +kernel)) (get_eq (by decide +kernel)) rent_pos

theorem T3_lamports (k : Pubkey) : (T3 k).lamports ≤ u64Max := by
  have h : processInstruction env mintAccs (TokenWrapInstruction.createMint false).pack T2 = .ok T3 :=
    get_eq (by decide +kernel)
  by_cases h1 : k = W
  · subst h1; decide +kernel
  by_cases h2 : k = B
  · subst h2; decide +kernel
  simp only [mintAccs, Build.createMint] at h
  obtain ⟨_, _, _, _, _, _, _, hf⟩ := createMint_creates (rest := []) h (by decide +kernel)
    (by decide +kernel)
  rw [hf k (by simpa using ⟨h1, h2⟩)]; exact T2_lamports k

theorem hist : ∃ trace, History cr (fun _ _ => True) L0 trace T12 := by
  refine ⟨_, .step (.step (.step (.step (.step (.step (.step (.step (.step (.step (.step (.step .start
    trivial (act := .lamports) (.base (.lamports (L' := T1) ?_ ?_))) trivial
    (.base (.createAta (L' := T2) rfl ⟨by decide, T1_lamports⟩ (get_eq (by decide +kernel)) rent_pos)))
    trivial st3) trivial
    (.base (.createAta (L' := T4) rfl ⟨by decide +kernel, T3_lamports⟩ (get_eq (by decide +kernel)) rent_pos)))
    trivial (.tokenWrap (L' := T5) (accounts := mintAccs3) (data := (TokenWrapInstruction.createMint false).pack)
      rfl rfl (signs_of (by decide +kernel)) (get_eq (by decide +kernel)) rent_pos))
    trivial (.base (.allocate (key := rcp) (space := 165) (L' := T6) (.keypair (by decide +kernel)) (get_eq (by decide +kernel)))))
    trivial (.base (.assign (key := rcp) (owner := token2022Id) (L' := T7) (.keypair (by decide +kernel))
      ⟨List.replicate 165 0, by decide +kernel, by decide +kernel⟩ (get_eq (by decide +kernel)))))
    trivial (.base (.token (ix := initIx) (signed := fun _ => false) (L' := T8) (prog := token2022Id) (by decide) (by simp)
      (get_eq (by decide +kernel)) rent_pos)))
    trivial (.base (.allocate (key := rcp3) (space := 165) (L' := T9) (.keypair (by decide +kernel)) (get_eq (by decide +kernel)))))
    trivial (.base (.assign (key := rcp3) (owner := splTokenId) (L' := T10) (.keypair (by decide +kernel))
      ⟨List.replicate 165 0, by decide +kernel, by decide +kernel⟩ (get_eq (by decide +kernel)))))
    trivial (.base (.token (ix := initIx3) (signed := fun _ => false) (L' := T11) (prog := splTokenId) (by decide) (by simp)
      (get_eq (by decide +kernel)) rent_pos)))
    trivial (.tokenWrap (L' := T12) (accounts := wrapAccs) (data := (TokenWrapInstruction.wrap 1000).pack)
      rfl rfl (signs_of (by decide +kernel)) (get_eq (by decide +kernel)) rent_pos)⟩
  · intro k; unfold T1; split <;> exact ⟨rfl, rfl⟩
  · intro k hk
    exfalso
    revert hk
    unfold T1
    split
    · rename_i h
      simp only [List.mem_cons, List.not_mem_nil, or_false] at h
      rcases h with rfl | rfl | rfl <;> decide +kernel
    · exact Nat.lt_irrefl _

theorem st13 : Step cr ok' (.tokenWrap env wrapAccs3 (TokenWrapInstruction.wrap 400).pack) T12 T13 :=
  .tokenWrap rfl rfl (signs_of (by decide +kernel)) (get_eq (by decide +kernel)) rent_pos

theorem hist13 : ∃ trace, History cr (fun _ _ => True) L0 trace T13 := by
  obtain ⟨_, h⟩ := hist
  exact ⟨_, h.step trivial st13⟩

-- 1000 tokens wrapped, 400 of them wrapped again
example : supplyOf T13 W3 = 400 ∧ escrowed s3 T13 = 400 ∧ supplyOf T13 W = 1000 ∧ escrowed s T13 = 1000 ∧
    balanceOf T13 rcp = 600 ∧ balanceOf T13 rcp3 = 400 := by decide +kernel

example : supplyOf T13 s3.W ≤ escrowed s3 T13 ∧ escrowed s3 T13 ≤ supplyOf T13 s.W := by
  obtain ⟨_, h⟩ := hist13
  exact wrapped_wrapping_backed untouched untouched3 rfl h

example : supplyOf T13 s3.W ≤ balanceOf T13 (s.escrowFor splTokenId) := by
  obtain ⟨_, h⟩ := hist13
  exact tower_backed_plain tower plain h

theorem wrap13 : processInstruction env wrapAccs3 (TokenWrapInstruction.wrap 400).pack T12 = .ok T13 :=
  get_eq (by decide +kernel)

-- the second Wrap credits exactly 400 (`hist`, `wrap13`: it is possible and succeeds)
example {Y X : Ledger} {trace : List Act} (h : History cr (fun _ _ => True) L0 trace Y)
    (hw : processInstruction env wrapAccs3 (TokenWrapInstruction.wrap 400).pack Y = .ok X) :
    supplyOf X W3 = supplyOf Y W3 + 400 := by
  simp only [wrapAccs3, Build.wrap] at hw
  have := wrapped_wrap_exact (s := s) (rest := []) fresh h rfl hw (by decide +kernel)
  exact this.2.2.2

theorem not_ms {L : Ledger} (h : (L user).data = .bytes []) : BuiltApproval p L user [] :=
  .inl ⟨rfl, fun ms => by rw [h]; simp⟩

-- all the way down: 150 of the 400 doubly wrapped tokens become bottom tokens again
example : ∃ L1 L2 fee, processInstruction env
      (Build.unwrap crateId Et3 rcp A3 W splTokenId token2022Id rcp3 W3 user [] 150).accounts
      (Build.unwrap crateId Et3 rcp A3 W splTokenId token2022Id rcp3 W3 user [] 150).data T13 = .ok L1 ∧
    processInstruction env
      (Build.unwrap crateId Es src A u token2022Id splTokenId rcp W user [] 150).accounts
      (Build.unwrap crateId Es src A u token2022Id splTokenId rcp W user [] 150).data L1 = .ok L2 ∧
    balanceOf L2 src = balanceOf T13 src + (150 - fee) := by
  obtain ⟨_, h⟩ := hist13
  have d3 : (T13 rcp3).data = .token (TokenWrap.Example.acct W3 user 400 []) := by decide +kernel
  have d1 : (T13 rcp).data = .token (TokenWrap.Example.acct W user 600 []) := by decide +kernel
  have dE : (T13 (s3.escrowFor s.wp)).data = .token (TokenWrap.Example.acct W A3 400 [.immutableOwner]) := by
    decide +kernel
  have dE2 : (T13 (s.escrowFor splTokenId)).data = .token (TokenWrap.Example.acct u A 1000 []) := by
    decide +kernel
  obtain ⟨L1, L2, fee, h1, h2, _, _, h3, _⟩ := redeemable_to_the_bottom (s := s) (s' := s3)
    (env := env) (holder := rcp3) (mid := rcp) (rcp := src) (tauth := user) (tauth2 := user)
    (members := []) (members2 := []) (amount := 150) (p := splTokenId) (dec := 6)
    (m := TokenWrap.Example.uMint []) fresh untouched3.fresh rfl plain h rfl rfl rent_pos
    (fun _ _ _ _ => rfl) ⟨by decide +kernel, d3, rfl⟩ rfl (by decide) (by decide)
    (.inr (.inr ⟨by decide, rfl⟩)) (not_ms (by decide +kernel))
    (by intro e he; rw [dE] at he; cases he; rfl)
    ⟨by decide +kernel, d1, rfl⟩ rfl (by decide +kernel)
    (by
      rintro k (rfl | hk)
      · exact .keypair (by decide +kernel)
      · cases hk)
    (.inr (.inr ⟨by decide, rfl⟩)) (not_ms (by decide +kernel)) (by decide +kernel) (fun _ => rfl)
    (by intro c hc; cases hc)
    (by intro e he; rw [dE2] at he; cases he; rfl)
    ⟨⟨TokenWrap.Example.acct u user 4000 [], by decide +kernel, by decide +kernel, rfl, rfl, by decide,
      .inl rfl⟩⟩ (by decide +kernel)
  exact ⟨L1, L2, fee, h1, h2, h3⟩

end Example.Hist.Tower

end TokenWrap
