import Verif.Props.Tower
import Verif.Props.Atomic
/-!
# C108: down a tower of any height

The holder of tokens of the top layer of a tower of wrappings of any height gets bottom tokens by one
transaction of Unwraps, one for each layer, whatever happened before.
-/

set_option linter.unusedSimpArgs false

namespace TokenWrap

section
variable {cr : Crypto} {s s' s0 z : Setting cr} {ok : Act → Ledger → Prop} {L0 L L1 L2 L' : Ledger}
  {trace : List Act} {env : Env}

/-! ## Specification -/

/-- `auth` (with `members`, if it is a multisig) can spend `n` of the tokens of the pair `s` in the
account `k`, which is not frozen, and all of these can sign. -/
structure Station (s : Setting cr) (L : Ledger) (k auth : Pubkey) (members : List Pubkey) (n : Nat) :
    Prop where
  acct : ∃ t, HoldsWrapped s L k t ∧ t.frozen = false ∧ CanSpend t none auth n
  approval : BuiltApproval s.wp L auth members
  sign : ∀ x, x = auth ∨ x ∈ members → CanSign cr x

/-- The Unwrap of `n` of the tokens of `s` in `k` into `rcp`, for a mint of program `p`. -/
def downFrom (s : Setting cr) (p k rcp auth : Pubkey) (members : List Pubkey) (n : UInt64) : Call :=
  ⟨(Build.unwrap crateId (s.escrowFor p) rcp s.A s.u s.wp p k s.W auth members n).accounts,
    (Build.unwrap crateId (s.escrowFor p) rcp s.A s.u s.wp p k s.W auth members n).data⟩

/-- Instructions `is` that unwrap `n` tokens, held in `k`, of the pair `s`, `i` layers above the pair
`s0`, layer by layer, into the account `rcp` of the bottom mint `s0.u` of program `p`.  In between the
tokens pass through one account per layer, which need not hold any yet. -/
inductive Descent (L0 L : Ledger) (s0 : Setting cr) (p rcp : Pubkey) (m : Mint) (n : UInt64) :
    Nat → Setting cr → Pubkey → List (Setting cr) → List Call → Prop
  | last {k auth : Pubkey} {members : List Pubkey} (fresh : Fresh s0 L0)
      (st : Station s0 L k auth members n.toNat)
      (usable : EscrowUsable L (s0.escrowFor p)) (recv : CanReceive L p s0.u rcp m n.toNat)
      (notEscrow : rcp ≠ s0.escrowFor p) :
      Descent L0 L s0 p rcp m n 0 s0 k [s0] [downFrom s0 p k rcp auth members n]
  | down {i : Nat} {s s' : Setting cr} {k k' auth : Pubkey} {members : List Pubkey}
      {ls : List (Setting cr)} {is : List Call}
      (below : Descent L0 L s0 p rcp m n i s k ls is)
      (fresh : Fresh s' L0) (hu : s'.u = s.W)
      (st : Station s' L k' auth members n.toNat)
      (usable : EscrowUsable L (s'.escrowFor s.wp)) (notEscrow : k ≠ s'.escrowFor s.wp) :
      Descent L0 L s0 p rcp m n (i + 1) s' k' (s' :: ls) (downFrom s' s.wp k' k auth members n :: is)

/-- `s` is `i` layers above `s0`. -/
inductive Level (L0 : Ledger) (s0 : Setting cr) : Nat → Setting cr → Prop
  | zero (fresh : Fresh s0 L0) : Level L0 s0 0 s0
  | succ {i : Nat} {s s' : Setting cr} (below : Level L0 s0 i s) (fresh : Fresh s' L0)
      (hu : s'.u = s.W) : Level L0 s0 (i + 1) s'

/-! ## The layers have different mints -/

theorem Level.fresh {i : Nat} (h : Level L0 s0 i s) : Fresh s L0 := by
  cases h <;> assumption

theorem Level.ne_bottom {i : Nat} (h : Level L0 s0 i s) (hm : ∃ m, (L0 s0.u).data = .mint m) :
    s.W ≠ s0.u := by
  obtain ⟨m, hm⟩ := hm
  intro e
  rw [← e, h.fresh.W.2] at hm
  cases hm

theorem Setting.sameU (h : s.W = z.W) : s.u = z.u := by
  have h1 := s.rW.unique (h ▸ z.rW.address)
  injection h1 with h1
  exact h1.symm

theorem Level.inj (hm : ∃ m, (L0 s0.u).data = .mint m) :
    ∀ {i j : Nat} {s z : Setting cr}, Level L0 s0 i s → Level L0 s0 j z → s.W = z.W → i = j
  | _, _, _, _, .zero _, .zero _, _ => rfl
  | _, _, _, _, .zero _, .succ hz _ hu, h => by
    have := Setting.sameU h
    exact absurd (this.trans hu).symm (hz.ne_bottom hm)
  | _, _, _, _, .succ hs _ hu, .zero _, h => by
    have := Setting.sameU h
    exact absurd (hu.symm.trans this) (hs.ne_bottom hm)
  | _, _, _, _, .succ hs _ hu, .succ hz _ hu', h => by
    have h1 := Setting.sameU h
    rw [Level.inj hm hs hz (hu.symm.trans (h1.trans hu'))]

theorem Descent.level {p rcp k : Pubkey} {m : Mint} {n : UInt64} {i : Nat} {ls : List (Setting cr)}
    {is : List Call} (h : Descent L0 L s0 p rcp m n i s k ls is) : Level L0 s0 i s := by
  induction h with
  | last fresh => exact .zero fresh
  | down _ fresh hu _ _ _ ih => exact .succ ih fresh hu

theorem Descent.levels {p rcp k : Pubkey} {m : Mint} {n : UInt64} {i : Nat} {ls : List (Setting cr)}
    {is : List Call} (h : Descent L0 L s0 p rcp m n i s k ls is) :
    ∀ z ∈ ls, ∃ j, j ≤ i ∧ Level L0 s0 j z := by
  induction h with
  | last fresh =>
    intro z hz
    rw [List.mem_singleton.1 hz]
    exact ⟨0, Nat.le_refl _, .zero fresh⟩
  | down below fresh hu _ _ _ ih =>
    intro z hz
    rcases List.mem_cons.1 hz with rfl | hz
    · exact ⟨_, Nat.le_refl _, .succ below.level fresh hu⟩
    · obtain ⟨j, hj, h⟩ := ih z hz
      exact ⟨j, by omega, h⟩

theorem Inv.w_not_token {bk : Bk} (h : Inv bk s L) (t : TokenAcct) : (L s.W).data ≠ .token t := by
  rcases h.w with ⟨hb, _⟩ | hw
  · rw [hb.2]; simp
  · obtain ⟨x, hx, _⟩ := hw.mint
    rw [hx]; simp

/-! ## What an Unwrap leaves alone -/

/-- Only token accounts of the mints `T` and the mints `M` may differ. -/
structure Keeps (T M : Pubkey → Prop) (L L' : Ledger) : Prop where
  tok : ∀ x t, (L x).data = .token t → ¬ T t.mint → L' x = L x
  oth : ∀ x, (∀ t, (L x).data ≠ .token t) → ¬ M x → L' x = L x
  ms : ∀ x, L' x = L x ∨ ((∀ y, (L x).data ≠ .multisig y) ∧ ∀ y, (L' x).data ≠ .multisig y)

theorem Keeps.trans {T M T' M' T2 M2 : Pubkey → Prop} (h : Keeps T M L L1) (h' : Keeps T' M' L1 L2)
    (hT : ∀ x, T x ∨ T' x → T2 x) (hM : ∀ x, M x ∨ M' x → M2 x) : Keeps T2 M2 L L2 where
  tok x t hx hn := by
    have h1 := h.tok x t hx fun h => hn (hT _ (.inl h))
    rw [h'.tok x t (by rw [h1]; exact hx) fun h => hn (hT _ (.inr h)), h1]
  oth x hx hn := by
    have h1 := h.oth x hx fun h => hn (hM _ (.inl h))
    rw [h'.oth x (by rw [h1]; exact hx) fun h => hn (hM _ (.inr h)), h1]
  ms x := by
    rcases h.ms x with h1 | ⟨h1, h2⟩
    · rcases h'.ms x with h3 | ⟨h3, h4⟩
      · exact .inl (h3.trans h1)
      · exact .inr ⟨by rw [← h1]; exact h3, h4⟩
    · rcases h'.ms x with h3 | ⟨_, h4⟩
      · exact .inr ⟨h1, by rw [h3]; exact h2⟩
      · exact .inr ⟨h1, h4⟩

theorem Keeps.mono {T M T2 M2 : Pubkey → Prop} (h : Keeps T M L L1) (hT : ∀ x, T x → T2 x)
    (hM : ∀ x, M x → M2 x) : Keeps T2 M2 L L1 where
  tok x t hx hn := h.tok x t hx fun h => hn (hT _ h)
  oth x hx hn := h.oth x hx fun h => hn (hM _ h)
  ms := h.ms

theorem ledgerAfterUnwrap_keeps {holder W E rcp auth A : Pubkey} {h e d : TokenAcct} {w : Mint}
    {hpd epd : Option Pubkey} {amount fee : Nat} (hh : (L holder).data = .token h)
    (hw : (L W).data = .mint w) (he : (L E).data = .token e) (hd : (L rcp).data = .token d) :
    Keeps (fun x => x = h.mint ∨ x = e.mint ∨ x = d.mint) (fun x => x = W) L
      (ledgerAfterUnwrap L holder W E rcp h e d w hpd epd auth A amount fee) where
  tok x t hx hn := by
    refine ledgerAfterUnwrap_other ⟨?_, ?_, ?_, ?_⟩
    · rintro rfl
      exact hn (.inl (congrArg _ (Data.token.inj (hx.symm.trans hh))))
    · rintro rfl; rw [hw] at hx; cases hx
    · rintro rfl
      exact hn (.inr (.inl (congrArg _ (Data.token.inj (hx.symm.trans he)))))
    · rintro rfl
      exact hn (.inr (.inr (congrArg _ (Data.token.inj (hx.symm.trans hd)))))
  oth x hx hn := by
    refine ledgerAfterUnwrap_other ⟨?_, hn, ?_, ?_⟩ <;> rintro rfl
    · exact hx _ hh
    · exact hx _ he
    · exact hx _ hd
  ms x := ledgerAfterUnwrap_multisig hh hw he hd x

theorem Station.keep {T M : Pubkey → Prop} {k auth : Pubkey} {members : List Pubkey} {n : Nat}
    (h : Station s L k auth members n) (K : Keeps T M L L1) (hT : ¬ T s.W) :
    Station s L1 k auth members n := by
  obtain ⟨⟨t, ht, h1, h2⟩, h3, h4⟩ := h
  have e := K.tok k t ht.2.1 (by rw [ht.2.2]; exact hT)
  exact ⟨⟨t, ⟨by rw [e]; exact ht.1, by rw [e]; exact ht.2.1, ht.2.2⟩, h1, h2⟩, h3.same (K.ms _), h4⟩

theorem EscrowUsable.keep {T M : Pubkey → Prop} {p : Pubkey} (hi : Inv .off s L)
    (hp : p = splTokenId ∨ p = token2022Id)
    (h : EscrowUsable L (s.escrowFor p)) (K : Keeps T M L L1) (hT : ¬ T s.u)
    (hM : ∀ x, M x → ∃ m, (L x).data = .mint m) : EscrowUsable L1 (s.escrowFor p) := by
  have key : EscrowOk s.u s.A p (s.escrowFor p) L := by
    unfold Setting.escrowFor
    rcases hp with rfl | rfl
    · rw [if_pos rfl]; exact hi.es
    · rw [if_neg (Ne.symm spl_ne_2022)]; exact hi.et
  have e : L1 (s.escrowFor p) = L (s.escrowFor p) := by
    rcases key with hb | ⟨_, y, hy, hym, _⟩
    · refine K.oth _ (by intro t ht; rw [hb.2] at ht; cases ht) fun h => ?_
      obtain ⟨m, hm⟩ := hM _ h
      rw [hb.2] at hm; cases hm
    · exact K.tok _ y hy (by rw [hym]; exact hT)
  unfold EscrowUsable
  rw [e]; exact h

/-- A descent stays possible if the layers below and the bottom mint are left alone. -/
theorem Descent.keep {T M : Pubkey → Prop} {p rcp : Pubkey} {m : Mint} {n : UInt64}
    (hp : p = splTokenId ∨ p = token2022Id)
    (hist : History cr ok L0 trace L) (K : Keeps T M L L1)
    (hM : ∀ x, M x → ∃ m, (L x).data = .mint m) (hu : ¬ T s0.u) :
    ∀ {i : Nat} {s : Setting cr} {k : Pubkey} {ls : List (Setting cr)} {is : List Call},
      Descent L0 L s0 p rcp m n i s k ls is → (∀ j z, j < i → Level L0 s0 j z → ¬ T z.W) →
      (∀ auth members, Station s L k auth members n.toNat → Station s L1 k auth members n.toNat) →
      Descent L0 L1 s0 p rcp m n i s k ls is
  | _, _, _, _, _, .last fresh st usable recv notEscrow, _, hst => by
    refine .last fresh (hst _ _ st) (usable.keep (hist.inv' fresh) hp K hu hM) ?_ notEscrow
    obtain ⟨d, r1, r2, r3, r4⟩ := recv.acct
    have e := K.tok rcp d r2 (by rw [r3]; exact hu)
    exact ⟨⟨d, by rw [e]; exact r1, by rw [e]; exact r2, r3, r4⟩⟩
  | _, _, _, _, _, .down (i := i) (s := s) below fresh hu' st usable notEscrow, hT, hst => by
    have hTs := hT i s (Nat.lt_succ_self _) below.level
    exact .down (Descent.keep hp hist K hM hu below (fun j z hj => hT j z (by omega))
      fun _ _ h => h.keep K hTs) fresh hu' (hst _ _ st)
      (usable.keep (hist.inv' fresh) s.wpOk K (by rw [hu']; exact hTs) hM) notEscrow

/-! ## One layer -/

theorem downFrom_signs {k' k auth p : Pubkey} {members : List Pubkey} {n : UInt64}
    (sign : ∀ x, x = auth ∨ x ∈ members → CanSign cr x) :
    ∀ x, Signs (downFrom s p k' k auth members n).accounts x → CanSign cr x := by
  rintro y ⟨x, hx, rfl, hs⟩
  simp only [downFrom, Build.unwrap, List.mem_append, List.mem_cons, List.not_mem_nil, or_false,
    List.mem_map] at hx
  rcases hx with (rfl | rfl | rfl | rfl | rfl | rfl | rfl | rfl | rfl) | ⟨y, hy, rfl⟩ <;>
    first
    | exact sign _ (.inr hy)
    | exact sign _ (.inl rfl)
    | cases hs

/-- One Unwrap of an upper layer and what it does. -/
theorem upper_unwrap {k' k auth : Pubkey} {members : List Pubkey} {t tm : TokenAcct} {n : UInt64}
    (h : Fresh s L0) (h' : Fresh s' L0) (hu : s'.u = s.W)
    (hist : History cr ok L0 trace L)
    (hcr : env.cr = cr) (hid : env.programId = crateId) (hr : ∀ n, 0 < env.rentMin n)
    (hrej : ∀ p ix sg L, env.reject p ix sg L = none) (pos : n ≠ 0)
    (st : Station s' L k' auth members n.toNat)
    (hold : HoldsWrapped s' L k' t) (enough : n.toNat ≤ t.amount)
    (usable : EscrowUsable L (s'.escrowFor s.wp))
    (recv : HoldsWrapped s L k tm) (mThawed : tm.frozen = false) (notEscrow : k ≠ s'.escrowFor s.wp) :
    ∃ L1, processInstruction env (downFrom s' s.wp k' k auth members n).accounts
        (downFrom s' s.wp k' k auth members n).data L = .ok L1 ∧
      (∃ tr, History cr (fun _ _ => True) L0 tr L1) ∧
      Keeps (fun x => x = s'.W ∨ x = s.W) (fun x => x = s'.W) L L1 ∧
      (L1 k).owner = (L k).owner ∧
      (L1 k).data = .token { tm with amount := tm.amount + n.toNat } ∧
      balanceOf L1 k' + n.toNat = balanceOf L k' ∧
      supplyOf L1 s'.W + n.toNat = supplyOf L s'.W ∧
      (∃ y, (L1 k').data = .token y ∧ y.mint = s'.W) ∧ ∀ y, (L1 s'.W).data ≠ .token y := by
  obtain ⟨⟨t', ht', thawed, spend⟩, approval, sign⟩ := st
  obtain rfl := Data.token.inj (ht'.2.1.symm.trans hold.2.1)
  obtain ⟨L1, hL1⟩ := upper_redeemable h h' hu hist hcr hid hrej hold thawed pos enough spend approval
    usable recv mThawed notEscrow
  have hWW : s'.W ≠ s.W := by rw [← hu]; exact s'.uFree.1.symm
  have hL1' : processInstruction env (downFrom s' s.wp k' k auth members n).accounts
      (downFrom s' s.wp k' k auth members n).data L = .ok L1 := by
    unfold downFrom; rw [hu]; exact hL1
  have hstep : Step cr (fun _ _ => True) (.tokenWrap env _ _) L L1 :=
    .tokenWrap hcr hid (downFrom_signs sign) hL1' hr
  have hist1 : History cr (fun _ _ => True) L0 _ L1 :=
    (hist.weaken fun _ _ _ => trivial).step trivial hstep
  refine ⟨L1, hL1', ⟨_, hist1⟩, ?_⟩
  have hx := hL1
  simp only [Build.unwrap] at hx
  obtain ⟨e1, e2, _, _⟩ := wrapped_unwrap_exact h hist rfl hx hWW (Ne.symm notEscrow)
  obtain ⟨h0, e, d, m1, w, fee1, g1, g2, g3, g4, g5, g6, _, _, _, _, hL⟩ :=
    unwrap_post_state hx hWW notEscrow
  dsimp only [Meta.rw, Meta.ro] at g1 g2 g3 g4 g5 hL e1 e2
  obtain rfl := Data.token.inj (g1.symm.trans hold.2.1)
  obtain rfl := Data.token.inj (g3.symm.trans recv.2.1)
  have hfee1 := isMintFee_none ((hist.inv' h).mint_plain g4).2 g6
  have hE : e.mint = s.W := by
    have hi' := hist.inv' h'
    obtain ⟨_, e0, he0, hem, _⟩ := hi'.escrow_token (p := s.wp) s.wpOk (by
      have hb := upper_backed h h' hu hist
      have := hi'.holder_le hold
      have : 0 < n.toNat := by
        rcases Nat.eq_zero_or_pos n.toNat with h | h
        · exact absurd (UInt64.toNat_inj.1 (by simpa using h)) pos
        · exact h
      omega)
    obtain rfl := Data.token.inj (g2.symm.trans he0)
    rw [hem, hu]
  have hk1 : L1 k = ⟨(L k).lamports + nativeLamports e n.toNat, (L k).owner,
      .token (receivedBy d n.toNat fee1)⟩ := by
    rw [hL]
    refine ledgerAfterUnwrap_rcp ⟨?_, ?_, notEscrow⟩
    · rintro rfl
      obtain rfl := Data.token.inj (g1.symm.trans g3)
      exact hWW (hold.2.2.symm.trans recv.2.2)
    · rintro rfl; rw [g5] at g3; cases g3
  refine ⟨?_, by rw [hk1], by rw [hk1, hfee1]; rfl, e1, e2, ?_, ?_⟩
  rotate_left
  · have hk' : (L1 k').data = _ :=
      (congrArg Account.data ((congrFun hL k').trans (if_pos rfl)))
    refine ⟨_, hk', ?_⟩
    split
    · exact hold.2.2
    · unfold takenFrom
      split <;> exact hold.2.2
  · intro y
    have : (L1 s'.W).data = .mint { w with supply := w.supply - n.toNat } := by
      rw [hL]; unfold ledgerAfterUnwrap
      rw [if_neg (by rintro rfl; rw [g5] at g1; cases g1), if_pos rfl]
    rw [this]; simp
  rw [hL]
  refine (ledgerAfterUnwrap_keeps g1 g5 g2 g3).mono ?_ fun _ h => h
  rintro x (rfl | rfl | rfl)
  · exact .inl hold.2.2
  · exact .inr hE
  · exact .inr recv.2.2

/-! ## Every layer -/

theorem Descent.account {p rcp k : Pubkey} {m : Mint} {n : UInt64} {i : Nat} {ls : List (Setting cr)}
    {is : List Call} (h : Descent L0 L s0 p rcp m n i s k ls is) : ∃ t, HoldsWrapped s L k t ∧ t.frozen = false := by
  cases h with
  | last _ st =>
    obtain ⟨t, h1, h2, _⟩ := st.acct
    exact ⟨t, h1, h2⟩
  | down _ _ _ st =>
    obtain ⟨t, h1, h2, _⟩ := st.acct
    exact ⟨t, h1, h2⟩

theorem Descent.recv {p rcp k : Pubkey} {m : Mint} {n : UInt64} {i : Nat} {ls : List (Setting cr)}
    {is : List Call} (h : Descent L0 L s0 p rcp m n i s k ls is) : CanReceive L p s0.u rcp m n.toNat := by
  induction h with
  | last _ _ _ recv => exact recv
  | down _ _ _ _ _ _ ih => exact ih

theorem descend {p rcp : Pubkey} {dec : UInt8} {m : Mint} {n : UInt64}
    (hm : PlainMint p s0.u dec L0)
    (hcr : env.cr = cr) (hid : env.programId = crateId) (hr : ∀ n, 0 < env.rentMin n)
    (hrej : ∀ p ix sg L, env.reject p ix sg L = none) (pos : n ≠ 0)
    (spl : p = splTokenId → m.exts = []) (fees : FeesValid m) :
    ∀ {i : Nat} {s : Setting cr} {k : Pubkey} {ls : List (Setting cr)} {is : List Call} {L : Ledger}
      {trace : List Act} {t : TokenAcct}, Descent L0 L s0 p rcp m n i s k ls is →
      History cr (fun _ _ => True) L0 trace L → (L s0.u).data = .mint m →
      HoldsWrapped s L k t → n.toNat ≤ t.amount →
      ∃ L' fee, runCalls env is L = .ok L' ∧ IsMintFee m env.epoch n.toNat fee ∧ fee ≤ n.toNat ∧
        balanceOf L' rcp = balanceOf L rcp + (n.toNat - fee) ∧
        balanceOf L' k + n.toNat = balanceOf L k ∧
        (∀ z ∈ ls, supplyOf L' z.W + n.toNat = supplyOf L z.W) ∧
        Keeps (fun x => x = s0.u ∨ ∃ j z, j ≤ i ∧ Level L0 s0 j z ∧ x = z.W)
          (fun x => ∃ j z, j ≤ i ∧ Level L0 s0 j z ∧ x = z.W) L L' := by
  have hm0 : ∃ m, (L0 s0.u).data = .mint m := by
    obtain ⟨_, _, x, hx, _⟩ := hm
    exact ⟨x, hx⟩
  intro i
  induction i with
  | zero =>
    intro s k ls is L trace t hd hist umint ht enough
    cases hd with
    | @last _ auth members fresh st usable recv notEscrow =>
    obtain ⟨⟨t', ht', thawed, spend⟩, approval, sign⟩ := st
    obtain rfl := Data.token.inj (ht'.2.1.symm.trans ht.2.1)
    obtain ⟨L', hL'⟩ := always_redeemable_plain (p := p) fresh hm hist hcr hid hrej ht thawed pos enough spend
      approval umint spl fees usable recv
    have hx := hL'
    simp only [Build.unwrap] at hx
    obtain ⟨m2, fee, q1, q2, q3, q4, q5, q6, q7⟩ :=
      unwrap_pays_one_for_one hx (by dsimp only [Meta.rw, Meta.ro]; exact s0.uFree.1.symm)
        (by dsimp only [Meta.rw, Meta.ro]; exact Ne.symm notEscrow)
    obtain ⟨h0, e, d, m1, w, fee1, g1, g2, g3, g4, g5, g6, _, _, _, _, hL⟩ :=
      unwrap_post_state hx (by dsimp only [Meta.rw, Meta.ro]; exact s0.uFree.1.symm) notEscrow
    dsimp only [Meta.rw, Meta.ro] at q1 q4 q5 q6 q7 g1 g2 g3 g4 g5 hL
    obtain rfl := Data.mint.inj (q1.symm.trans umint)
    obtain ⟨dr, r1, r2, r3, _⟩ := recv.acct
    obtain rfl := Data.token.inj (g3.symm.trans r2)
    obtain rfl := Data.token.inj (g1.symm.trans ht.2.1)
    refine ⟨L', fee, ?_, q2, q3, q7, q4, ?_, ?_⟩
    · unfold runCalls downFrom
      dsimp only
      rw [hL']; rfl
    · intro z hz
      rw [List.mem_singleton.1 hz]
      exact q5
    · have hE : e.mint = s0.u := by
        have hi := hist.inv' fresh
        have key : EscrowOk s0.u s0.A p (s0.escrowFor p) L := by
          unfold Setting.escrowFor
          rcases hm.1 with rfl | rfl
          · rw [if_pos rfl]; exact hi.es
          · rw [if_neg (Ne.symm spl_ne_2022)]; exact hi.et
        rcases key with hb | ⟨_, y, hy, hym, _⟩
        · rw [hb.2] at g2; cases g2
        · obtain rfl := Data.token.inj (g2.symm.trans hy)
          exact hym
      rw [hL]
      refine (ledgerAfterUnwrap_keeps g1 g5 g2 g3).mono ?_ ?_
      · rintro x (rfl | rfl | rfl)
        · exact .inr ⟨0, s0, Nat.le_refl _, .zero fresh, ht.2.2⟩
        · exact .inl hE
        · exact .inl r3
      · rintro x rfl
        exact ⟨0, s0, Nat.le_refl _, .zero fresh, rfl⟩
  | succ i ih =>
    intro s k ls is L trace t hd hist umint ht enough
    have hlev := hd.level
    cases hd with
    | @down _ sl _ kl _ auth members lsl rest below fresh hu st usable notEscrow =>
    obtain ⟨tm, recv, mThawed⟩ := below.account
    have hl := below.level
    obtain ⟨L1, hL1, ⟨tr, hist1⟩, K, o1, d1, b1, s1, ⟨y, y1, y2⟩, w1⟩ := upper_unwrap hl.fresh fresh hu hist hcr hid hr hrej
      pos st ht enough usable recv mThawed notEscrow
    have hW : ∃ x, (L s.W).data = .mint x := by
      rcases (hist.inv' fresh).w with ⟨hb, _⟩ | hw
      · have := (hist.inv' fresh).holder_le ht
        rw [supplyOf_blank hb] at this
        have : 0 < n.toNat := by
          rcases Nat.eq_zero_or_pos n.toNat with h | h
          · exact absurd (UInt64.toNat_inj.1 (by simpa using h)) pos
          · exact h
        omega
      · obtain ⟨x, hx, _⟩ := hw.mint
        exact ⟨x, hx⟩
    have hM : ∀ x, x = s.W → ∃ m, (L x).data = .mint m := by rintro x rfl; exact hW
    have nu : ¬ (s0.u = s.W ∨ s0.u = sl.W) := by
      rintro (q | q)
      · exact hlev.ne_bottom hm0 q.symm
      · exact hl.ne_bottom hm0 q.symm
    have below1 := Descent.keep hm.1 hist K hM nu below
      (by
        rintro j z hj hz (q | q)
        · have := Level.inj hm0 hz hlev q; omega
        · have := Level.inj hm0 hz hl q; omega)
      (by
        rintro a ms ⟨⟨x, hx, x1, x2⟩, x3, x4⟩
        obtain rfl := Data.token.inj (hx.2.1.symm.trans recv.2.1)
        exact ⟨⟨_, ⟨o1.trans hx.1, d1, hx.2.2⟩, x1, x2⟩, x3.same (K.ms _), x4⟩)
    have umint1 : L1 s0.u = L s0.u := K.oth _ (by intro t ht; rw [umint] at ht; cases ht)
      fun q => nu (.inl q)
    obtain ⟨L', fee, run, f1, f2, r1, r2, r3, K2⟩ := ih below1 hist1 (by rw [umint1]; exact umint)
      ⟨o1.trans recv.1, d1, recv.2.2⟩ (Nat.le_add_left _ _)
    obtain ⟨dr, _, e2, e3, _⟩ := below.recv.acct
    have rcp1 : L1 rcp = L rcp := K.tok _ dr e2 (by rw [e3]; exact nu)
    have notLow : ¬ (s.W = s0.u ∨ ∃ j z, j ≤ i ∧ Level L0 s0 j z ∧ s.W = z.W) := by
      rintro (q | ⟨j, z, hj, hz, q⟩)
      · exact hlev.ne_bottom hm0 q
      · have := Level.inj hm0 hlev hz q; omega
    refine ⟨L', fee, ?_, f1, f2, ?_, ?_, ?_, ?_⟩
    · unfold runCalls
      rw [hL1]; exact run
    · rw [r1]; unfold balanceOf; rw [rcp1]
    · rw [← b1]
      unfold balanceOf
      rw [K2.tok k y y1 (by rw [y2]; exact notLow)]
    · intro z hz
      rcases List.mem_cons.1 hz with rfl | hz
      · rw [← s1]
        unfold supplyOf
        rw [K2.oth z.W w1 fun q => notLow (.inr q)]
      · obtain ⟨j, hj, hzl⟩ := below.levels z hz
        rw [r3 z hz]
        unfold supplyOf
        rw [K.oth z.W (hist.inv' hzl.fresh).w_not_token fun q => by
          have := Level.inj hm0 hzl hlev q; omega]
    · refine K.trans K2 ?_ ?_
      · rintro x ((rfl | rfl) | rfl | ⟨j, z, hj, hz, rfl⟩)
        · exact .inr ⟨_, _, Nat.le_refl _, hlev, rfl⟩
        · exact .inr ⟨_, _, Nat.le_succ _, hl, rfl⟩
        · exact .inl rfl
        · exact .inr ⟨j, z, by omega, hz, rfl⟩
      · rintro x (rfl | ⟨j, z, hj, hz, rfl⟩)
        · exact ⟨_, _, Nat.le_refl _, hlev, rfl⟩
        · exact ⟨j, z, by omega, hz, rfl⟩

/-- **C108** All the way down a tower of any height, in every history whatsoever: if the bottom mint
started without permanent delegate and close authority, the Unwraps of a descent succeed one after the
other.  The recipient gets the amount less the bottom mint's transfer fee, the holder gives up exactly
the amount, and the supply of every layer shrinks by it. -/
theorem redeemable_from_any_height {p rcp k : Pubkey} {dec : UInt8} {m : Mint} {n : UInt64} {i : Nat}
    {ls : List (Setting cr)} {is : List Call} {t : TokenAcct} (hm : PlainMint p s0.u dec L0)
    (hd : Descent L0 L s0 p rcp m n i s k ls is) (hist : History cr ok L0 trace L)
    (hcr : env.cr = cr) (hid : env.programId = crateId) (hr : ∀ n, 0 < env.rentMin n)
    (hrej : ∀ p ix sg L, env.reject p ix sg L = none)
    (umint : (L s0.u).data = .mint m) (spl : p = splTokenId → m.exts = []) (fees : FeesValid m)
    (hold : HoldsWrapped s L k t) (pos : n ≠ 0) (enough : n.toNat ≤ t.amount) :
    ∃ L' fee, runCalls env is L = .ok L' ∧ IsMintFee m env.epoch n.toNat fee ∧ fee ≤ n.toNat ∧
      balanceOf L' rcp = balanceOf L rcp + (n.toNat - fee) ∧
      balanceOf L' k + n.toNat = balanceOf L k ∧
      ∀ z ∈ ls, supplyOf L' z.W + n.toNat = supplyOf L z.W := by
  obtain ⟨L', fee, h1, h2, h3, h4, h5, h6, _⟩ := descend hm hcr hid hr hrej pos spl fees hd
    (hist.weaken fun _ _ _ => trivial) umint hold enough
  exact ⟨L', fee, h1, h2, h3, h4, h5, h6⟩

end

/-! ## The concrete tower -/

namespace Example.Hist.Tower

-- 150 of the 400 doubly wrapped tokens become bottom tokens again, in one transaction of two Unwraps
theorem descent : Descent L0 T13 s splTokenId src (TokenWrap.Example.uMint []) 150 1 s3 rcp3 [s3, s]
    [downFrom s3 token2022Id rcp3 rcp user [] 150, downFrom s splTokenId rcp src user [] 150] := by
  have d3 : (T13 rcp3).data = .token (TokenWrap.Example.acct W3 user 400 []) := by decide +kernel
  have d1 : (T13 rcp).data = .token (TokenWrap.Example.acct W user 600 []) := by decide +kernel
  have dE : (T13 (s3.escrowFor s.wp)).data = .token (TokenWrap.Example.acct W A3 400 [.immutableOwner]) := by
    decide +kernel
  have dE2 : (T13 (s.escrowFor splTokenId)).data = .token (TokenWrap.Example.acct u A 1000 []) := by
    decide +kernel
  have sign : ∀ x, x = user ∨ x ∈ ([] : List Pubkey) → CanSign cr x := by
    rintro x (rfl | hk)
    · exact .keypair (by decide +kernel)
    · cases hk
  refine .down (.last fresh ⟨⟨_, ⟨by decide +kernel, d1, rfl⟩, rfl, .inr (.inr ⟨by decide, rfl⟩)⟩,
      not_ms (by decide +kernel), sign⟩ ?_
      ⟨⟨TokenWrap.Example.acct u user 4000 [], by decide +kernel, by decide +kernel, rfl, rfl, by decide,
        .inl rfl⟩⟩ (by decide +kernel)) untouched3.fresh rfl
    ⟨⟨_, ⟨by decide +kernel, d3, rfl⟩, rfl, .inr (.inr ⟨by decide, rfl⟩)⟩,
      not_ms (by decide +kernel), sign⟩ ?_ (by decide +kernel)
  · intro e he; rw [dE2] at he; cases he; rfl
  · intro e he; rw [dE] at he; cases he; rfl

example : ∃ L' fee, runCalls env
      [downFrom s3 token2022Id rcp3 rcp user [] 150, downFrom s splTokenId rcp src user [] 150] T13 = .ok L' ∧
    balanceOf L' src = balanceOf T13 src + (150 - fee) ∧ supplyOf L' W3 + 150 = supplyOf T13 W3 ∧
    supplyOf L' W + 150 = supplyOf T13 W := by
  obtain ⟨_, h⟩ := hist13
  obtain ⟨L', fee, h1, _, _, h2, _, h3⟩ := redeemable_from_any_height (env := env) plain descent h rfl rfl
    rent_pos (fun _ _ _ _ => rfl) (by decide +kernel) (fun _ => rfl) (by intro c hc; cases hc)
    ⟨by decide +kernel, (by decide +kernel : (T13 rcp3).data = .token (TokenWrap.Example.acct W3 user 400 [])),
      rfl⟩ (by decide) (by decide)
  exact ⟨L', fee, h1, h2, h3 s3 (by simp), h3 s (by simp)⟩

end Example.Hist.Tower

end TokenWrap
