import Verif.Props.PostState
/-!
# C91: splitting gains nothing

Fees are rounded up and capped, so wrapping (or unwrapping) in several pieces never yields more than
doing it at once; and wrapping more never yields less.
-/

set_option linter.unusedSimpArgs false

namespace TokenWrap

open TokenWrapInstruction

/-! ## Fees -/

/-- **C91** The fee of a sum is at most the sum of the fees. -/
theorem isFee_subadditive {t : TransferFee} {a b fa fb fab : Nat} (ha : IsFee t a fa)
    (hb : IsFee t b fb) (hab : IsFee t (a + b) fab) : fab ≤ fa + fb := by
  unfold IsFee at ha hb hab
  have e : (a + b) * t.bps = a * t.bps + b * t.bps := Nat.add_mul _ _ _
  rw [e] at hab
  rcases ha with ⟨h1, h2⟩ | ⟨h1, h2, h3⟩ <;> rcases hb with ⟨g1, g2⟩ | ⟨g1, g2, g3⟩ <;>
    rcases hab with ⟨k1, k2⟩ | ⟨k1, k2, k3⟩ <;> omega

/-- **C91** Splitting once costs at most one base unit more where the cap does not apply. -/
theorem isFee_split_cost {t : TransferFee} {a b fa fb fab : Nat} (ha : IsFee t a fa)
    (hb : IsFee t b fb) (hab : IsFee t (a + b) fab) (hcap : fab < t.maximumFee) :
    fa + fb ≤ fab + 1 := by
  unfold IsFee at ha hb hab
  have e : (a + b) * t.bps = a * t.bps + b * t.bps := Nat.add_mul _ _ _
  rw [e] at hab
  rcases ha with ⟨h1, h2⟩ | ⟨h1, h2, h3⟩ <;> rcases hb with ⟨g1, g2⟩ | ⟨g1, g2, g3⟩ <;>
    rcases hab with ⟨k1, k2⟩ | ⟨k1, k2, k3⟩ <;> omega

/-- **C91** What arrives grows with what is sent: no amount is better split off and kept back (fee
rates are at most 10000 basis points). -/
theorem isFee_net_monotone {t : TransferFee} {a b fa fb : Nat} (hbps : t.bps ≤ 10000) (hle : a ≤ b)
    (ha : IsFee t a fa) (hb : IsFee t b fb) : a - fa ≤ b - fb ∧ fa ≤ fb := by
  unfold IsFee at ha hb
  obtain ⟨c, rfl⟩ := Nat.le.dest hle
  have e : (a + c) * t.bps = a * t.bps + c * t.bps := Nat.add_mul _ _ _
  have e2 : c * t.bps ≤ c * 10000 := Nat.mul_le_mul_left _ hbps
  have e3 : a * t.bps ≤ a * 10000 := Nat.mul_le_mul_left _ hbps
  rw [e] at hb
  generalize a * t.bps = x at *
  generalize c * t.bps = y at *
  rcases ha with ⟨h1, h2⟩ | ⟨h1, h2, h3⟩ <;> rcases hb with ⟨g1, g2⟩ | ⟨g1, g2, g3⟩ <;> omega

/-- The same for mints: subadditivity. -/
theorem isMintFee_subadditive {m : Mint} {ep a b fa fb fab : Nat} (ha : IsMintFee m ep a fa)
    (hb : IsMintFee m ep b fb) (hab : IsMintFee m ep (a + b) fab) : fab ≤ fa + fb := by
  unfold IsMintFee at ha hb hab
  split at ha
  · rename_i c hc
    simp only [hc] at hb hab
    exact isFee_subadditive ha hb hab
  · rename_i hc
    simp only [hc] at hb hab
    omega

/-- Every amount has a fee. -/
theorem isFee_exists (t : TransferFee) (a : Nat) : ∃ f, IsFee t a f := by
  unfold IsFee
  by_cases h : t.maximumFee * 10000 ≤ a * t.bps
  · exact ⟨_, .inl ⟨rfl, h⟩⟩
  · exact ⟨(a * t.bps + 9999) / 10000, .inr (by omega)⟩

theorem isMintFee_exists (m : Mint) (ep a : Nat) : ∃ f, IsMintFee m ep a f := by
  unfold IsMintFee
  split
  · exact isFee_exists _ _
  · exact ⟨0, rfl⟩

theorem isMintFee_zero {m : Mint} {ep f : Nat} (h : IsMintFee m ep 0 f) : f = 0 := by
  unfold IsMintFee at h
  split at h
  · unfold IsFee at h; omega
  · exact h

/-! ## Wrapping in pieces -/

/-- Run the same instruction with each of the amounts, one after the other. -/
def runPieces (run : UInt64 → Ledger → Res Ledger) : List UInt64 → Ledger → Res Ledger
  | [], L => .ok L
  | a :: as, L => do
    let L1 ← run a L
    runPieces run as L1

/-- The sum of the amounts. -/
def sumOf (as : List UInt64) : Nat := (as.map UInt64.toNat).sum

section
variable {env : Env} {recipient wmint auth uprog wprog src umint escrow tauth : Meta} {rest : List Meta}

/-- Wraps in pieces: what they credit, with fees that are at least the fee of the sum. -/
theorem wrap_pieces (hne : src.key ≠ escrow.key) : ∀ (as : List UInt64) (L L' : Ledger) (m : Mint),
    (L umint.key).data = .mint m →
    runPieces (fun a => processInstruction env ([recipient, wmint, auth, uprog, wprog, src, umint,
      escrow, tauth] ++ rest) (wrap a).pack) as L = .ok L' →
    ∃ fees, (∀ f, IsMintFee m env.epoch (sumOf as) f → f ≤ fees) ∧ fees ≤ sumOf as ∧
      (L' umint.key).data = .mint m ∧
      balanceOf L' src.key + sumOf as = balanceOf L src.key ∧
      balanceOf L' escrow.key = balanceOf L escrow.key + (sumOf as - fees) ∧
      balanceOf L' recipient.key = balanceOf L recipient.key + (sumOf as - fees) ∧
      supplyOf L' wmint.key = supplyOf L wmint.key + (sumOf as - fees) := by
  intro as
  induction as with
  | nil =>
    intro L L' m hm h
    cases h
    exact ⟨0, fun f hf => Nat.le_of_eq (isMintFee_zero hf), Nat.le_refl _, hm, rfl, rfl, rfl, rfl⟩
  | cons a as ih =>
    intro L L' m hm h
    simp only [runPieces, bind_ok_iff] at h
    obtain ⟨L1, h1, h2⟩ := h
    obtain ⟨m', f1, q1, q2, q3, q4, q5, q6, q7⟩ := wrap_credits_exactly_what_escrow_receives h1 hne
    obtain rfl := Data.mint.inj (hm.symm.trans q1)
    have hu : L1 umint.key = L umint.key := by
      obtain ⟨m, w, s, d, s', r, L1, e⟩ := wrap_effect h1
      apply (wrap_frame h1).1
      have b1 := e.tr.borrow.1; have b2 := e.tr.borrow.2; have b3 := e.rNeU; have b4 := e.wNeU
      dsimp only at b1 b2 b3 b4
      simp [Ne.symm b1, Ne.symm b2, Ne.symm b3, Ne.symm b4]
    obtain ⟨fees, r1, r2, r3, r4, r5, r6, r7⟩ := ih L1 L' m (by rw [hu]; exact hm) h2
    have hs : sumOf (a :: as) = a.toNat + sumOf as := by simp [sumOf]
    rw [hs]
    refine ⟨f1 + fees, ?_, by omega, r3, by omega, by omega, by omega, by omega⟩
    intro f hf
    obtain ⟨g, hg⟩ := isMintFee_exists m env.epoch (sumOf as)
    have := isMintFee_subadditive q2 hg hf
    have := r1 g hg
    omega

/-- **C91** Wrapping in pieces takes the same tokens from the source and credits at most what
wrapping the sum at once credits. -/
theorem splitting_a_wrap_never_gains {as : List UInt64} {n : UInt64} {L L2 L3 : Ledger}
    (hsum : n.toNat = sumOf as) (hne : src.key ≠ escrow.key)
    (hpieces : runPieces (fun a => processInstruction env ([recipient, wmint, auth, uprog, wprog, src,
      umint, escrow, tauth] ++ rest) (wrap a).pack) as L = .ok L2)
    (honce : processInstruction env ([recipient, wmint, auth, uprog, wprog, src, umint, escrow,
      tauth] ++ rest) (wrap n).pack L = .ok L3) :
    balanceOf L2 src.key = balanceOf L3 src.key ∧
    balanceOf L2 recipient.key ≤ balanceOf L3 recipient.key ∧
    balanceOf L2 escrow.key ≤ balanceOf L3 escrow.key := by
  obtain ⟨m, f, q1, q2, q3, q4, q5, q6, q7⟩ := wrap_credits_exactly_what_escrow_receives honce hne
  obtain ⟨fees, r1, r2, r3, r4, r5, r6, r7⟩ := wrap_pieces hne as L L2 m q1 hpieces
  have := r1 f (by rw [← hsum]; exact q2)
  omega

/-- **C91** Without a transfer fee the pieces give exactly the same. -/
theorem splitting_a_wrap_without_fee {as : List UInt64} {n : UInt64} {L L2 L3 : Ledger} {m : Mint}
    (hm : (L umint.key).data = .mint m) (hnofee : m.transferFee? = none)
    (hsum : n.toNat = sumOf as) (hne : src.key ≠ escrow.key)
    (hpieces : runPieces (fun a => processInstruction env ([recipient, wmint, auth, uprog, wprog, src,
      umint, escrow, tauth] ++ rest) (wrap a).pack) as L = .ok L2)
    (honce : processInstruction env ([recipient, wmint, auth, uprog, wprog, src, umint, escrow,
      tauth] ++ rest) (wrap n).pack L = .ok L3) :
    balanceOf L2 recipient.key = balanceOf L3 recipient.key := by
  have key : ∀ (as : List UInt64) (L L2 : Ledger), (L umint.key).data = .mint m →
      runPieces (fun a => processInstruction env ([recipient, wmint, auth, uprog, wprog, src,
        umint, escrow, tauth] ++ rest) (wrap a).pack) as L = .ok L2 →
      balanceOf L2 recipient.key = balanceOf L recipient.key + sumOf as := by
    intro as
    induction as with
    | nil => intro L L2 _ h; cases h; rfl
    | cons a as ih =>
      intro L L2 hm h
      have h0 := h
      simp only [runPieces, bind_ok_iff] at h
      obtain ⟨L1, h1, h2⟩ := h
      obtain ⟨m', f1, q1, q2, q3, q4, q5, q6, q7⟩ := wrap_credits_exactly_what_escrow_receives h1 hne
      obtain rfl := Data.mint.inj (hm.symm.trans q1)
      have hf : f1 = 0 := by unfold IsMintFee at q2; simpa only [hnofee] using q2
      have hone : runPieces (fun a => processInstruction env ([recipient, wmint, auth, uprog, wprog,
          src, umint, escrow, tauth] ++ rest) (wrap a).pack) [a] L = .ok L1 := by
        simp only [runPieces, h1, ok_bind]
      obtain ⟨_, _, _, hm1, _⟩ := wrap_pieces hne [a] L L1 m hm hone
      have := ih L1 L2 hm1 h2
      have hs : sumOf (a :: as) = a.toNat + sumOf as := by simp [sumOf]
      rw [this, q6, hs, hf]
      omega
  obtain ⟨m', f, q1, q2, q3, q4, q5, q6, q7⟩ := wrap_credits_exactly_what_escrow_receives honce hne
  obtain rfl := Data.mint.inj (hm.symm.trans q1)
  have hf : f = 0 := by unfold IsMintFee at q2; simpa only [hnofee] using q2
  rw [key as L L2 hm hpieces, q6, hf, hsum]
  rfl

end

section
variable {env : Env} {escrow recipient auth umint wprog uprog holder wmint tauth : Meta}
  {rest : List Meta}

/-- Unwraps in pieces. -/
theorem unwrap_pieces (hwu : wmint.key ≠ umint.key) (hne : escrow.key ≠ recipient.key) :
    ∀ (as : List UInt64) (L L' : Ledger) (m : Mint),
    (L umint.key).data = .mint m →
    runPieces (fun a => processInstruction env ([escrow, recipient, auth, umint, wprog, uprog, holder,
      wmint, tauth] ++ rest) (unwrap a).pack) as L = .ok L' →
    ∃ fees, (∀ f, IsMintFee m env.epoch (sumOf as) f → f ≤ fees) ∧ fees ≤ sumOf as ∧
      balanceOf L' holder.key + sumOf as = balanceOf L holder.key ∧
      balanceOf L' escrow.key + sumOf as = balanceOf L escrow.key ∧
      supplyOf L' wmint.key + sumOf as = supplyOf L wmint.key ∧
      balanceOf L' recipient.key = balanceOf L recipient.key + (sumOf as - fees) := by
  intro as
  induction as with
  | nil =>
    intro L L' m hm h
    cases h
    exact ⟨0, fun f hf => Nat.le_of_eq (isMintFee_zero hf), Nat.le_refl _, rfl, rfl, rfl, rfl⟩
  | cons a as ih =>
    intro L L' m hm h
    simp only [runPieces, bind_ok_iff] at h
    obtain ⟨L1, h1, h2⟩ := h
    obtain ⟨m', f1, q1, q2, q3, q4, q5, q6, q7⟩ := unwrap_pays_one_for_one h1 hwu hne
    obtain rfl := Data.mint.inj (hm.symm.trans q1)
    have hu : L1 umint.key = L umint.key := by
      obtain ⟨h0, e0, d0, m0, w0, f0, p1, p2, p3, p4, p5, _⟩ := unwrap_post_state h1 hwu (Ne.symm hne)
      apply (unwrap_frame h1 hwu).1
      simp only [List.mem_cons, List.not_mem_nil, or_false, not_or]
      refine ⟨?_, Ne.symm hwu, ?_, ?_⟩ <;> intro hk <;> rw [hk] at p4
      · rw [p1] at p4; cases p4
      · rw [p2] at p4; cases p4
      · rw [p3] at p4; cases p4
    obtain ⟨fees, r1, r2, r4, r5, r6, r7⟩ := ih L1 L' m (by rw [hu]; exact hm) h2
    have hs : sumOf (a :: as) = a.toNat + sumOf as := by simp [sumOf]
    rw [hs]
    refine ⟨f1 + fees, ?_, by omega, by omega, by omega, by omega, by omega⟩
    intro f hf
    obtain ⟨g, hg⟩ := isMintFee_exists m env.epoch (sumOf as)
    have := isMintFee_subadditive q2 hg hf
    have := r1 g hg
    omega

/-- **C91** Unwrapping in pieces burns the same wrapped tokens, takes the same out of the escrow and
pays at most what unwrapping the sum at once pays. -/
theorem splitting_an_unwrap_never_gains {as : List UInt64} {n : UInt64} {L L2 L3 : Ledger}
    (hsum : n.toNat = sumOf as) (hwu : wmint.key ≠ umint.key) (hne : escrow.key ≠ recipient.key)
    (hpieces : runPieces (fun a => processInstruction env ([escrow, recipient, auth, umint, wprog,
      uprog, holder, wmint, tauth] ++ rest) (unwrap a).pack) as L = .ok L2)
    (honce : processInstruction env ([escrow, recipient, auth, umint, wprog, uprog, holder, wmint,
      tauth] ++ rest) (unwrap n).pack L = .ok L3) :
    balanceOf L2 holder.key = balanceOf L3 holder.key ∧
    balanceOf L2 escrow.key = balanceOf L3 escrow.key ∧
    supplyOf L2 wmint.key = supplyOf L3 wmint.key ∧
    balanceOf L2 recipient.key ≤ balanceOf L3 recipient.key := by
  obtain ⟨m, f, q1, q2, q3, q4, q5, q6, q7⟩ := unwrap_pays_one_for_one honce hwu hne
  obtain ⟨fees, r1, r2, r4, r5, r6, r7⟩ := unwrap_pieces hwu hne as L L2 m q1 hpieces
  have := r1 f (by rw [← hsum]; exact q2)
  omega

end

/-! ## Concrete instances -/

namespace Example.Split

open Example

/-- 1% with a cap of 50. -/
def fee1 : TransferFee := ⟨0, 50, 100⟩

-- two wraps of 150 cost 2 each, one of 300 costs 3
example : IsFee fee1 150 2 ∧ IsFee fee1 (150 + 150) 3 := ⟨.inr (by decide), .inr (by decide)⟩
-- the cap: 10000 costs 50 and not 100
example : IsFee fee1 5000 50 ∧ IsFee fee1 (5000 + 5000) 50 := ⟨.inl (by decide), .inl (by decide)⟩

/-- The example wrap, for any amount. -/
def runW : UInt64 → Ledger → Res Ledger := fun a => processInstruction env
  (Build.wrap crateId rcp W A token2022Id splTokenId src u E user [] a).accounts (wrap a).pack

theorem pieces_ok : ok (runPieces runW [150, 150] L0) = true ∧ ok (runW 300 L0) = true := by
  decide +kernel

-- splitting loses one token: 296 instead of 297
example : balanceOf (get (runPieces runW [150, 150] L0)) rcp = 10 + 296 ∧
    balanceOf (get (runW 300 L0)) rcp = 10 + 297 := by decide +kernel

example : balanceOf (get (runPieces runW [150, 150] L0)) rcp ≤ balanceOf (get (runW 300 L0)) rcp :=
  (splitting_a_wrap_never_gains (as := [150, 150]) (n := 300) (by decide +kernel)
    (show src ≠ E by decide +kernel) (get_eq pieces_ok.1) (get_eq pieces_ok.2)).2.1

/-- The example unwrap, for any amount. -/
def runU : UInt64 → Ledger → Res Ledger := fun a => processInstruction env
  (Build.unwrap crateId E src A u splTokenId token2022Id rcp W user [] a).accounts (unwrap a).pack

-- unwrapping 4 and 3 instead of 7 costs one token more
example : ok (runPieces runU [4, 3] L0) = true ∧
    balanceOf (get (runPieces runU [4, 3] L0)) src = 5000 + 5 ∧
    balanceOf (get (runU 7 L0)) src = 5000 + 6 := by decide +kernel

end Example.Split

end TokenWrap
