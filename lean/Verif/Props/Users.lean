import Verif.Props.PostState
import Verif.Props.Exact
/-!
# C90: users of one pair do not disturb each other

A batch of Wraps and Unwraps of one token pair by different users, with disjoint token accounts: if
each of them would succeed on its own, and the escrow and the supply have room for all of them
together, then they all succeed in whatever order they are executed, every user ends with exactly
what they would have had alone, and the final ledger does not depend on the order.
-/

set_option linter.unusedSimpArgs false

namespace TokenWrap

open TokenWrapInstruction

/-- The addresses of one token pair: the wrapped mint, its authority, the escrow, the unwrapped mint
and the two token programs. -/
structure Pair where
  W : Pubkey
  A : Pubkey
  E : Pubkey
  u : Pubkey
  uprog : Pubkey
  wprog : Pubkey

/-- What a user does: a Wrap or an Unwrap with their own two token accounts. -/
inductive UserOp
  | wrap (rcp src tauth : Pubkey) (members : List Pubkey) (amount : UInt64)
  | unwrap (rcp holder tauth : Pubkey) (members : List Pubkey) (amount : UInt64)

namespace UserOp

/-- The user's own token accounts. -/
def own : UserOp → List Pubkey
  | wrap rcp src _ _ _ => [src, rcp]
  | unwrap rcp holder _ _ _ => [holder, rcp]

/-- The amount in the instruction. -/
def amount : UserOp → Nat
  | wrap _ _ _ _ a => a.toNat
  | unwrap _ _ _ _ a => a.toNat

/-- What goes into the escrow, before fees. -/
def paidIn : UserOp → Nat
  | wrap _ _ _ _ a => a.toNat
  | unwrap _ _ _ _ _ => 0

/-- What is taken out of the escrow. -/
def paidOut : UserOp → Nat
  | wrap _ _ _ _ _ => 0
  | unwrap _ _ _ _ a => a.toNat

/-- The part of a fee that the escrow withholds: that of a Wrap. -/
def feeIn (fees : UserOp → Nat) : UserOp → Nat
  | wrap r s t m a => fees (wrap r s t m a)
  | unwrap _ _ _ _ _ => 0

/-- The instruction, as the public builders make it, executed. -/
def run (env : Env) (p : Pair) (op : UserOp) (L : Ledger) : Res Ledger :=
  match op with
  | wrap rcp src tauth members amount =>
    processInstruction env
      (Build.wrap crateId rcp p.W p.A p.uprog p.wprog src p.u p.E tauth members amount).accounts
      (Build.wrap crateId rcp p.W p.A p.uprog p.wprog src p.u p.E tauth members amount).data L
  | unwrap rcp holder tauth members amount =>
    processInstruction env
      (Build.unwrap crateId p.E rcp p.A p.u p.wprog p.uprog holder p.W tauth members amount).accounts
      (Build.unwrap crateId p.E rcp p.A p.u p.wprog p.uprog holder p.W tauth members amount).data L

/-- Ordinary use: the own accounts are not the escrow, the authority is not among its own members, a
multisig authority is an initialised one of the right token program, and the wrapped account is not
one that the system program or the incinerator owns. -/
def Ordinary (p : Pair) (L : Ledger) : UserOp → Prop
  | wrap _ src tauth members _ => src ≠ p.E ∧ tauth ∉ members ∧
      ∀ ms, (L tauth).data = .multisig ms → (L tauth).owner = p.uprog ∧ 1 ≤ ms.m
  | unwrap rcp holder tauth members _ => rcp ≠ p.E ∧ tauth ∉ members ∧
      (∀ ms, (L tauth).data = .multisig ms → (L tauth).owner = p.wprog ∧ 1 ≤ ms.m) ∧
      ∀ h, (L holder).data = .token h → ownedByNobody h = false

/-- Lamports that enter the escrow with native tokens. -/
def lamIn (L : Ledger) : UserOp → Nat
  | wrap _ src _ _ a => match (L src).data with
    | .token s => nativeLamports s a.toNat
    | _ => 0
  | unwrap _ _ _ _ _ => 0

/-- Lamports that leave the escrow with native tokens. -/
def lamOut (p : Pair) (L : Ledger) : UserOp → Nat
  | wrap _ _ _ _ _ => 0
  | unwrap _ _ _ _ a => match (L p.E).data with
    | .token e => nativeLamports e a.toNat
    | _ => 0

/-- The well-formed situation for one operation with its fee. -/
def Ready (env : Env) (p : Pair) (L : Ledger) (fee : Nat) : UserOp → Prop
  | wrap rcp src tauth members amount => amount ≠ 0 ∧ src ≠ p.E ∧ ∃ s d r m w,
      CanWrap env L rcp p.W p.A p.uprog p.wprog src p.u p.E tauth members amount.toNat fee s d r m w
  | unwrap rcp holder tauth members amount => amount ≠ 0 ∧ rcp ≠ p.E ∧ ∃ e d h m w,
      CanUnwrap env L p.E rcp p.A p.u p.wprog p.uprog holder p.W tauth members amount.toNat fee e d h
        m w

end UserOp

/-- Execute operations one after the other. -/
def runUsers (env : Env) (p : Pair) : List UserOp → Ledger → Res Ledger
  | [], L => .ok L
  | op :: ops, L => do
    let L1 ← op.run env p L
    runUsers env p ops L1

/-- Sum of a quantity over the operations. -/
def total (f : UserOp → Nat) (ops : List UserOp) : Nat := (ops.map f).sum

/-- What happened to the shared accounts, and that nothing outside `own` happened otherwise. -/
structure SharedStep (p : Pair) (own : List Pubkey) (L L1 : Ledger) (inn fee out lin lout : Nat) :
    Prop where
  other : ∀ k, k ∉ own → k ≠ p.E → k ≠ p.W → L1 k = L k
  escrow : ∀ e, (L p.E).data = .token e → L1 p.E = ⟨(L p.E).lamports + lin - lout, (L p.E).owner,
    .token { e with amount := e.amount + (inn - fee) - out, withheld := e.withheld + fee }⟩
  wmint : ∀ w, (L p.W).data = .mint w → L1 p.W = ⟨(L p.W).lamports, (L p.W).owner,
    .mint { w with supply := w.supply + (inn - fee) - out }⟩
  toks : ∀ k ∈ own, (∃ t, (L k).data = .token t) ∧ ∃ t, (L1 k).data = .token t
  sep : p.E ∉ own ∧ p.W ∉ own

theorem takenFrom_plain {t : TokenAcct} {pd : Option Pubkey} {auth : Pubkey} {amount : Nat}
    (h : t.delegate = none) : takenFrom t pd auth amount = { t with amount := t.amount - amount } := by
  unfold takenFrom
  rw [if_neg (by rw [h]; simp)]

section
variable {env : Env} {p : Pair} {L L1 L2 : Ledger}

/-- One ready operation runs, with the specified effect on the shared accounts. -/
theorem UserOp.Ready.runs {op : UserOp} {fee : Nat}
    (hid : env.programId = crateId) (hrej : ∀ p ix sg L, env.reject p ix sg L = none)
    (hr : op.Ready env p L fee) : ∃ L1, op.run env p L = .ok L1 ∧
      SharedStep p op.own L L1 op.paidIn (op.feeIn fun _ => fee) op.paidOut (op.lamIn L)
        (op.lamOut p L) := by
  cases op with
  | wrap rcp src tauth members amount =>
    obtain ⟨hz, hne, s, d, r, m, w, c⟩ := hr
    refine ⟨_, wrap_runs_to hid hz hrej hne c, ?_⟩
    have nSW : p.W ≠ src := by rintro h; have := c.srcData; rw [← h, c.wData] at this; cases this
    have nEW : p.W ≠ p.E := by rintro h; have := c.escData; rw [← h, c.wData] at this; cases this
    have nRW : p.W ≠ rcp := by rintro h; have := c.rData; rw [← h, c.wData] at this; cases this
    have nRE : rcp ≠ p.E := by
      rintro h; have := c.rData; rw [h, c.escData] at this; cases this
      exact c.wNeU (c.rMint.symm.trans c.escMint)
    have nRS : rcp ≠ src := by
      rintro h; have := c.rData; rw [h, c.srcData] at this; cases this
      exact c.wNeU (c.rMint.symm.trans c.srcMint)
    constructor
    · intro k hk h1 h2
      simp only [UserOp.own, List.mem_cons, List.not_mem_nil, or_false, not_or] at hk
      simp only [ledgerAfterWrap, if_neg hk.1, if_neg h1, if_neg hk.2, if_neg h2]
    · intro e he
      obtain rfl := Data.token.inj (he.symm.trans c.escData)
      simp only [ledgerAfterWrap, if_neg (Ne.symm hne), if_true, receivedBy, UserOp.paidIn,
        UserOp.paidOut, UserOp.feeIn, UserOp.lamIn, UserOp.lamOut, c.srcData, Nat.sub_zero]
    · intro w' hw
      obtain rfl := Data.mint.inj (hw.symm.trans c.wData)
      simp only [ledgerAfterWrap, if_neg nSW, if_neg nEW, if_neg nRW, if_true, UserOp.paidIn,
        UserOp.paidOut, UserOp.feeIn, Nat.sub_zero]
    · intro k hk
      simp only [UserOp.own, List.mem_cons, List.not_mem_nil, or_false] at hk
      rcases hk with rfl | rfl
      · refine ⟨⟨s, c.srcData⟩, ?_⟩
        simp only [ledgerAfterWrap, if_true]; exact ⟨_, rfl⟩
      · refine ⟨⟨r, c.rData⟩, ?_⟩
        simp only [ledgerAfterWrap, if_neg nRS, if_neg nRE, if_true]; exact ⟨_, rfl⟩
    · simp only [UserOp.own, List.mem_cons, List.not_mem_nil, or_false, not_or]
      exact ⟨⟨Ne.symm hne, Ne.symm nRE⟩, nSW, nRW⟩
  | unwrap rcp holder tauth members amount =>
    obtain ⟨hz, hne, e, d, h, m, w, c⟩ := hr
    refine ⟨_, unwrap_runs_to hid hz hrej hne c, ?_⟩
    have nHW : p.W ≠ holder := by rintro h; have := c.hData; rw [← h, c.wData] at this; cases this
    have nEW : p.W ≠ p.E := by rintro h; have := c.escData; rw [← h, c.wData] at this; cases this
    have nRW : p.W ≠ rcp := by rintro h; have := c.rData; rw [← h, c.wData] at this; cases this
    have nHE : holder ≠ p.E := by
      rintro h; have := c.hData; rw [h, c.escData] at this; cases this
      exact c.wNeU (c.hMint.symm.trans c.escMint)
    have nRH : rcp ≠ holder := by
      rintro h; have := c.rData; rw [h, c.hData] at this; cases this
      exact c.wNeU (c.hMint.symm.trans c.rMint)
    constructor
    · intro k hk h1 h2
      simp only [UserOp.own, List.mem_cons, List.not_mem_nil, or_false, not_or] at hk
      simp only [ledgerAfterUnwrap, if_neg hk.1, if_neg h1, if_neg hk.2, if_neg h2]
    · intro e' he
      obtain rfl := Data.token.inj (he.symm.trans c.escData)
      simp only [ledgerAfterUnwrap, if_neg (Ne.symm nHE), if_neg (Ne.symm nEW), if_true,
        takenFrom_plain c.escDelegate, UserOp.paidIn, UserOp.paidOut, UserOp.feeIn, UserOp.lamIn,
        UserOp.lamOut, c.escData, Nat.sub_zero, Nat.add_zero]
    · intro w' hw
      obtain rfl := Data.mint.inj (hw.symm.trans c.wData)
      simp only [ledgerAfterUnwrap, if_neg nHW, if_true, UserOp.paidIn, UserOp.paidOut,
        UserOp.feeIn, Nat.sub_zero, Nat.add_zero]
    · intro k hk
      simp only [UserOp.own, List.mem_cons, List.not_mem_nil, or_false] at hk
      rcases hk with rfl | rfl
      · refine ⟨⟨h, c.hData⟩, ?_⟩
        simp only [ledgerAfterUnwrap, if_true]; exact ⟨_, rfl⟩
      · refine ⟨⟨d, c.rData⟩, ?_⟩
        simp only [ledgerAfterUnwrap, if_neg nRH, if_neg (Ne.symm nRW), if_neg hne, if_true]
        exact ⟨_, rfl⟩
    · simp only [UserOp.own, List.mem_cons, List.not_mem_nil, or_false, not_or]
      exact ⟨⟨Ne.symm nHE, Ne.symm hne⟩, nHW, nRW⟩

/-- A step changes no account into or from a multisig. -/
theorem SharedStep.multisig {own : List Pubkey} {a b c d f : Nat}
    (st : SharedStep p own L L1 a b c d f) {e : TokenAcct} {w : Mint}
    (he : (L p.E).data = .token e) (hw : (L p.W).data = .mint w) (k : Pubkey) :
    L1 k = L k ∨ ((∀ ms, (L k).data ≠ .multisig ms) ∧ (∀ ms, (L1 k).data ≠ .multisig ms)) := by
  by_cases hk : k ∈ own
  · obtain ⟨⟨t, h1⟩, ⟨t', h2⟩⟩ := st.toks k hk
    exact .inr ⟨fun ms h => (by rw [h1] at h; cases h), fun ms h => (by rw [h2] at h; cases h)⟩
  · by_cases k1 : k = p.E
    · subst k1
      exact .inr ⟨fun ms h => (by rw [he] at h; cases h),
        fun ms h => (by rw [st.escrow e he] at h; cases h)⟩
    · by_cases k2 : k = p.W
      · subst k2
        exact .inr ⟨fun ms h => (by rw [hw] at h; cases h),
          fun ms h => (by rw [st.wmint w hw] at h; cases h)⟩
      · exact .inl (st.other k hk k1 k2)

theorem SharedStep.approval {own : List Pubkey} {a b c d f : Nat}
    (st : SharedStep p own L L1 a b c d f) {e : TokenAcct} {w : Mint}
    (he : (L p.E).data = .token e) (hw : (L p.W).data = .mint w) {prog auth : Pubkey}
    {members : List Pubkey} (h : BuiltApproval prog L auth members) :
    BuiltApproval prog L1 auth members := by
  rcases st.multisig he hw auth with hm | ⟨h1, h2⟩
  · unfold BuiltApproval; rw [hm]; exact h
  · rcases h with ⟨h, _⟩ | ⟨ms, _, h, _⟩
    · exact .inl ⟨h, h2⟩
    · exact absurd h (h1 ms)

/-- An operation stays ready while other users act, if the escrow and the supply leave room. -/
theorem UserOp.Ready.stable {op : UserOp} {fee : Nat} {own : List Pubkey}
    {inn f out lin lout : Nat} (hr : op.Ready env p L fee)
    (st : SharedStep p own L L1 inn f out lin lout) (hdis : ∀ k ∈ op.own, k ∉ own)
    {e : TokenAcct} {w : Mint} (he : (L p.E).data = .token e) (hw : (L p.W).data = .mint w)
    (room : e.amount + (inn - f) + (op.paidIn - op.feeIn fun _ => fee) ≤ u64Max)
    (roomS : w.supply + (inn - f) + (op.paidIn - op.feeIn fun _ => fee) ≤ u64Max)
    (enough : out + op.paidOut ≤ e.amount) (enoughS : out + op.paidOut ≤ w.supply)
    (enoughL : e.isNative = none ∨ lout + op.paidOut ≤ (L p.E).lamports) :
    op.Ready env p L1 fee := by
  cases op with
  | wrap rcp src tauth members amount =>
    obtain ⟨hz, hne, s, d, r, m, w', c⟩ := hr
    obtain rfl := Data.token.inj (he.symm.trans c.escData)
    obtain rfl := Data.mint.inj (hw.symm.trans c.wData)
    have hE := st.escrow e he
    have hW := st.wmint w hw
    have nSW : src ≠ p.W := by rintro h; have := c.srcData; rw [h, c.wData] at this; cases this
    have nEW : p.E ≠ p.W := by rintro h; have := c.escData; rw [h, c.wData] at this; cases this
    have nRW : rcp ≠ p.W := by rintro h; have := c.rData; rw [h, c.wData] at this; cases this
    have nRE : rcp ≠ p.E := by
      rintro h; have := c.rData; rw [h, c.escData] at this; cases this
      exact c.wNeU (c.rMint.symm.trans c.escMint)
    have oS : L1 src = L src := st.other _ (hdis _ (by simp [UserOp.own])) hne nSW
    have oR : L1 rcp = L rcp := st.other _ (hdis _ (by simp [UserOp.own])) nRE nRW
    have oU : L1 p.u = L p.u := by
      refine st.other _ ?_ ?_ (Ne.symm c.wNeU)
      · intro hk; obtain ⟨⟨t, h1⟩, _⟩ := st.toks _ hk; rw [c.mintData] at h1; cases h1
      · intro h; have := c.mintData; rw [h, c.escData] at this; cases this
    have oA : L1 p.A = L p.A := by
      refine st.other _ ?_ ?_ ?_
      · intro hk; obtain ⟨⟨t, h1⟩, _⟩ := st.toks _ hk; rw [c.aData] at h1; cases h1
      · intro h; have := c.aData; rw [h, c.escData] at this; cases this
      · intro h; have := c.aData; rw [h, c.wData] at this; cases this
    simp only [UserOp.paidIn, UserOp.feeIn] at room roomS
    refine ⟨hz, hne, s, { e with amount := e.amount + (inn - f) - out, withheld := e.withheld + f }, r,
      m, { w with supply := w.supply + (inn - f) - out }, ?_⟩
    exact
      { uprogOk := c.uprogOk, wprogOk := c.wprogOk, addrW := c.addrW, addrA := c.addrA
        addrE := c.addrE, wNeU := c.wNeU
        srcOwner := by rw [oS]; exact c.srcOwner
        srcData := by rw [oS]; exact c.srcData
        srcMint := c.srcMint, srcThawed := c.srcThawed, enough := c.enough
        native := by rw [oS]; exact c.native
        spend := c.spend, approval := st.approval he hw c.approval
        mintOwner := by rw [oU]; exact c.mintOwner
        mintData := by rw [oU]; exact c.mintData
        splExts := c.splExts, feeEq := c.feeEq, feeLe := c.feeLe
        wOwner := by rw [hW]; exact c.wOwner
        wData := by rw [hW]
        wExts := c.wExts, wAuth := c.wAuth
        aData := by rw [oA]; exact c.aData
        rOwner := by rw [oR]; exact c.rOwner
        rData := by rw [oR]; exact c.rData
        rMint := c.rMint, rThawed := c.rThawed, rNative := c.rNative, rRoom := c.rRoom
        supRoom := by dsimp only; omega
        escOwner := by rw [hE]; exact c.escOwner
        escData := by rw [hE]
        escMint := c.escMint, escTokenOwner := c.escTokenOwner, escThawed := c.escThawed
        escFee := c.escFee
        escRoom := by dsimp only; omega }
  | unwrap rcp holder tauth members amount =>
    obtain ⟨hz, hne, e', d, h, m, w', c⟩ := hr
    obtain rfl := Data.token.inj (he.symm.trans c.escData)
    obtain rfl := Data.mint.inj (hw.symm.trans c.wData)
    have hE := st.escrow e he
    have hW := st.wmint w hw
    have nHW : holder ≠ p.W := by rintro h; have := c.hData; rw [h, c.wData] at this; cases this
    have nRW : rcp ≠ p.W := by rintro h; have := c.rData; rw [h, c.wData] at this; cases this
    have nHE : holder ≠ p.E := by
      rintro h; have := c.hData; rw [h, c.escData] at this; cases this
      exact c.wNeU (c.hMint.symm.trans c.escMint)
    have oH : L1 holder = L holder := st.other _ (hdis _ (by simp [UserOp.own])) nHE nHW
    have oR : L1 rcp = L rcp := st.other _ (hdis _ (by simp [UserOp.own])) hne nRW
    have oU : L1 p.u = L p.u := by
      refine st.other _ ?_ ?_ (Ne.symm c.wNeU)
      · intro hk; obtain ⟨⟨t, h1⟩, _⟩ := st.toks _ hk; rw [c.mintData] at h1; cases h1
      · intro h; have := c.mintData; rw [h, c.escData] at this; cases this
    have oA : L1 p.A = L p.A := by
      refine st.other _ ?_ ?_ ?_
      · intro hk; obtain ⟨⟨t, h1⟩, _⟩ := st.toks _ hk; rw [c.aData] at h1; cases h1
      · intro h; have := c.aData; rw [h, c.escData] at this; cases this
      · intro h; have := c.aData; rw [h, c.wData] at this; cases this
    simp only [UserOp.paidOut] at enough enoughS enoughL
    refine ⟨hz, hne, { e with amount := e.amount + (inn - f) - out, withheld := e.withheld + f }, d, h,
      m, { w with supply := w.supply + (inn - f) - out }, ?_⟩
    exact
      { uprogOk := c.uprogOk, wprogOk := c.wprogOk, addrW := c.addrW, addrA := c.addrA
        addrE := c.addrE, wNeU := c.wNeU
        hOwner := by rw [oH]; exact c.hOwner
        hData := by rw [oH]; exact c.hData
        hMint := c.hMint, hThawed := c.hThawed, hNative := c.hNative, enough := c.enough
        spend := c.spend, approval := st.approval he hw c.approval
        wOwner := by rw [hW]; exact c.wOwner
        wData := by rw [hW]
        wExts := c.wExts
        supply := by dsimp only; omega
        escOwner := by rw [hE]; exact c.escOwner
        escData := by rw [hE]
        escMint := c.escMint, escTokenOwner := c.escTokenOwner, escThawed := c.escThawed
        escDelegate := c.escDelegate
        escEnough := by dsimp only; omega
        escNative := by
          rw [hE]
          rcases enoughL with h | h
          · exact .inl h
          · right; dsimp only; omega
        aData := by rw [oA]; exact c.aData
        mintOwner := by rw [oU]; exact c.mintOwner
        mintData := by rw [oU]; exact c.mintData
        splExts := c.splExts, feeEq := c.feeEq, feeLe := c.feeLe
        rOwner := by rw [oR]; exact c.rOwner
        rData := by rw [oR]; exact c.rData
        rMint := c.rMint, rThawed := c.rThawed, rFee := c.rFee, rRoom := c.rRoom }

/-- What a user gets does not depend on what others did before. -/
theorem UserOp.Ready.own_eq {op : UserOp} {fee : Nat} {own : List Pubkey}
    {inn f out lin lout : Nat} {M M1 : Ledger}
    (hid : env.programId = crateId) (hrej : ∀ p ix sg L, env.reject p ix sg L = none)
    (hr : op.Ready env p L fee) (hr1 : op.Ready env p L1 fee)
    (st : SharedStep p own L L1 inn f out lin lout) (hdis : ∀ k ∈ op.own, k ∉ own)
    (h : op.run env p L = .ok M) (h1 : op.run env p L1 = .ok M1) : ∀ k ∈ op.own, M1 k = M k := by
  cases op with
  | wrap rcp src tauth members amount =>
    obtain ⟨hz, hne, s, d, r, m, w, c⟩ := hr
    obtain ⟨_, _, s1, d1, r1, m1, w1, c1⟩ := hr1
    have nSW : src ≠ p.W := by rintro h; have := c.srcData; rw [h, c.wData] at this; cases this
    have nRW : rcp ≠ p.W := by rintro h; have := c.rData; rw [h, c.wData] at this; cases this
    have nRE : rcp ≠ p.E := by
      rintro h; have := c.rData; rw [h, c.escData] at this; cases this
      exact c.wNeU (c.rMint.symm.trans c.escMint)
    have nRS : rcp ≠ src := by
      rintro h; have := c.rData; rw [h, c.srcData] at this; cases this
      exact c.wNeU (c.rMint.symm.trans c.srcMint)
    have oS : L1 src = L src := st.other _ (hdis _ (by simp [UserOp.own])) hne nSW
    have oR : L1 rcp = L rcp := st.other _ (hdis _ (by simp [UserOp.own])) nRE nRW
    have oU : L1 p.u = L p.u := by
      refine st.other _ ?_ ?_ (Ne.symm c.wNeU)
      · intro hk; obtain ⟨⟨t, h1⟩, _⟩ := st.toks _ hk; rw [c.mintData] at h1; cases h1
      · intro h; have := c.mintData; rw [h, c.escData] at this; cases this
    obtain rfl := Data.token.inj (c.srcData.symm.trans ((congrArg Account.data oS).symm.trans c1.srcData))
    obtain rfl := Data.token.inj (c.rData.symm.trans ((congrArg Account.data oR).symm.trans c1.rData))
    obtain rfl := Data.mint.inj (c.mintData.symm.trans ((congrArg Account.data oU).symm.trans c1.mintData))
    have e := h.symm.trans (wrap_runs_to hid hz hrej hne c)
    have e1 := h1.symm.trans (wrap_runs_to hid hz hrej hne c1)
    cases e; cases e1
    intro k hk
    simp only [UserOp.own, List.mem_cons, List.not_mem_nil, or_false] at hk
    rcases hk with rfl | rfl
    · simp only [ledgerAfterWrap, if_true, oS]
    · simp only [ledgerAfterWrap, if_neg nRS, if_neg nRE, if_true, oR]
  | unwrap rcp holder tauth members amount =>
    obtain ⟨hz, hne, e, d, h', m, w, c⟩ := hr
    obtain ⟨_, _, e1, d1, h1', m1, w1, c1⟩ := hr1
    have nHW : holder ≠ p.W := by rintro h; have := c.hData; rw [h, c.wData] at this; cases this
    have nRW : rcp ≠ p.W := by rintro h; have := c.rData; rw [h, c.wData] at this; cases this
    have nHE : holder ≠ p.E := by
      rintro h; have := c.hData; rw [h, c.escData] at this; cases this
      exact c.wNeU (c.hMint.symm.trans c.escMint)
    have nRH : rcp ≠ holder := by
      rintro h; have := c.rData; rw [h, c.hData] at this; cases this
      exact c.wNeU (c.hMint.symm.trans c.rMint)
    have oH : L1 holder = L holder := st.other _ (hdis _ (by simp [UserOp.own])) nHE nHW
    have oR : L1 rcp = L rcp := st.other _ (hdis _ (by simp [UserOp.own])) hne nRW
    have hpd : pdOf p.wprog w1 = pdOf p.wprog w := by
      have := st.wmint w c.wData
      have q := c1.wData
      rw [this] at q
      obtain rfl := Data.mint.inj q
      rfl
    have hnat : nativeLamports e1 amount.toNat = nativeLamports e amount.toNat := by
      have := st.escrow e c.escData
      have q := c1.escData
      rw [this] at q
      obtain rfl := Data.token.inj q
      rfl
    obtain rfl := Data.token.inj (c.hData.symm.trans ((congrArg Account.data oH).symm.trans c1.hData))
    obtain rfl := Data.token.inj (c.rData.symm.trans ((congrArg Account.data oR).symm.trans c1.rData))
    have q := h.symm.trans (unwrap_runs_to hid hz hrej hne c)
    have q1 := h1.symm.trans (unwrap_runs_to hid hz hrej hne c1)
    cases q; cases q1
    intro k hk
    simp only [UserOp.own, List.mem_cons, List.not_mem_nil, or_false] at hk
    rcases hk with rfl | rfl
    · simp only [ledgerAfterUnwrap, if_true, oH, hpd]
    · simp only [ledgerAfterUnwrap, if_neg nRH, if_neg nRW, if_neg hne, if_true, oR, hnat]

theorem SharedStep.trans {own own' : List Pubkey} {i f o li lo i' f' o' li' lo' : Nat}
    (a : SharedStep p own L L1 i f o li lo) (b : SharedStep p own' L1 L2 i' f' o' li' lo')
    {e : TokenAcct} {w : Mint} (he : (L p.E).data = .token e) (hw : (L p.W).data = .mint w)
    (h1 : f ≤ i) (h2 : f' ≤ i') (h3 : o ≤ e.amount) (h4 : o ≤ w.supply)
    (h5 : lo ≤ (L p.E).lamports) :
    SharedStep p (own ++ own') L L2 (i + i') (f + f') (o + o') (li + li') (lo + lo') := by
  have hE := a.escrow e he
  have hW := a.wmint w hw
  have hE2 := b.escrow _ (congrArg Account.data hE)
  have hW2 := b.wmint _ (congrArg Account.data hW)
  constructor
  · intro k hk k1 k2
    simp only [List.mem_append, not_or] at hk
    rw [b.other k hk.2 k1 k2, a.other k hk.1 k1 k2]
  · intro e' he'
    obtain rfl := Data.token.inj (he.symm.trans he')
    rw [hE2, hE]
    dsimp only
    have x1 : (L p.E).lamports + li - lo + li' - lo' = (L p.E).lamports + (li + li') - (lo + lo') := by
      omega
    have x2 : e.amount + (i - f) - o + (i' - f') - o' =
        e.amount + (i + i' - (f + f')) - (o + o') := by omega
    rw [x1, x2, Nat.add_assoc]
  · intro w' hw'
    obtain rfl := Data.mint.inj (hw.symm.trans hw')
    rw [hW2, hW]
    dsimp only
    have x2 : w.supply + (i - f) - o + (i' - f') - o' =
        w.supply + (i + i' - (f + f')) - (o + o') := by omega
    rw [x2]
  · intro k hk
    by_cases k1 : k ∈ own
    · refine ⟨(a.toks k k1).1, ?_⟩
      by_cases k2 : k ∈ own'
      · exact (b.toks k k2).2
      · rw [b.other k k2 (fun h => a.sep.1 (h ▸ k1)) (fun h => a.sep.2 (h ▸ k1))]
        exact (a.toks k k1).2
    · have k2 : k ∈ own' := (List.mem_append.1 hk).resolve_left k1
      refine ⟨?_, (b.toks k k2).2⟩
      rw [← a.other k k1 (fun h => b.sep.1 (h ▸ k2)) (fun h => b.sep.2 (h ▸ k2))]
      exact (b.toks k k2).1
  · simp only [List.mem_append, not_or]
    exact ⟨⟨a.sep.1, b.sep.1⟩, a.sep.2, b.sep.2⟩

theorem UserOp.Ready.feeLe {op : UserOp} {fee : Nat} (hr : op.Ready env p L fee) :
    (op.feeIn fun _ => fee) ≤ op.paidIn := by
  cases op with
  | wrap => obtain ⟨_, _, s, d, r, m, w, c⟩ := hr; exact c.feeLe
  | unwrap => exact Nat.le_refl _

theorem feeIn_const (fees : UserOp → Nat) (op : UserOp) :
    (op.feeIn fun _ => fees op) = op.feeIn fees := by cases op <;> rfl

theorem total_cons (f : UserOp → Nat) (op : UserOp) (ops : List UserOp) :
    total f (op :: ops) = f op + total f ops := by simp [total]

theorem le_total (f : UserOp → Nat) {op : UserOp} {ops : List UserOp} (h : op ∈ ops) :
    f op ≤ total f ops := by
  induction ops with
  | nil => cases h
  | cons x xs ih =>
    rw [total_cons]
    rcases List.mem_cons.1 h with rfl | h
    · omega
    · have := ih h; omega

theorem total_mono {f g : UserOp → Nat} {ops : List UserOp} (h : ∀ op ∈ ops, f op ≤ g op) :
    total f ops ≤ total g ops := by
  induction ops with
  | nil => exact Nat.le_refl _
  | cons x xs ih =>
    rw [total_cons, total_cons]
    have := h x (by simp)
    have := ih fun op ho => h op (by simp [ho])
    omega

theorem total_congr {f g : UserOp → Nat} {ops : List UserOp} (h : ∀ op ∈ ops, f op = g op) :
    total f ops = total g ops :=
  Nat.le_antisymm (total_mono fun op ho => Nat.le_of_eq (h op ho))
    (total_mono fun op ho => Nat.le_of_eq (h op ho).symm)

theorem total_sub {f g : UserOp → Nat} {ops : List UserOp} (h : ∀ op ∈ ops, g op ≤ f op) :
    total (fun op => f op - g op) ops = total f ops - total g ops ∧ total g ops ≤ total f ops := by
  refine ⟨?_, total_mono h⟩
  induction ops with
  | nil => rfl
  | cons x xs ih =>
    simp only [total_cons]
    have h1 := h x (by simp)
    have h2 := ih fun op ho => h op (by simp [ho])
    have h3 := total_mono fun op (ho : op ∈ xs) => h op (by simp [ho])
    omega

theorem lamOut_le (p : Pair) (L : Ledger) (op : UserOp) : op.lamOut p L ≤ op.paidOut := by
  cases op with
  | wrap => exact Nat.le_refl _
  | unwrap =>
    simp only [UserOp.lamOut, UserOp.paidOut]
    split
    · unfold nativeLamports; split <;> omega
    · omega

/-- The batch, by induction. -/
theorem users_aux (hid : env.programId = crateId) (hrej : ∀ p ix sg L, env.reject p ix sg L = none)
    (fees : UserOp → Nat) : ∀ (ops : List UserOp) (L : Ledger) (e : TokenAcct) (w : Mint),
    (L p.E).data = .token e → (L p.W).data = .mint w →
    (∀ op ∈ ops, op.Ready env p L (fees op)) →
    ops.Pairwise (fun a b => ∀ k ∈ a.own, k ∉ b.own) →
    e.amount + total (fun op => op.paidIn - op.feeIn fees) ops ≤ u64Max →
    w.supply + total (fun op => op.paidIn - op.feeIn fees) ops ≤ u64Max →
    total UserOp.paidOut ops ≤ e.amount → total UserOp.paidOut ops ≤ w.supply →
    (e.isNative = none ∨ total UserOp.paidOut ops ≤ (L p.E).lamports) →
    ∃ L', runUsers env p ops L = .ok L' ∧
      SharedStep p (ops.flatMap UserOp.own) L L' (total UserOp.paidIn ops)
        (total (UserOp.feeIn fees) ops) (total UserOp.paidOut ops) (total (UserOp.lamIn L) ops)
        (total (UserOp.lamOut p L) ops) ∧
      ∀ op ∈ ops, ∃ Lop, op.run env p L = .ok Lop ∧ ∀ k ∈ op.own, L' k = Lop k := by
  intro ops
  induction ops with
  | nil =>
    intro L e w he hw _ _ _ _ _ _ _
    refine ⟨L, rfl, ?_, by simp⟩
    refine ⟨fun _ _ _ _ => rfl, ?_, ?_, by simp, by simp⟩
    · intro e' he'; simp only [total, List.map_nil, List.sum_nil, Nat.sub_zero, Nat.add_zero, ← he']
    · intro w' hw'; simp only [total, List.map_nil, List.sum_nil, Nat.sub_zero, Nat.add_zero, ← hw']
  | cons op ops ih =>
    intro L e w he hw hrdy hpw room roomS enough enoughS enoughL
    have hop := hrdy op (by simp)
    obtain ⟨L1, hrun, st⟩ := hop.runs hid hrej
    rw [feeIn_const] at st
    obtain ⟨hp1, hp2⟩ := List.pairwise_cons.1 hpw
    have hfle : op.feeIn fees ≤ op.paidIn := by
      have := hop.feeLe; rwa [feeIn_const] at this
    simp only [total_cons] at room roomS enough enoughS enoughL
    have hE := st.escrow e he
    have hW := st.wmint w hw
    have hdis : ∀ op' ∈ ops, ∀ k ∈ op'.own, k ∉ op.own := fun op' ho k hk hk' => hp1 op' ho k hk' hk
    have hl := lamOut_le p L op
    have hnat0 : e.isNative = none → op.lamOut p L = 0 := by
      intro hn
      cases op with
      | wrap => rfl
      | unwrap =>
        simp only [UserOp.lamOut, he, nativeLamports, hn]
        rfl
    have hrdy1 : ∀ op' ∈ ops, op'.Ready env p L1 (fees op') := by
      intro op' ho
      have t1 := le_total (fun op => op.paidIn - op.feeIn fees) ho
      have t2 := le_total UserOp.paidOut ho
      refine (hrdy op' (by simp [ho])).stable st (hdis op' ho) he hw ?_ ?_ ?_ ?_ ?_
      · rw [feeIn_const]; omega
      · rw [feeIn_const]; omega
      · omega
      · omega
      · rcases enoughL with h | h
        · exact .inl h
        · exact .inr (by omega)
    have hE' := congrArg Account.data hE
    have hW' := congrArg Account.data hW
    have hEl := congrArg Account.lamports hE
    dsimp only at hE' hW' hEl
    obtain ⟨L', hrest, st', hown⟩ := ih L1 _ _ hE' hW' hrdy1 hp2 (by dsimp only; omega)
      (by dsimp only; omega) (by dsimp only; omega) (by dsimp only; omega)
      (by
        rcases enoughL with h | h
        · exact .inl h
        · right; rw [hEl]; omega)
    have e1 : total (UserOp.lamIn L1) ops = total (UserOp.lamIn L) ops := by
      apply total_congr
      intro op' ho
      have hr := hrdy op' (by simp [ho])
      have hd := hdis op' ho
      cases op' with
      | unwrap => rfl
      | wrap rcp src tauth members amount =>
        obtain ⟨hz, hne, s, d, r, m, w, c⟩ := hr
        have nSW : src ≠ p.W := by rintro h; have := c.srcData; rw [h, c.wData] at this; cases this
        have oS : L1 src = L src := st.other _ (hd _ (by simp [UserOp.own])) hne nSW
        simp only [UserOp.lamIn, oS]
    have e2 : total (UserOp.lamOut p L1) ops = total (UserOp.lamOut p L) ops := by
      apply total_congr
      intro op' _
      cases op' with
      | wrap => rfl
      | unwrap => simp only [UserOp.lamOut, hE', he, nativeLamports]
    rw [e1, e2] at st'
    refine ⟨L', by simp only [runUsers, hrun, ok_bind, hrest], ?_, ?_⟩
    · simp only [total_cons, List.flatMap_cons]
      refine st.trans st' he hw hfle (total_mono ?_) (by omega) (by omega) ?_
      · intro op' ho
        have := (hrdy op' (by simp [ho])).feeLe
        rwa [feeIn_const] at this
      · rcases enoughL with h | h
        · rw [hnat0 h]; exact Nat.zero_le _
        · omega
    · intro op' ho
      rcases List.mem_cons.1 ho with rfl | ho
      · refine ⟨L1, hrun, fun k hk => ?_⟩
        refine st'.other k ?_ (fun h => st.sep.1 (h ▸ hk)) (fun h => st.sep.2 (h ▸ hk))
        intro hk'
        obtain ⟨op'', h1, h2⟩ := List.mem_flatMap.1 hk'
        exact hp1 op'' h1 k hk h2
      · obtain ⟨M1, h1, h2⟩ := hown op' ho
        obtain ⟨M, h3, _⟩ := (hrdy op' (by simp [ho])).runs hid hrej
        refine ⟨M, h3, fun k hk => ?_⟩
        rw [h2 k hk]
        exact (hrdy op' (by simp [ho])).own_eq hid hrej (hrdy1 op' ho) st (hdis op' ho) h3 h1 k hk

/-- The situation of the property: a batch of operations on one pair, each of which would succeed on
its own, with disjoint own accounts, and room for all of them in the escrow and in the supply.
`fees op` is the transfer fee of the unwrapped mint for `op`. -/
structure Batch (env : Env) (p : Pair) (L : Ledger) (ops : List UserOp) (fees : UserOp → Nat) :
    Prop where
  /-- The authority is an address without data, and the escrow is an account of it without a
  delegate, as in every state that the histories of C15 and C18 reach. -/
  authority : (L p.A).data = .bytes []
  wNeU : p.W ≠ p.u
  escrow : ∃ e, (L p.E).data = .token e ∧ e.owner = p.A ∧ e.delegate = none ∧
    (e.isNative = none ∨ total UserOp.paidOut ops ≤ (L p.E).lamports)
  wmint : ∃ w, (L p.W).data = .mint w
  fee : ∃ m, (L p.u).data = .mint m ∧ ∀ op ∈ ops, IsMintFee m env.epoch op.amount (fees op)
  ordinary : ∀ op ∈ ops, op.Ordinary p L
  alone : ∀ op ∈ ops, ∃ Lop, op.run env p L = .ok Lop
  disjoint : ops.Pairwise fun a b => ∀ k ∈ a.own, k ∉ b.own
  room : balanceOf L p.E + total (fun op => op.paidIn - op.feeIn fees) ops ≤ u64Max
  roomSupply : supplyOf L p.W + total (fun op => op.paidIn - op.feeIn fees) ops ≤ u64Max
  enough : total UserOp.paidOut ops ≤ balanceOf L p.E
  enoughSupply : total UserOp.paidOut ops ≤ supplyOf L p.W

theorem Batch.ready {ops : List UserOp} {fees : UserOp → Nat} (hid : env.programId = crateId)
    (hrej : ∀ p ix sg L, env.reject p ix sg L = none) (b : Batch env p L ops fees) :
    ∀ op ∈ ops, op.Ready env p L (fees op) := by
  intro op ho
  obtain ⟨m, hm, hfee⟩ := b.fee
  obtain ⟨e, he, heo, hed, _⟩ := b.escrow
  have hord := b.ordinary op ho
  have hal := b.alone op ho
  have hf := hfee op ho
  cases op with
  | wrap rcp src tauth members amount =>
    obtain ⟨h1, h2, h3⟩ := hord
    obtain ⟨hz, fee, s, d, r, m', w', c⟩ :=
      (wrap_succeeds_iff hid hrej b.authority h1 h2 h3).1 hal
    obtain rfl := Data.mint.inj (hm.symm.trans c.mintData)
    rw [isMintFee_unique hf (feeOf_isMintFee c.uprogOk c.splExts c.feeEq)]
    exact ⟨hz, h1, s, d, r, m, w', c⟩
  | unwrap rcp holder tauth members amount =>
    obtain ⟨h1, h2, h3, h4⟩ := hord
    obtain ⟨hz, fee, e', d, h, m', w', c⟩ :=
      (unwrap_succeeds_iff hid hrej b.authority b.wNeU (Ne.symm h1) h2
        (fun e' he' => by
          obtain rfl := Data.token.inj (he.symm.trans he'); exact ⟨heo, hed⟩) h4 h3).1 hal
    obtain rfl := Data.mint.inj (hm.symm.trans c.mintData)
    rw [isMintFee_unique hf (feeOf_isMintFee c.uprogOk c.splExts c.feeEq)]
    exact ⟨hz, h1, e', d, h, m, w', c⟩

theorem Batch.runs {ops : List UserOp} {fees : UserOp → Nat} (hid : env.programId = crateId)
    (hrej : ∀ p ix sg L, env.reject p ix sg L = none) (b : Batch env p L ops fees) :
    ∃ L', runUsers env p ops L = .ok L' ∧
      SharedStep p (ops.flatMap UserOp.own) L L' (total UserOp.paidIn ops)
        (total (UserOp.feeIn fees) ops) (total UserOp.paidOut ops) (total (UserOp.lamIn L) ops)
        (total (UserOp.lamOut p L) ops) ∧
      ∀ op ∈ ops, ∃ Lop, op.run env p L = .ok Lop ∧ ∀ k ∈ op.own, L' k = Lop k := by
  obtain ⟨e, he, _, _, hl⟩ := b.escrow
  obtain ⟨w, hw⟩ := b.wmint
  have r1 := b.room
  have r2 := b.roomSupply
  have r3 := b.enough
  have r4 := b.enoughSupply
  simp only [balanceOf, supplyOf, he, hw] at r1 r2 r3 r4
  exact users_aux hid hrej fees ops L e w he hw (b.ready hid hrej) b.disjoint r1 r2 r3 r4 hl

/-- **C90** Operations of different users that would each succeed alone all succeed one after the
other; every user's accounts end exactly as if they had acted alone; the escrow and the wrapped
supply change by the sum of what was credited minus the sum of what was paid out; nothing else
changes. -/
theorem users_do_not_disturb {ops : List UserOp} {fees : UserOp → Nat}
    (hid : env.programId = crateId) (hrej : ∀ p ix sg L, env.reject p ix sg L = none)
    (b : Batch env p L ops fees) :
    ∃ L', runUsers env p ops L = .ok L' ∧
      (∀ op ∈ ops, ∀ Lop, op.run env p L = .ok Lop → ∀ k ∈ op.own, L' k = Lop k) ∧
      balanceOf L' p.E + total UserOp.paidOut ops =
        balanceOf L p.E + total (fun op => op.paidIn - op.feeIn fees) ops ∧
      supplyOf L' p.W + total UserOp.paidOut ops =
        supplyOf L p.W + total (fun op => op.paidIn - op.feeIn fees) ops ∧
      ∀ k, (∀ op ∈ ops, k ∉ op.own) → k ≠ p.E → k ≠ p.W → L' k = L k := by
  obtain ⟨L', h1, st, h3⟩ := b.runs hid hrej
  obtain ⟨e, he, _, _, hl⟩ := b.escrow
  obtain ⟨w, hw⟩ := b.wmint
  have r3 := b.enough
  have r4 := b.enoughSupply
  have hsub := (total_sub (f := UserOp.paidIn) (g := UserOp.feeIn fees) (ops := ops) fun op ho => by
    have := (b.ready hid hrej op ho).feeLe
    rwa [feeIn_const] at this).1
  refine ⟨L', h1, ?_, ?_, ?_, ?_⟩
  · intro op ho Lop hrun k hk
    obtain ⟨M, hM, hk'⟩ := h3 op ho
    cases hrun.symm.trans hM
    exact hk' k hk
  · simp only [balanceOf, he] at r3 ⊢
    rw [st.escrow e he, hsub]
    dsimp only
    omega
  · simp only [supplyOf, hw] at r4 ⊢
    rw [st.wmint w hw, hsub]
    dsimp only
    omega
  · intro k hk k1 k2
    refine st.other k ?_ k1 k2
    intro hm
    obtain ⟨op, ho, hk'⟩ := List.mem_flatMap.1 hm
    exact hk op ho hk'

theorem total_perm (f : UserOp → Nat) {ops ops' : List UserOp} (h : ops.Perm ops') :
    total f ops = total f ops' := by
  induction h with
  | nil => rfl
  | cons x _ ih => rw [total_cons, total_cons, ih]
  | swap x y l => simp only [total_cons]; omega
  | trans _ _ ih1 ih2 => rw [ih1, ih2]

theorem Batch.perm {ops ops' : List UserOp} {fees : UserOp → Nat} (h : ops.Perm ops')
    (b : Batch env p L ops fees) : Batch env p L ops' fees where
  authority := b.authority
  wNeU := b.wNeU
  escrow := by rw [← total_perm _ h]; exact b.escrow
  wmint := b.wmint
  fee := by
    obtain ⟨m, h1, h2⟩ := b.fee
    exact ⟨m, h1, fun op ho => h2 op (h.mem_iff.2 ho)⟩
  ordinary := fun op ho => b.ordinary op (h.mem_iff.2 ho)
  alone := fun op ho => b.alone op (h.mem_iff.2 ho)
  disjoint := (h.pairwise_iff fun hxy k hk hk' => hxy k hk' hk).1 b.disjoint
  room := by rw [← total_perm _ h]; exact b.room
  roomSupply := by rw [← total_perm _ h]; exact b.roomSupply
  enough := by rw [← total_perm _ h]; exact b.enough
  enoughSupply := by rw [← total_perm _ h]; exact b.enoughSupply

/-- **C90** The order does not matter: every order of the operations gives the same ledger. -/
theorem users_any_order {ops ops' : List UserOp} {fees : UserOp → Nat}
    (hid : env.programId = crateId) (hrej : ∀ p ix sg L, env.reject p ix sg L = none)
    (b : Batch env p L ops fees) (h : ops.Perm ops') :
    ∃ L', runUsers env p ops L = .ok L' ∧ runUsers env p ops' L = .ok L' := by
  obtain ⟨L1, h1, s1, o1⟩ := b.runs hid hrej
  obtain ⟨L2, h2, s2, o2⟩ := (b.perm h).runs hid hrej
  refine ⟨L1, h1, ?_⟩
  rw [h2]
  congr 1
  funext k
  obtain ⟨e, he, _⟩ := b.escrow
  obtain ⟨w, hw⟩ := b.wmint
  by_cases k1 : k = p.E
  · subst k1
    rw [s1.escrow e he, s2.escrow e he]
    simp only [total_perm _ h]
  · by_cases k2 : k = p.W
    · subst k2
      rw [s1.wmint w hw, s2.wmint w hw]
      simp only [total_perm _ h]
    · by_cases k3 : k ∈ ops.flatMap UserOp.own
      · obtain ⟨op, ho, hk⟩ := List.mem_flatMap.1 k3
        obtain ⟨M1, q1, q2⟩ := o1 op ho
        obtain ⟨M2, q3, q4⟩ := o2 op (h.mem_iff.1 ho)
        cases q1.symm.trans q3
        rw [q2 k hk, q4 k hk]
      · rw [s1.other k k3 k1 k2, s2.other k ?_ k1 k2]
        intro hm
        obtain ⟨op, ho, hk⟩ := List.mem_flatMap.1 hm
        exact k3 (List.mem_flatMap.2 ⟨op, h.mem_iff.2 ho, hk⟩)

end

/-! ## Concrete instance: a wrap by one user and an unwrap by another -/

namespace Example.Users

open Example

/-- Second user and their accounts. -/
def carol : Pubkey := .lit 91
def carolW : Pubkey := .lit 92
def carolU : Pubkey := .lit 93

/-- The pair of the example world. -/
def pair : Pair := ⟨W, A, E, u, token2022Id, splTokenId⟩

/-- The healthy world with Carol, who holds the 10 wrapped tokens. -/
def LU : Ledger := fun k =>
  if k = carolW then ⟨200, splTokenId, .token (acct W carol 10 [])⟩
  else if k = carolU then ⟨200, token2022Id, .token (acct u carol 0 [.transferFeeAmount])⟩
  else if k = rcp then ⟨200, splTokenId, .token (acct W user 0 [])⟩
  else L0 k

/-- The first user wraps 1000, Carol unwraps 7. -/
def ops : List UserOp := [.wrap rcp src user [] 1000, .unwrap carolU carolW carol [] 7]

/-- 1% rounded up: 10 and 1. -/
def fees : UserOp → Nat
  | .wrap _ _ _ _ _ => 10
  | .unwrap _ _ _ _ _ => 1

theorem alone_ok : ∀ op ∈ ops, ok (op.run env pair LU) = true := by decide +kernel

theorem batch : Batch env pair LU ops fees where
  authority := by decide +kernel
  wNeU := by decide +kernel
  escrow := ⟨acct u A 10 goodExts, by decide +kernel, by decide +kernel, by decide +kernel,
    .inl (by decide +kernel)⟩
  wmint := ⟨wMint 10, by decide +kernel⟩
  fee := by
    refine ⟨uMint [.transferFeeConfig feeCfg], by decide +kernel, ?_⟩
    intro op ho
    simp only [ops, List.mem_cons, List.not_mem_nil, or_false] at ho
    rcases ho with rfl | rfl
    · exact .inr (by decide +kernel)
    · exact .inr (by decide +kernel)
  ordinary := by
    intro op ho
    simp only [ops, List.mem_cons, List.not_mem_nil, or_false] at ho
    have hno : ∀ k ms, k = user ∨ k = carol → (LU k).data ≠ .multisig ms := by
      intro k ms hk
      have : (LU k).data = .bytes [] := by
        rcases hk with rfl | rfl <;> decide +kernel
      rw [this]; simp
    rcases ho with rfl | rfl
    · exact ⟨by decide +kernel, by decide +kernel, fun ms h => absurd h (hno _ ms (.inl rfl))⟩
    · refine ⟨by decide +kernel, by decide +kernel, fun ms h => absurd h (hno _ ms (.inr rfl)), ?_⟩
      intro h hh
      have : (LU carolW).data = .token (acct W carol 10 []) := by decide +kernel
      obtain rfl := Data.token.inj (this.symm.trans hh)
      decide +kernel
  alone := fun op ho => ⟨_, get_eq (alone_ok op ho)⟩
  disjoint := by decide +kernel
  room := by decide +kernel
  roomSupply := by decide +kernel
  enough := by decide +kernel
  enoughSupply := by decide +kernel

-- the theorems applied: both orders give the same ledger
example : ∃ L', runUsers env pair ops LU = .ok L' ∧ runUsers env pair ops.reverse LU = .ok L' :=
  users_any_order (by decide +kernel) (fun _ _ _ _ => rfl) batch (List.reverse_perm _).symm

-- Carol gets 6 (7 less the fee of 1), the first user 990 wrapped tokens
example : balanceOf (get (runUsers env pair ops LU)) carolU = 6 ∧
    balanceOf (get (runUsers env pair ops LU)) rcp = 990 ∧
    balanceOf (get (runUsers env pair ops LU)) E = 10 + 990 - 7 := by decide +kernel

end Example.Users

end TokenWrap
