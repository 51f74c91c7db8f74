import Verif.Props.Liveness
import Verif.Props.Pointer
import Verif.Props.Close
import Verif.Props.CreateMint
/-!
# Exactly when the instructions succeed

Necessary and sufficient conditions for the instructions built by the public builders: no check is
missing from the list and none is superfluous. Used for C78.
-/

set_option linter.unusedSimpArgs false

namespace TokenWrap

open TokenWrapInstruction

theorem spendAuth_can {prog : Pubkey} {L : Ledger} {t t' : TokenAcct} {pd : Option Pubkey}
    {auth : Pubkey} {signers : List Pubkey} {signed : Pubkey → Bool} {amount : Nat}
    (h : spendAuth prog L t pd auth signers signed amount = .ok t') :
    CanSpend t pd auth amount := by
  unfold spendAuth at h
  split at h
  · exact .inl ‹_›
  · split at h
    · rename_i hd
      simp only [bind_ok_iff, require_ok_iff, pure_ok_iff, validateOwner_ok_iff,
        decide_eq_true_eq] at h
      obtain ⟨_, _, _, h2, _⟩ := h
      exact .inr (.inl ⟨hd, h2⟩)
    · rename_i hd
      simp only [bind_ok_iff, pure_ok_iff, validateOwner_ok_iff] at h
      obtain ⟨_, ⟨h1, _⟩, _⟩ := h
      exact .inr (.inr ⟨hd, h1⟩)

theorem mintToExec_exts {prog : Pubkey} {signed : Pubkey → Bool} {L L' : Ledger}
    {mint dst auth : Pubkey} {signers : List Pubkey} {amount : Nat} {m : Mint}
    (h : mintToExec prog signed L mint dst auth signers amount = .ok L')
    (hm : (L mint).data = .mint m) : prog = splTokenId → m.exts = [] := by
  unfold mintToExec at h
  simp only [bind_ok_iff, getMint_ok_iff] at h
  obtain ⟨d, _, _, _, _, _, _, _, m', ⟨_, hm2, hm3⟩, _⟩ := h
  rw [hm] at hm2; cases hm2
  exact hm3

theorem burnExec_exts {prog : Pubkey} {signed : Pubkey → Bool} {L L' : Ledger}
    {acct mint auth : Pubkey} {signers : List Pubkey} {amount : Nat} {m : Mint}
    (h : burnExec prog signed L acct mint auth signers amount = .ok L')
    (hm : (L mint).data = .mint m) : prog = splTokenId → m.exts = [] := by
  unfold burnExec at h
  simp only [bind_ok_iff, getMint_ok_iff] at h
  obtain ⟨s, _, m', ⟨_, hm2, hm3⟩, _⟩ := h
  rw [hm] at hm2; cases hm2
  exact hm3

theorem burnExec_can {prog : Pubkey} {signed : Pubkey → Bool} {L L' : Ledger}
    {acct mint auth : Pubkey} {signers : List Pubkey} {amount : Nat} {s : TokenAcct} {m : Mint}
    (h : burnExec prog signed L acct mint auth signers amount = .ok L')
    (hs : (L acct).data = .token s) (hm : (L mint).data = .mint m)
    (ho : ownedByNobody s = false) :
    CanSpend s (pdOf prog m) auth amount ∧ AuthOk prog L auth signers signed := by
  unfold burnExec at h
  simp only [bind_ok_iff, getToken_ok_iff, getMint_ok_iff] at h
  obtain ⟨s0, ⟨_, hs2⟩, m0, ⟨_, hm2, _⟩, _, _, _, _, _, _, _, _, s', hs', _⟩ := h
  rw [hs] at hs2; cases hs2
  rw [hm] at hm2; cases hm2
  rw [ho] at hs'
  exact ⟨spendAuth_can hs', (spendAuth_inv hs').2.1⟩

/-- An authorisation inside the CPI of a built instruction comes from the authority itself, given
without members, or from enough members of the multisig it is. -/
theorem authOk_builtApproval {prog : Pubkey} {L : Ledger} {auth : Pubkey} {members : List Pubkey}
    {metas front : List Meta}
    (hself : auth ∉ members)
    (hms : ∀ ms, (L auth).data = .multisig ms → (L auth).owner = prog ∧ 1 ≤ ms.m)
    (hfront : ∀ x ∈ front, x.signer = false)
    (_hmetas : ∀ x ∈ metas, x.signer = false)
    (hall : ∀ x ∈ metas ++ authMetas auth (extractMultisig L auth (members.map fun k => .ro k true)),
      metaAllowed (front ++ [.ro auth members.isEmpty] ++ members.map fun k => .ro k true) [] x = true)
    (h : AuthOk prog L auth (extractMultisig L auth (members.map fun k => .ro k true))
      (signedBy (metas ++ authMetas auth
        (extractMultisig L auth (members.map fun k => .ro k true))))) :
    BuiltApproval prog L auth members := by
  by_cases hd : ∃ ms, (L auth).data = .multisig ms
  · obtain ⟨ms, hd⟩ := hd
    obtain ⟨ho, h1⟩ := hms ms hd
    refine .inr ⟨ms, ho, hd, h1, ?_⟩
    unfold AuthOk multisigAt at h
    rw [if_pos ho, hd] at h
    dsimp only at h
    refine Nat.le_trans h.2 ?_
    have : ∀ x ∈ extractMultisig L auth (members.map fun k => .ro k true), x ∈ members := by
      intro x hx
      unfold extractMultisig at hx
      rw [hd] at hx
      dsimp only at hx
      split at hx
      · simp only [List.mem_map, List.mem_filter] at hx
        obtain ⟨a, ⟨⟨b, hb, rfl⟩, _⟩, rfl⟩ := hx
        exact hb
      · cases hx
    have hsub : ∀ x ∈ ms.signers,
        decide (x ∈ extractMultisig L auth (members.map fun k => .ro k true)) = true →
        decide (x ∈ members) = true := by
      intro x _ hx
      simpa using this x (by simpa using hx)
    simpa only [List.countP_eq_length_filter] using List.countP_mono_left hsub
  · have hno : ∀ ms, (L auth).data ≠ .multisig ms := fun ms h => hd ⟨ms, h⟩
    refine .inl ⟨?_, hno⟩
    have he : extractMultisig L auth (members.map fun k => .ro k true) = [] := by
      unfold extractMultisig
      cases hdd : (L auth).data with
      | multisig ms => exact absurd hdd (hno ms)
      | _ => rfl
    rw [he] at hall
    have ha := hall (.ro auth true) (by simp [authMetas])
    cases hm : members with
    | nil => rfl
    | cons a b =>
      exfalso
      simp only [metaAllowed, Meta.ro, Bool.and_eq_true, Bool.or_eq_true, Bool.not_true,
        Bool.false_eq_true, false_or, List.any_eq_true, decide_eq_true_eq, List.not_mem_nil,
        or_false] at ha
      obtain ⟨c, hc, hk, hs⟩ := ha.2
      simp only [List.append_assoc, List.mem_append, List.mem_cons, List.mem_map,
        List.not_mem_nil, or_false] at hc
      rcases hc with hc | rfl | ⟨x, hx, rfl⟩
      · rw [hfront c hc] at hs; cases hs
      · rw [hm] at hs; cases hs
      · exact hself (of_decide_eq_true hk ▸ hx)

/-- **C78** The instruction built by `wrap` succeeds exactly when the amount is not zero and the
situation is the well-formed one: derived addresses, initialised and matching accounts of the two
token programs, nothing frozen, enough tokens, authority and signatures, the right mint authority
and room for the credited amounts. -/
theorem wrap_succeeds_iff {env : Env} {L : Ledger} {rcp W A uprog wprog src u E tauth : Pubkey}
    {members : List Pubkey} {amount : UInt64}
    (hid : env.programId = crateId) (hrej : ∀ p ix sg L, env.reject p ix sg L = none)
    (hA : (L A).data = .bytes []) (hne : src ≠ E) (hself : tauth ∉ members)
    (hms : ∀ ms, (L tauth).data = .multisig ms → (L tauth).owner = uprog ∧ 1 ≤ ms.m) :
    (∃ L', processInstruction env
      (Build.wrap crateId rcp W A uprog wprog src u E tauth members amount).accounts
      (Build.wrap crateId rcp W A uprog wprog src u E tauth members amount).data L = .ok L') ↔
    amount ≠ 0 ∧ ∃ fee s d r m w,
      CanWrap env L rcp W A uprog wprog src u E tauth members amount.toNat fee s d r m w := by
  constructor
  · rintro ⟨L', h⟩
    simp only [Build.wrap] at h
    obtain ⟨m, w, s, d, s', r, L1, e⟩ := wrap_effect h
    obtain ⟨pda, c⟩ := e.ctx
    have t := e.tr
    refine ⟨c.pos, wrapFee env m amount.toNat, s, d, r, m, w, ?_⟩
    have hmv : transferMove L src E s' d amount.toNat (wrapFee env m amount.toNat) = .ok L1 := by
      rcases t.moved with ⟨h1, _⟩ | ⟨_, h1⟩
      · exact absurd h1 hne
      · exact h1
    have hi := transferMove_inv hne hmv
    have hnat : s.isNative = none ∨ amount.toNat ≤ (L src).lamports := by
      by_cases hn : s'.isNative = none
      · exact .inl (t.same.isNative ▸ hn)
      · exact .inr (transferMove_native hne hmv hn).1
    -- the authority
    have hauth : CanSpend s (pdOf uprog m) tauth amount.toNat ∧
        BuiltApproval uprog L tauth members := by
      have htr := c.transfer
      unfold wrapTransfer at htr
      dsimp only at htr
      have key : ∀ (ix : TokenIx) (ef : Option Nat),
          ix.metas = [.rw src false, .ro u false, .rw E false] ++
            authMetas tauth (extractMultisig L tauth (members.map fun k => .ro k true)) →
          (∀ sg, tokenExec env uprog ix sg L = transferExec env uprog sg L src E tauth
            (extractMultisig L tauth (members.map fun k => .ro k true)) amount.toNat
            (some (u, m.decimals)) ef) →
          invokeToken env ([.rw rcp false, .rw W false, .ro A false, .ro uprog false,
            .ro wprog false, .rw src false, .ro u false, .rw E false, .ro tauth members.isEmpty] ++
            members.map fun k => .ro k true) [] [u] uprog ix L = .ok L1 →
          CanSpend s (pdOf uprog m) tauth amount.toNat ∧ BuiltApproval uprog L tauth members := by
        intro ix ef hmet hex hinv
        obtain ⟨_, _, _, g4, g5⟩ := invokeToken_inv hinv
        rw [hex] at g5
        obtain ⟨s0, d0, m0, f0, s0', x1, x2, x3, x4, x5, x6, x7, x8, x9, x10, x11, x12, x13, x14, x15,
          x16, _⟩ := transferExec_inv g5
        obtain rfl : s = s0 := Data.token.inj (t.srcData.symm.trans x2)
        obtain rfl : m = m0 := Data.mint.inj (c.uMint.symm.trans x11)
        rw [hmet] at g4 x16
        refine ⟨spendAuth_can x16, authOk_builtApproval (metas := [.rw src false, .ro u false,
          .rw E false]) (front := [.rw rcp false, .rw W false, .ro A false, .ro uprog false,
            .ro wprog false, .rw src false, .ro u false, .rw E false]) hself hms ?_ ?_ g4
            (spendAuth_inv x16).2.1⟩
        · intro x hx
          simp only [List.mem_cons, List.not_mem_nil, or_false] at hx
          rcases hx with rfl | rfl | rfl | rfl | rfl | rfl | rfl | rfl <;> rfl
        · intro x hx
          simp only [List.mem_cons, List.not_mem_nil, or_false] at hx
          rcases hx with rfl | rfl | rfl <;> rfl
      split at htr
      · refine key _ (some (wrapFee env m amount.toNat)) rfl ?_ htr
        intro sg
        unfold tokenExec
        rw [hrej]
        rfl
      · refine key _ none rfl ?_ htr
        intro sg
        unfold tokenExec
        rw [hrej]
        rfl
    -- the mint
    obtain ⟨_, _, _, _, k5⟩ := invokeToken_inv c.mintTo
    unfold tokenExec at k5
    rw [hrej] at k5
    obtain ⟨r0, w0, y1, y2, y3, y4, y5, y6, y7, y8, _⟩ := mintToExec_inv k5
    have hLW : L1 W = L W := t.moved.other e.wNeS e.wNeE
    have hLr : L1 rcp = L rcp := t.moved.other e.rNeS e.rNeE
    have hwx : wprog = splTokenId → w.exts = [] :=
      mintToExec_exts k5 (by show (L1 W).data = _; rw [hLW]; exact e.wData)
    have hrn : r.isNative = none := by
      have y2 : (L1 rcp).data = .token r0 := y2
      have e2 : (L rcp).data = .token r := e.rData
      rw [hLr, e2] at y2; cases y2; exact y6
    exact ⟨⟨t.uprog, e.wprog, c.mint, c.auth, c.escrow, e.wNeU, t.srcOwner, t.srcData, t.srcMint,
      t.srcThawed, t.enough, hnat, hauth.1, hauth.2, t.mintOwner, c.uMint, t.splExts, t.feeEq,
      c.feeLe, e.wOwner, e.wData, hwx, e.wAuth, hA, e.rOwner, e.rData, e.rMint, e.rThawed, hrn,
      e.balMax, e.supMax⟩, t.escOwner, t.escData, t.escMint, c.escOwner, t.escThawed, hi.2.2.1,
      hi.2.1⟩
  · rintro ⟨hz, fee, s, d, r, m, w, c⟩
    exact wrap_succeeds hid hz hrej c

/-- **C78** The instruction built by `unwrap` succeeds exactly when the amount is not zero and the
situation is the well-formed one (for an escrow owned by the wrapped mint authority without a
delegate, as every escrow is, a recipient other than the escrow, and a wrapped account whose owner
is not the system program or the incinerator, whose tokens anybody may burn). -/
theorem unwrap_succeeds_iff {env : Env} {L : Ledger} {E rcp A u wprog uprog holder W tauth : Pubkey}
    {members : List Pubkey} {amount : UInt64}
    (hid : env.programId = crateId) (hrej : ∀ p ix sg L, env.reject p ix sg L = none)
    (hA : (L A).data = .bytes []) (hWu : W ≠ u) (hne : E ≠ rcp) (hself : tauth ∉ members)
    (hesc : ∀ e, (L E).data = .token e → e.owner = A ∧ e.delegate = none)
    (hnob : ∀ h, (L holder).data = .token h → ownedByNobody h = false)
    (hms : ∀ ms, (L tauth).data = .multisig ms → (L tauth).owner = wprog ∧ 1 ≤ ms.m) :
    (∃ L', processInstruction env
      (Build.unwrap crateId E rcp A u wprog uprog holder W tauth members amount).accounts
      (Build.unwrap crateId E rcp A u wprog uprog holder W tauth members amount).data L = .ok L') ↔
    amount ≠ 0 ∧ ∃ fee e d h m w,
      CanUnwrap env L E rcp A u wprog uprog holder W tauth members amount.toNat fee e d h m w := by
  constructor
  · rintro ⟨L', h⟩
    simp only [Build.unwrap] at h
    rw [processInstruction_pack] at h
    obtain ⟨a, m, w, hh, h', e, e', d, fee, L1, x⟩ := processUnwrap_effect h
    obtain ⟨pda, c⟩ := x.ctx
    have ha := c.accounts_eq
    simp only [List.cons_append, List.nil_append, List.cons.injEq] at ha
    obtain ⟨a1, a2, a3, a4, a5, a6, a7, a8, a9, a10⟩ := ha
    obtain ⟨b1, b2, b3, b4, b5, b6, b7, b8, b9, b10⟩ := a
    dsimp only at a1 a2 a3 a4 a5 a6 a7 a8 a9 a10
    subst a1 a2 a3 a4 a5 a6 a7 a8 a9 a10
    have hburn := c.burn
    obtain ⟨_, _, _, g4, g5⟩ := invokeToken_inv c.burn
    unfold tokenExec at g5
    rw [hrej] at g5
    obtain ⟨hh2, w2, h2', z1, z2, z3, z4, z5, z6, z7, z8, z9, _⟩ := burnExec_inv g5
    obtain rfl : hh = hh2 := Data.token.inj (x.hData.symm.trans z2)
    obtain rfl : w = w2 := Data.mint.inj (x.wData.symm.trans z4)
    obtain ⟨hcs, hau⟩ := burnExec_can g5 z2 z4 (hnob _ z2)
    have hap : BuiltApproval wprog L tauth members := by
      refine authOk_builtApproval (metas := [.rw holder false, .rw W false])
        (front := [.rw E false, .rw rcp false, .ro A false, .ro u false, .ro wprog false,
            .ro uprog false, .rw holder false, .rw W false]) hself hms ?_ ?_ g4 hau
      · intro x hx
        simp only [List.mem_cons, List.not_mem_nil, or_false] at hx
        rcases hx with rfl | rfl | rfl | rfl | rfl | rfl | rfl | rfl <;> rfl
      · intro x hx
        simp only [List.mem_cons, List.not_mem_nil, or_false] at hx
        rcases hx with rfl | rfl <;> rfl
    -- the accounts of the transfer were not touched by the burn
    have mid : L1 = (L.setData holder (.token { h' with amount := hh.amount - amount.toNat })).setData
      W (.mint { w with supply := w.supply - amount.toNat }) := x.mid
    have hHW : holder ≠ W := x.hNeW
    have dW : (L1 W).data = .mint { w with supply := w.supply - amount.toNat } := by
      rw [mid]; simp [Ledger.setData_apply]
    have dH : (L1 holder).data = .token { h' with amount := hh.amount - amount.toNat } := by
      rw [mid]; simp [Ledger.setData_apply, hHW]
    have keep : ∀ k, k ≠ holder → k ≠ W → L1 k = L k := by
      intro k h1 h2; rw [mid]; simp [Ledger.setData_apply, h1, h2]
    have hH' : h'.mint = W := x.hSame.mint.trans x.hMint
    have tok : ∀ k t, (L1 k).data = .token t → t.mint = u → L1 k = L k := by
      intro k t hk ht
      refine keep k ?_ ?_
      · rintro rfl
        rw [dH] at hk; cases hk
        exact hWu (hH'.symm.trans ht)
      · rintro rfl
        rw [dW] at hk; cases hk
    have oE : L1 E = L E := tok E e x.eData x.eMint
    have oR : L1 rcp = L rcp := tok rcp d x.dData x.dMint
    have oU : L1 u = L u := by
      refine keep u ?_ (Ne.symm hWu)
      rintro rfl
      have := x.mData
      simp only [Meta.ro] at this
      rw [dH] at this; cases this
    have hmv : transferMove L1 E rcp e' d amount.toNat fee = .ok L' := by
      rcases x.moved with ⟨h1, _⟩ | ⟨_, h1⟩
      · exact absurd h1 hne
      · exact h1
    have hi := transferMove_inv hne hmv
    have hnat : e.isNative = none ∨ amount.toNat ≤ (L E).lamports := by
      by_cases hn : e'.isNative = none
      · exact .inl (x.eSame.isNative ▸ hn)
      · rw [← oE]; exact .inr (transferMove_native hne hmv hn).1
    have eD : (L E).data = .token e := by rw [← oE]; exact x.eData
    obtain ⟨hown, hdel⟩ := hesc e eD
    exact ⟨c.pos, fee, e, d, hh, m, w, ⟨x.uprog, x.wprog, c.mint, c.auth, c.escrow, hWu, x.hOwner,
      x.hData, x.hMint, z5, z6, x.hEnough, hcs, hap, x.wOwner, x.wData, burnExec_exts g5 z4,
      x.wSupply, by rw [← oE]; exact x.eOwner, eD, x.eMint, hown, x.eThawed, hdel, x.eEnough, hnat,
      hA, by rw [← oU]; exact x.mOwner, by rw [← oU]; exact x.mData, x.splExts, x.feeEq, hi.1,
      by rw [← oR]; exact x.dOwner, by rw [← oR]; exact x.dData, x.dMint, x.dThawed, hi.2.2.1,
      hi.2.1⟩⟩
  · rintro ⟨hz, fee, e, d, h, m, w, c⟩
    exact unwrap_succeeds hid hz hrej c

/-- The situation in which the canonical pointer of `u` at `P` can be set to `p` by `k`. -/
structure CanSetPointer (env : Env) (L : Ledger) (k P u p : Pubkey) (m : Mint) : Prop where
  uOwner : (L u).owner = splTokenId ∨ (L u).owner = token2022Id
  uData : (L u).data = .mint m
  authority : m.mintAuthority = some k
  pointer : canonicalPointerAddress env.cr u = some P
  -- the pointer does not exist yet and its rent is paid, or the program owns it, or it already says so
  ready : ((L P).data = .bytes [] ∧ (L P).owner = systemId ∧ env.rentMin 32 ≤ (L P).lamports) ∨
    ((L P).owner = crateId ∧ (L P).data.len = 32) ∨ (L P).data = .bytes p.bytes

/-- **C78** The instruction built by `set_canonical_pointer` succeeds exactly when the key given as
mint authority is the unwrapped mint's current mint authority, the pointer is the derived one and it
is either prefunded and unused or already set up. -/
theorem pointer_succeeds_iff {env : Env} {L : Ledger} {k P u p : Pubkey}
    (hid : env.programId = crateId) :
    (∃ L', processInstruction env (Build.setCanonicalPointer crateId k P u p).accounts
      (Build.setCanonicalPointer crateId k P u p).data L = .ok L') ↔
    ∃ m, CanSetPointer env L k P u p m := by
  constructor
  · rintro ⟨L', h⟩
    simp only [Build.setCanonicalPointer] at h
    rw [processInstruction_pack] at h
    obtain ⟨a, m, c⟩ := processPointer_effect h
    obtain ⟨r, ha⟩ := c.accounts_eq
    obtain ⟨b1, b2, b3, b4⟩ := a
    simp only [List.cons_append, List.nil_append, List.cons.injEq] at ha
    obtain ⟨a1, a2, a3, a4, a5⟩ := ha
    subst a1 a2 a3 a4
    refine ⟨m, c.uOwner, c.uData, c.auth, c.pointer, ?_⟩
    rcases c.final with ⟨h1, _⟩ | ⟨h1, h2, _⟩ | ⟨h1, _⟩
    · exact .inl h1
    · exact .inr (.inl ⟨h2.trans hid, h1⟩)
    · exact .inr (.inr h1)
  · rintro ⟨m, c⟩
    rcases c.ready with h1 | h1
    · exact ⟨_, pointer_succeeds hid c.uOwner c.uData c.authority c.pointer (.inl h1)⟩
    · obtain ⟨b, hP'⟩ := canonicalPointerAddress_some.1 c.pointer
      simp only [Build.setCanonicalPointer]
      rw [processInstruction_pack]
      generalize hacc : [Meta.ro k true, .rw P false, .ro u false, .ro systemId false] = accounts
      have hpar : parsePointer accounts = .ok ⟨.ro k true, .rw P false, .ro u false,
          .ro systemId false⟩ := by rw [← hacc]; rfl
      have ho' : (decide ((L u).owner = splTokenId) || decide ((L u).owner = token2022Id)) = true := by
        simpa using c.uOwner
      have um : unpackMint (L u).data = .ok m := by simpa using c.uData
      have hl : (L P).data.len = 32 := by
        rcases h1 with h1 | h1
        · exact h1.2
        · rw [h1]; exact p.2
      simp only [dispatch, processSetCanonicalPointer, hpar, ok_bind, Meta.ro, Meta.rw, require_true,
        ho', um, c.authority, okOr_some, decide_true, hP', initPointer, hl, has32, writeOwn]
      simp only [show ((32 : Nat) = 0) = False by simp, if_false]
      refine Exists.imp (fun L' h => (ok_bind (a := L)).trans h) ?_
      simp only [ok_bind, hl, decide_true, require_true]
      split
      · exact ⟨_, rfl⟩
      · rename_i hn
        rcases h1 with h1 | h1
        · rw [h1.1, hid]
          simp only [decide_true, require_true, ok_bind]
          exact ⟨_, rfl⟩
        · exact absurd h1 hn

/-- **C78** The instruction built by `close_stuck_escrow` succeeds exactly when the escrow is stuck
(for a wrapped mint authority that is an unused address, distinct from two special keys, and an
escrow without a separate close authority and without duplicated extensions) and the destination is
neither the escrow nor the mint. -/
theorem close_succeeds_iff {env : Env} {L : Ledger} {u W A E dest : Pubkey}
    (hid : env.programId = crateId) (hrej : ∀ p ix sg L, env.reject p ix sg L = none)
    (hA : (L A).data = .bytes []) (hAk : A ≠ systemId ∧ A ≠ incineratorId)
    (hesc : ∀ t m, (L E).data = .token t → (L u).data = .mint m →
      t.closeAuthority = none ∧ NoDupExts t m) :
    (∃ L', processInstruction env (Build.closeStuckEscrow crateId E dest u W A).accounts
      (Build.closeStuckEscrow crateId E dest u W A).data L = .ok L') ↔
    dest ≠ E ∧ dest ≠ u ∧ ∃ t m, StuckEscrow env L u (L W).owner W A E t m := by
  constructor
  · rintro ⟨L', h⟩
    simp only [Build.closeStuckEscrow] at h
    rw [processInstruction_pack] at h
    obtain ⟨a, t, m, pda, c⟩ := processClose_effect h
    obtain ⟨r, ha⟩ := c.accounts_eq
    obtain ⟨b1, b2, b3, b4, b5, b6⟩ := a
    simp only [List.cons_append, List.nil_append, List.cons.injEq] at ha
    obtain ⟨a1, a2, a3, a4, a5, a6, a7⟩ := ha
    subst a1 a2 a3 a4 a5 a6
    obtain ⟨hc, hnd⟩ := hesc t m c.eData c.uData
    refine ⟨Ne.symm c.ne, c.destNeU, t, m, ⟨c.mint, c.auth, c.escrow, rfl, c.uOwner, c.uData, c.eOwner,
      c.eData, c.tOwner, hc, c.empty, c.thawed, c.withheld, c.confidential, hA, hAk, hnd, ?_⟩⟩
    intro hreq
    have := (goodState_iff hnd).2 hreq
    rw [c.stuck] at this
    cases this
  · rintro ⟨h1, h2, t, m, c⟩
    exact ⟨_, close_succeeds hid hrej c h1 h2⟩

/-- The situation in which CreateMint creates: both addresses derived, unused and prefunded, the
unwrapped mint a mint of a token program. -/
structure CanCreate (env : Env) (L : Ledger) (W B u wprog A : Pubkey) (um : Mint) : Prop where
  wprogOk : wprog = splTokenId ∨ wprog = token2022Id
  addrA : authorityAddress env.cr W = some A
  distinct : W ≠ B
  uData : (L u).data = .mint um
  wFree : (L W).owner = systemId ∧ (L W).data = .bytes []
  bFree : (L B).owner = systemId ∧ (L B).data = .bytes []
  wRent : env.rentMin (if wprog = token2022Id then 303 else 82) ≤ (L W).lamports
  bRent : env.rentMin 32 ≤ (L B).lamports

/-- **C78** The instruction built by `create_mint` succeeds exactly when the addresses are the
derived ones, the unwrapped mint belongs to a token program, and either the call is idempotent and
the accounts exist with the right owners, or both are unused and prefunded. -/
theorem createMint_succeeds_iff {env : Env} {L : Ledger} {W B u wprog : Pubkey} {idem : Bool}
    (hid : env.programId = crateId) (hrej : ∀ p ix sg L, env.reject p ix sg L = none) :
    (∃ L', processInstruction env (Build.createMint crateId W B u wprog idem).accounts
      (Build.createMint crateId W B u wprog idem).data L = .ok L') ↔
    wrappedMintAddress env.cr u wprog = some W ∧ backpointerAddress env.cr W = some B ∧
    ((L u).owner = splTokenId ∨ (L u).owner = token2022Id) ∧
    ((idem = true ∧ (0 < (L W).data.len ∨ 0 < (L B).data.len) ∧ (L W).owner = wprog ∧
        (L B).owner = crateId) ∨
     ∃ A um, CanCreate env L W B u wprog A um) := by
  constructor
  · rintro ⟨L', h⟩
    simp only [Build.createMint] at h
    rw [processInstruction_pack] at h
    obtain ⟨c, hr⟩ := createMint_cases (rest := []) h
    refine ⟨c.mint, c.bp, c.uOwner, ?_⟩
    rcases hr with ⟨h1, _, h2, h3, h4⟩ | ⟨mb, bb, L1, _, _, h2, h3⟩
    · exact .inl ⟨h1, h2, h3, h4.trans hid⟩
    · obtain ⟨m, A, space, i1, i2, i3, i4, i5, i6, i7, i8, i9, i10, i11⟩ :=
        createMint_fresh default_spec h2 h3
      simp only [Meta.rw, Meta.ro] at i1 i2 i3 i4 i5 i6 i7 i8 i9 i10 i11
      refine .inr ⟨A, m, i10, i9, i8, i6, ?_, ?_, ?_, i3⟩
      · rw [i4]; exact ⟨rfl, rfl⟩
      · rw [i5]; exact ⟨rfl, rfl⟩
      · refine Nat.le_trans (Nat.le_of_eq ?_) i2
        unfold wrappedMintSpace at i1
        split at i1 <;> cases i1 <;> rename_i hp
        · rw [if_pos hp]; rfl
        · rw [if_neg hp]
  · rintro ⟨hW, hB, uo, h⟩
    simp only [Build.createMint]
    rw [processInstruction_pack]
    rcases h with ⟨rfl, h1, h2, h3⟩ | ⟨A, um, c⟩
    · obtain ⟨mb, hm⟩ := wrappedMintAddress_some.1 hW
      obtain ⟨bb, hb⟩ := backpointerAddress_some.1 hB
      refine ⟨L, ?_⟩
      have e1 : (decide ((L u).owner = splTokenId) || decide ((L u).owner = token2022Id)) = true := by
        simpa using uo
      have e2 : (decide ((L W).data.len > 0) || decide ((L B).data.len > 0)) = true := by
        simpa using h1
      simp [dispatch, processCreateMint, parseCreateMint, Meta.rw, Meta.ro, hm, hb, e1, e2, h2, h3,
        hid, uo, h1]
      rfl
    · have := createMint_succeeds .default (idem := idem) (wmint := .rw W false) (bp := .rw B false)
        (umint := .ro u false) (sys := .ro systemId false) (wprog := .ro wprog false) (rest := [])
        (lw := (L W).lamports) (lb := (L B).lamports) hid
        (fun ix s L => hrej _ ix s L) hW hB c.addrA c.distinct c.wprogOk rfl rfl rfl uo c.uData
        (by simp only [Meta.rw]; rw [← c.wFree.1, ← c.wFree.2])
        (by simp only [Meta.rw]; rw [← c.bFree.1, ← c.bFree.2]) c.wRent c.bRent
      exact this

/-! ## Consequences -/

/-- **C78** Multisig signers given for an authority that is not a multisig make Wrap fail. -/
theorem wrap_members_need_multisig {env : Env} {L : Ledger}
    {rcp W A uprog wprog src u E tauth : Pubkey} {members : List Pubkey} {amount : UInt64}
    (hself : tauth ∉ members) (hne : members ≠ []) (hno : ∀ ms, (L tauth).data ≠ .multisig ms)
    (hsrc : src ≠ E) (hA : (L A).data = .bytes []) (hid : env.programId = crateId)
    (hrej : ∀ p ix sg L, env.reject p ix sg L = none) :
    ∃ e, processInstruction env
      (Build.wrap crateId rcp W A uprog wprog src u E tauth members amount).accounts
      (Build.wrap crateId rcp W A uprog wprog src u E tauth members amount).data L = .error e := by
  cases hr : processInstruction env
      (Build.wrap crateId rcp W A uprog wprog src u E tauth members amount).accounts
      (Build.wrap crateId rcp W A uprog wprog src u E tauth members amount).data L with
  | error e => exact ⟨e, rfl⟩
  | ok L' =>
    obtain ⟨_, fee, s, d, r, m, w, c⟩ := (wrap_succeeds_iff hid hrej hA hsrc hself
      (fun ms h => absurd h (hno ms))).1 ⟨L', hr⟩
    rcases c.approval with ⟨h, _⟩ | ⟨ms, _, h, _⟩
    · exact absurd h hne
    · exact absurd h (hno ms)

/-- **C78** While the escrow is frozen nothing can be unwrapped through the builder. -/
theorem unwrap_needs_thawed_escrow {env : Env} {L : Ledger}
    {E rcp A u wprog uprog holder W tauth : Pubkey} {members : List Pubkey} {amount : UInt64}
    {e : TokenAcct} (hE : (L E).data = .token e) (hf : e.frozen = true) (hm : e.mint = u)
    (hWu : W ≠ u) :
    ∃ err, processInstruction env
      (Build.unwrap crateId E rcp A u wprog uprog holder W tauth members amount).accounts
      (Build.unwrap crateId E rcp A u wprog uprog holder W tauth members amount).data L = .error err := by
  cases hr : processInstruction env
      (Build.unwrap crateId E rcp A u wprog uprog holder W tauth members amount).accounts
      (Build.unwrap crateId E rcp A u wprog uprog holder W tauth members amount).data L with
  | error err => exact ⟨err, rfl⟩
  | ok L' =>
    exfalso
    simp only [Build.unwrap] at hr
    rw [processInstruction_pack] at hr
    obtain ⟨a, m, w, hh, h', e2, e', d, fee, L1, x⟩ := processUnwrap_effect hr
    obtain ⟨pda, c⟩ := x.ctx
    have ha := c.accounts_eq
    simp only [List.cons_append, List.nil_append, List.cons.injEq] at ha
    obtain ⟨a1, a2, a3, a4, a5, a6, a7, a8, a9, a10⟩ := ha
    obtain ⟨b1, b2, b3, b4, b5, b6, b7, b8, b9, b10⟩ := a
    dsimp only at a1 a2 a3 a4 a5 a6 a7 a8 a9 a10
    subst a1 a2 a3 a4 a5 a6 a7 a8 a9 a10
    have hEH : E ≠ holder := by
      rintro rfl
      have h1 : (L E).data = .token hh := x.hData
      rw [hE] at h1; cases h1
      exact hWu (x.hMint.symm.trans hm)
    have hEW : E ≠ W := by
      rintro rfl
      have h1 : (L E).data = .mint w := x.wData
      rw [hE] at h1; cases h1
    have h1 : (L1 E).data = .token e2 := x.eData
    rw [x.mid] at h1
    simp only [Meta.rw, Ledger.setData_apply, hEH, hEW, if_false] at h1
    rw [hE] at h1; cases h1
    have := x.eThawed
    rw [hf] at this; cases this

namespace Example

/-- Members for an authority without a multisig: the situation of `wrap_members_need_multisig`. -/
example : user ∉ [src] ∧ (∀ ms, (L0 user).data ≠ .multisig ms) ∧ src ≠ E ∧
    (L0 A).data = .bytes [] ∧ env.programId = crateId := by
  refine ⟨by decide +kernel, ?_, by decide +kernel, by decide +kernel, by decide +kernel⟩
  intro ms h
  rw [show L0 user = Account.empty by decide +kernel] at h; cases h

/-- The Wrap of 1000 in the example ledger meets the hypotheses of `wrap_succeeds_iff`, and both
sides hold; with 6000 (more than the 5000 the source has) both fail. -/
example : (∃ L', processInstruction env
      (Build.wrap crateId rcp W A token2022Id splTokenId src u E user [] 1000).accounts
      (Build.wrap crateId rcp W A token2022Id splTokenId src u E user [] 1000).data L0 = .ok L') ∧
    ¬ (∃ L', processInstruction env
      (Build.wrap crateId rcp W A token2022Id splTokenId src u E user [] 6000).accounts
      (Build.wrap crateId rcp W A token2022Id splTokenId src u E user [] 6000).data L0 = .ok L') := by
  have h0 : L0 user = Account.empty := by decide +kernel
  have hm : ∀ ms, (L0 user).data = .multisig ms → (L0 user).owner = token2022Id ∧ 1 ≤ ms.m := by
    intro ms h; rw [h0] at h; cases h
  have hs : (L0 src).data = .token (acct u user 5000 [.transferFeeAmount]) := by decide +kernel
  refine ⟨(wrap_succeeds_iff (by decide +kernel) (fun _ _ _ _ => rfl) (by decide +kernel)
    (by decide +kernel) (by simp) hm).2 ⟨by decide, 10, acct u user 5000 [.transferFeeAmount],
      acct u A 10 goodExts, acct W user 10 [], uMint [.transferFeeConfig feeCfg], wMint 10, ?_⟩,
    fun h => ?_⟩
  · refine ⟨?_, ?_, ?_, ?_, ?_, ?_, ?_, ?_⟩
    · constructor <;> first
        | decide +kernel
        | exact .inl ⟨rfl, fun ms h => by
            rw [show L0 user = Account.empty by decide +kernel] at h; cases h⟩
        | exact .inr (.inr ⟨by decide, by decide⟩)
    all_goals decide +kernel
  · obtain ⟨_, fee, s, d, r, m, w, c⟩ := (wrap_succeeds_iff (by decide +kernel)
      (fun _ _ _ _ => rfl) (by decide +kernel) (by decide +kernel) (by simp) hm).1 h
    have h1 := c.srcData
    rw [hs] at h1; cases h1
    have := c.enough
    revert this
    decide

/-- The Unwrap of 7 meets the hypotheses of `unwrap_succeeds_iff`. -/
example : env.programId = crateId ∧ (L0 A).data = .bytes [] ∧ W ≠ u ∧ E ≠ src ∧ user ∉ ([] : List Pubkey) ∧
    (∀ e, (L0 E).data = .token e → e.owner = A ∧ e.delegate = none) ∧
    (∀ h, (L0 rcp).data = .token h → ownedByNobody h = false) := by
  refine ⟨by decide +kernel, by decide +kernel, by decide +kernel, by decide +kernel, by simp, ?_, ?_⟩
  · intro e h
    rw [show (L0 E).data = .token (acct u A 10 goodExts) by decide +kernel] at h
    cases h; exact ⟨rfl, rfl⟩
  · intro e h
    rw [show (L0 rcp).data = .token (acct W user 10 []) by decide +kernel] at h
    cases h; decide +kernel

/-- The issuer can set the pointer; a user who is not the mint authority cannot. -/
example : (∃ L', processInstruction env (Build.setCanonicalPointer crateId issuer P u src).accounts
      (Build.setCanonicalPointer crateId issuer P u src).data Lptr = .ok L') ∧
    ¬ (∃ L', processInstruction env (Build.setCanonicalPointer crateId user P u src).accounts
      (Build.setCanonicalPointer crateId user P u src).data Lptr = .ok L') := by
  have hu : (Lptr u).data = .mint (uMint [.transferFeeConfig feeCfg]) := by decide +kernel
  refine ⟨(pointer_succeeds_iff rfl).2 ⟨_, by decide +kernel, hu, by decide +kernel,
    by decide +kernel, .inl (by decide +kernel)⟩, fun h => ?_⟩
  obtain ⟨m, c⟩ := (pointer_succeeds_iff rfl).1 h
  have h1 := c.uData
  rw [hu] at h1; cases h1
  have := c.authority
  revert this
  decide +kernel

/-- The stuck escrow can be closed to the user but not into the mint. -/
example : (∃ L', processInstruction env (Build.closeStuckEscrow crateId E user u W A).accounts
      (Build.closeStuckEscrow crateId E user u W A).data Lstuck = .ok L') ∧
    ¬ (∃ L', processInstruction env (Build.closeStuckEscrow crateId E u u W A).accounts
      (Build.closeStuckEscrow crateId E u u W A).data Lstuck = .ok L') := by
  have he : (Lstuck E).data = .token (acct u A 0 [.immutableOwner]) := by decide +kernel
  have hu : (Lstuck u).data = .mint (uMint [.transferFeeConfig feeCfg]) := by decide +kernel
  have hesc : ∀ t m, (Lstuck E).data = .token t → (Lstuck u).data = .mint m →
      t.closeAuthority = none ∧ NoDupExts t m := by
    intro t m h1 h2
    rw [he] at h1; cases h1
    rw [hu] at h2; cases h2
    exact ⟨rfl, by decide, by decide⟩
  refine ⟨(close_succeeds_iff rfl (fun _ _ _ _ => rfl) (by decide +kernel) (by decide +kernel)
    hesc).2 ⟨by decide +kernel, by decide +kernel, acct u A 0 [.immutableOwner],
      uMint [.transferFeeConfig feeCfg], ?_⟩, fun h => ?_⟩
  · rw [show (Lstuck W).owner = splTokenId by decide +kernel]
    constructor
    case noDup => exact ⟨by decide, by decide⟩
    case differs =>
      intro h
      have := (h .transferFeeAmount).2 (.fee (c := feeCfg) (by simp [uMint]))
      simp [acct] at this
    all_goals decide +kernel
  · exact ((close_succeeds_iff rfl (fun _ _ _ _ => rfl) (by decide +kernel) (by decide +kernel)
      hesc).1 h).2.1 rfl

/-- The wrapped Token-2022 mint of `u` can be created in the example ledger. -/
example : CanCreate env (Lc token2022Id) W22 B22 u token2022Id
    ((authorityAddress toyCrypto W22).getD default) (uMint [.transferFeeConfig feeCfg]) := by
  constructor <;> decide +kernel

/-- A frozen escrow: the situation of `unwrap_needs_thawed_escrow`. -/
example : ((L0.set E ⟨100, token2022Id, .token { acct u A 10 goodExts with frozen := true }⟩) E).data =
    .token { acct u A 10 goodExts with frozen := true } ∧ (acct u A 10 goodExts).mint = u ∧ W ≠ u := by
  refine ⟨by rw [Ledger.set_same], rfl, by decide +kernel⟩

end Example

end TokenWrap
