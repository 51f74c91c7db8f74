import Verif.Props.Liveness
import Verif.Props.Wrap
/-!
# C89: the complete state after a Wrap and after an Unwrap

The other effect theorems speak about balances, supply and frames.  Here the *whole* ledger after a
successful instruction is given in closed form: every field of every account.
-/

set_option linter.unusedSimpArgs false

namespace TokenWrap

open TokenWrapInstruction

/-! ## Specification -/

/-- Spec: a token account after `auth` took `amount` out of it.  A delegate (that is not the permanent
delegate) consumes exactly `amount` of its allowance and is removed when nothing is left of it;
everyone else leaves the allowance alone. -/
def takenFrom (t : TokenAcct) (pd : Option Pubkey) (auth : Pubkey) (amount : Nat) : TokenAcct :=
  if pd ≠ some auth ∧ t.delegate = some auth then
    { t with
      amount := t.amount - amount
      delegatedAmount := t.delegatedAmount - amount
      delegate := if t.delegatedAmount = amount then none else some auth }
  else { t with amount := t.amount - amount }

/-- Spec: a token account after `amount` was sent to it of which `fee` is withheld. -/
def receivedBy (t : TokenAcct) (amount fee : Nat) : TokenAcct :=
  { t with amount := t.amount + (amount - fee), withheld := t.withheld + fee }

/-- Spec: lamports that travel with `amount` tokens: as many as tokens for native (wrapped SOL)
accounts, none otherwise. -/
def nativeLamports (t : TokenAcct) (amount : Nat) : Nat := if t.isNative.isSome then amount else 0

/-- Spec: the ledger after wrapping `amount` out of `src` (contents `s`) into the escrow `E`
(contents `d`), with `credit` wrapped tokens minted to `rcp` (contents `r`) of the wrapped mint `W`
(contents `w`). -/
def ledgerAfterWrap (L : Ledger) (src E rcp W : Pubkey) (s d r : TokenAcct) (w : Mint)
    (pd : Option Pubkey) (auth : Pubkey) (amount fee : Nat) : Ledger := fun k =>
  if k = src then
    ⟨(L src).lamports - nativeLamports s amount, (L src).owner, .token (takenFrom s pd auth amount)⟩
  else if k = E then
    ⟨(L E).lamports + nativeLamports s amount, (L E).owner, .token (receivedBy d amount fee)⟩
  else if k = rcp then
    ⟨(L rcp).lamports, (L rcp).owner, .token { r with amount := r.amount + (amount - fee) }⟩
  else if k = W then
    ⟨(L W).lamports, (L W).owner, .mint { w with supply := w.supply + (amount - fee) }⟩
  else L k

/-- Spec: the ledger after unwrapping `amount` out of `holder` (contents `h`, wrapped mint `W` with
contents `w`), paid from the escrow `E` (contents `e`) to `rcp` (contents `d`).  `hpd` and `epd` are
the permanent delegates of the wrapped and the unwrapped mint. -/
def ledgerAfterUnwrap (L : Ledger) (holder W E rcp : Pubkey) (h e d : TokenAcct) (w : Mint)
    (hpd epd : Option Pubkey) (auth A : Pubkey) (amount fee : Nat) : Ledger := fun k =>
  if k = holder then
    ⟨(L holder).lamports, (L holder).owner, .token (if ownedByNobody h then
      { h with amount := h.amount - amount } else takenFrom h hpd auth amount)⟩
  else if k = W then
    ⟨(L W).lamports, (L W).owner, .mint { w with supply := w.supply - amount }⟩
  else if k = E then
    ⟨(L E).lamports - nativeLamports e amount, (L E).owner, .token (takenFrom e epd A amount)⟩
  else if k = rcp then
    ⟨(L rcp).lamports + nativeLamports e amount, (L rcp).owner, .token (receivedBy d amount fee)⟩
  else L k

/-! ## The token programs -/

theorem spendAuth_takenFrom {prog : Pubkey} {L : Ledger} {t t' : TokenAcct} {pd : Option Pubkey}
    {auth : Pubkey} {signers : List Pubkey} {signed : Pubkey → Bool} {amount : Nat}
    (h : spendAuth prog L t pd auth signers signed amount = .ok t') :
    { t' with amount := t.amount - amount } = takenFrom t pd auth amount := by
  unfold spendAuth at h
  unfold takenFrom
  split at h
  · rename_i hp
    simp only [bind_ok_iff, pure_ok_iff] at h
    obtain ⟨_, _, rfl⟩ := h
    rw [if_neg (fun hc => hc.1 hp)]
  · rename_i hp
    split at h
    · rename_i hd
      simp only [bind_ok_iff, require_ok_iff, pure_ok_iff, decide_eq_true_eq] at h
      obtain ⟨_, _, _, h2, rfl⟩ := h
      rw [if_pos (show pd ≠ some auth ∧ t.delegate = some auth from ⟨hp, hd⟩)]
      by_cases hz : t.delegatedAmount = amount
      · have hz' : t.delegatedAmount - amount = 0 := by omega
        rw [if_pos hz, if_pos hz']
      · have hz' : t.delegatedAmount - amount ≠ 0 := by omega
        rw [if_neg hz, if_neg hz', hd]
    · rename_i hd
      simp only [bind_ok_iff, pure_ok_iff] at h
      obtain ⟨_, _, rfl⟩ := h
      rw [if_neg (fun hc => hd hc.2)]

/-- The whole ledger after the balance update of a transfer. -/
theorem transferMove_exact {L L' : Ledger} {src dst : Pubkey} {s d : TokenAcct} {amount fee : Nat}
    (hne : src ≠ dst) (h : transferMove L src dst s d amount fee = .ok L') (k : Pubkey) :
    L' k = if k = src then ⟨(L src).lamports - nativeLamports s amount, (L src).owner,
        .token { s with amount := s.amount - amount }⟩
      else if k = dst then ⟨(L dst).lamports + nativeLamports s amount, (L dst).owner,
        .token (receivedBy d amount fee)⟩
      else L k := by
  obtain ⟨_, _, _, h1, h2, h3, h4, h5, h6⟩ := transferMove_inv hne h
  have acc : ∀ (a : Account) (l : Nat) (o : Pubkey) (x : Data), a.lamports = l → a.owner = o →
      a.data = x → a = ⟨l, o, x⟩ := by rintro ⟨_, _, _⟩ _ _ _ rfl rfl rfl; rfl
  have lam : (L' src).lamports = (L src).lamports - nativeLamports s amount ∧
      (L' dst).lamports = (L dst).lamports + nativeLamports s amount := by
    unfold nativeLamports
    by_cases hn : s.isNative = none
    · have : s.isNative.isSome = false := by rw [hn]; rfl
      rw [this]; exact h6 hn
    · have : s.isNative.isSome = true := by
        cases hx : s.isNative with
        | none => exact absurd hx hn
        | some _ => rfl
      rw [if_pos this]; exact (transferMove_native hne h hn).2
  split
  · rename_i e; subst e; exact acc _ _ _ _ lam.1 h2 h1
  · split
    · rename_i e; subst e; exact acc _ _ _ _ lam.2 h4 h3
    · exact h5 k (by assumption) (by assumption)

/-- The burnt account, exactly. -/
theorem burnExec_exact {prog : Pubkey} {signed : Pubkey → Bool} {L L' : Ledger}
    {acct mint auth : Pubkey} {signers : List Pubkey} {amount : Nat} {s : TokenAcct} {m : Mint}
    (h : burnExec prog signed L acct mint auth signers amount = .ok L')
    (hs : (L acct).data = .token s) (hm : (L mint).data = .mint m) :
    L' = (L.setData acct (.token (if ownedByNobody s then { s with amount := s.amount - amount }
        else takenFrom s (pdOf prog m) auth amount))).setData mint
      (.mint { m with supply := m.supply - amount }) := by
  unfold burnExec at h
  simp only [bind_ok_iff, require_ok_iff, getToken_ok_iff, getMint_ok_iff, pure_ok_iff] at h
  obtain ⟨s0, ⟨_, hs2⟩, m0, ⟨_, hm2, _⟩, _, _, _, _, _, _, _, _, s', hs', _, _, rfl⟩ := h
  rw [hs] at hs2; cases hs2
  rw [hm] at hm2; cases hm2
  cases ho : ownedByNobody s with
  | true =>
    rw [ho] at hs'
    simp only [if_true, Except.ok.injEq] at hs'
    subst hs'
    rfl
  | false =>
    rw [ho] at hs'
    simp only [Bool.false_eq_true, if_false] at hs' ⊢
    rw [spendAuth_takenFrom hs']

/-! ## Wrap -/

section Thms

variable {env : Env} {L L' : Ledger} {amount : UInt64}

/-- The transfer CPI of Wrap, with the spent account exactly. -/
theorem wrapTransfer_spend {accounts : List Meta} {a : WrapAccounts} {m : Mint}
    {amount : Nat} {L1 : Ledger} {s : TokenAcct} (hm : (L a.unwrappedMint.key).data = .mint m)
    (hs : (L a.unwrappedTokenAccount.key).data = .token s)
    (hne : a.unwrappedTokenAccount.key ≠ a.escrow.key)
    (h : wrapTransfer env accounts a m amount (wrapFee env m amount) L = .ok L1) :
    (L1 a.unwrappedTokenAccount.key).data =
      .token (takenFrom s (pdOf a.unwrappedTokenProgram.key m) a.transferAuthority.key amount) := by
  have key : ∀ (sg : Pubkey → Bool) (ss : List Pubkey) (ef : Option Nat),
      transferExec env a.unwrappedTokenProgram.key sg L a.unwrappedTokenAccount.key a.escrow.key
        a.transferAuthority.key ss amount (some (a.unwrappedMint.key, m.decimals)) ef = .ok L1 →
      (L1 a.unwrappedTokenAccount.key).data =
        .token (takenFrom s (pdOf a.unwrappedTokenProgram.key m) a.transferAuthority.key amount) := by
    intro sg ss ef h5
    obtain ⟨s0, d0, m0, fee, s0', e1, e2, e3, e4, e5, e6, e7, e8, e9, e10, e11, e12, _, e13, _, e15,
      e16⟩ := transferExec_inv h5
    rw [hs] at e2; cases e2
    rw [hm] at e11; cases e11
    rcases e16 with ⟨e, _⟩ | ⟨_, e⟩
    · exact absurd e hne
    · rw [(transferMove_inv hne e).2.2.2.1]
      have := spendAuth_takenFrom e15
      rw [← this, (spendAuth_inv e15).2.2.amount]
  unfold wrapTransfer at h
  dsimp only at h
  by_cases h22 : a.unwrappedTokenProgram.key = token2022Id
  · rw [if_pos h22] at h
    obtain ⟨_, _, _, _, h5⟩ := invokeToken_inv h
    have hrej := tokenExec_not_rejected h5
    unfold tokenExec at h5
    rw [hrej] at h5
    exact key _ _ _ h5
  · rw [if_neg h22] at h
    obtain ⟨_, _, _, _, h5⟩ := invokeToken_inv h
    have hrej := tokenExec_not_rejected h5
    unfold tokenExec at h5
    rw [hrej] at h5
    exact key _ _ _ h5

section
variable {recipient wmint auth uprog wprog src umint escrow tauth : Meta} {rest : List Meta}

/-- **C89** The complete ledger after a successful Wrap whose source is not the escrow itself. -/
theorem wrap_post_state
    (h : processInstruction env ([recipient, wmint, auth, uprog, wprog, src, umint, escrow, tauth] ++
      rest) (wrap amount).pack L = .ok L') (hne : src.key ≠ escrow.key) :
    ∃ s d r m w fee,
      (L src.key).data = .token s ∧ (L escrow.key).data = .token d ∧
      (L recipient.key).data = .token r ∧ (L umint.key).data = .mint m ∧
      (L wmint.key).data = .mint w ∧ IsMintFee m env.epoch amount.toNat fee ∧
      amount.toNat ≤ s.amount ∧ fee ≤ amount.toNat ∧
      L' = ledgerAfterWrap L src.key escrow.key recipient.key wmint.key s d r w
        (pdOf uprog.key m) tauth.key amount.toNat fee := by
  obtain ⟨m, w, s, d, s', r, L1, e⟩ := wrap_effect h
  obtain ⟨pda, c⟩ := e.ctx
  have t := e.tr
  have hmv : transferMove L src.key escrow.key s' d amount.toNat (wrapFee env m amount.toNat) =
      .ok L1 := by
    rcases t.moved with ⟨h1, _⟩ | ⟨_, h1⟩
    · exact absurd h1 hne
    · exact h1
  have hx := transferMove_exact hne hmv
  have hsp := wrapTransfer_spend c.uMint t.srcData hne c.transfer
  refine ⟨s, d, r, m, w, wrapFee env m amount.toNat, t.srcData, t.escData, e.rData, c.uMint, e.wData,
    feeOf_isMintFee t.uprog t.splExts t.feeEq, t.enough, c.feeLe, ?_⟩
  funext k
  have rNeS := e.rNeS
  have rNeE := e.rNeE
  have rNeW := e.rNeW
  have wNeS := e.wNeS
  have wNeE := e.wNeE
  dsimp only at rNeS rNeE rNeW wNeS wNeE hsp
  have hnat : nativeLamports s' amount.toNat = nativeLamports s amount.toNat := by
    unfold nativeLamports; rw [t.same.isNative]
  have hf := e.final
  dsimp only at hf
  rw [hf]
  unfold ledgerAfterWrap
  simp only [Ledger.setData_apply]
  by_cases k1 : k = src.key
  · subst k1
    rw [if_neg (Ne.symm wNeS), if_neg (Ne.symm rNeS), if_pos rfl, hx, if_pos rfl, hnat]
    have := hx src.key
    rw [if_pos rfl] at this
    rw [this] at hsp
    dsimp only at hsp
    rw [hsp]
  · rw [if_neg k1]
    by_cases k2 : k = escrow.key
    · subst k2
      rw [if_neg (Ne.symm wNeE), if_neg (Ne.symm rNeE), if_pos rfl, hx, if_neg k1, if_pos rfl, hnat]
    · rw [if_neg k2]
      by_cases k3 : k = recipient.key
      · subst k3
        simp only [if_neg rNeW, if_true, hx, if_neg k1, if_neg k2]
      · rw [if_neg k3]
        by_cases k4 : k = wmint.key
        · subst k4
          simp only [if_true, if_neg k3, hx, if_neg k1, if_neg k2]
        · rw [if_neg k4, if_neg k4, if_neg k3, hx, if_neg k1, if_neg k2]

end

section
variable {escrow recipient auth umint wprog uprog holder wmint tauth : Meta} {rest : List Meta}

/-- **C89** The complete ledger after a successful Unwrap that does not pay into the escrow itself. -/
theorem unwrap_post_state
    (h : processInstruction env ([escrow, recipient, auth, umint, wprog, uprog, holder, wmint,
      tauth] ++ rest) (unwrap amount).pack L = .ok L') (hwu : wmint.key ≠ umint.key)
    (hne : recipient.key ≠ escrow.key) :
    ∃ h e d m w fee,
      (L holder.key).data = .token h ∧ (L escrow.key).data = .token e ∧
      (L recipient.key).data = .token d ∧ (L umint.key).data = .mint m ∧
      (L wmint.key).data = .mint w ∧ IsMintFee m env.epoch amount.toNat fee ∧
      amount.toNat ≤ h.amount ∧ amount.toNat ≤ w.supply ∧ amount.toNat ≤ e.amount ∧
      fee ≤ amount.toNat ∧
      L' = ledgerAfterUnwrap L holder.key wmint.key escrow.key recipient.key h e d w
        (pdOf wprog.key w) (pdOf uprog.key m) tauth.key auth.key amount.toNat fee := by
  obtain ⟨m, w, t, t', e, e', d, fee, L1, ef⟩ := unwrap_effect h
  obtain ⟨pda, c⟩ := ef.ctx
  obtain ⟨n1, n2, n3, n4, o1, o2, hm⟩ := ef.distinct hwu
  dsimp only at n1 n2 n3 n4 o1 o2 hm
  have hne' : escrow.key ≠ recipient.key := Ne.symm hne
  have hmv : transferMove L1 escrow.key recipient.key e' d amount.toNat fee = .ok L' := by
    rcases ef.moved with ⟨h1, _⟩ | ⟨_, h1⟩
    · exact absurd h1 hne'
    · exact h1
  have hx := transferMove_exact hne' hmv
  have eD : (L escrow.key).data = .token e := by rw [← o1]; exact ef.eData
  have dD : (L recipient.key).data = .token d := by rw [← o2]; exact ef.dData
  -- the burn
  have hmid : L1 = (L.setData holder.key (.token (if ownedByNobody t then
        { t with amount := t.amount - amount.toNat }
        else takenFrom t (pdOf wprog.key w) tauth.key amount.toNat))).setData wmint.key
      (.mint { w with supply := w.supply - amount.toNat }) := by
    obtain ⟨_, _, _, _, h5⟩ := invokeToken_inv c.burn
    have hrej := tokenExec_not_rejected h5
    unfold tokenExec at h5
    rw [hrej] at h5
    exact burnExec_exact h5 ef.hData ef.wData
  -- the escrow
  have hsp : { e' with amount := e'.amount - amount.toNat } =
      takenFrom e (pdOf uprog.key m) auth.key amount.toNat := by
    obtain ⟨_, _, _, _, h5⟩ := invokeToken_inv c.transfer
    have hrej := tokenExec_not_rejected h5
    unfold tokenExec at h5
    rw [hrej] at h5
    obtain ⟨e0, d0, m0, f0, e0', x1, x2, x3, x4, x5, x6, x7, x8, x9, x10, x11, x12, _, x13, _, x15,
      x16⟩ := transferExec_inv h5
    have q1 := x2.symm.trans ef.eData
    cases q1
    have q2 := x11.symm.trans c.uMint
    cases q2
    have y : (L' escrow.key).data = .token { e0' with amount := e0'.amount - amount.toNat } := by
      rcases x16 with ⟨q, _⟩ | ⟨_, q⟩
      · exact absurd q hne'
      · exact (transferMove_inv hne' q).2.2.2.1
    have z := hx escrow.key
    rw [if_pos rfl] at z
    rw [z] at y
    dsimp only at y
    have y' := Data.token.inj y
    rw [y', (spendAuth_inv x15).2.2.amount]
    exact spendAuth_takenFrom x15
  refine ⟨t, e, d, m, w, fee, ef.hData, eD, dD, hm, ef.wData,
    feeOf_isMintFee ef.uprog ef.splExts ef.feeEq, ef.hEnough, ef.wSupply, ef.eEnough,
    (transferMove_inv hne' hmv).1, ?_⟩
  funext k
  have hNeW := ef.hNeW
  dsimp only at hNeW
  have hnat : nativeLamports e' amount.toNat = nativeLamports e amount.toNat := by
    unfold nativeLamports; rw [ef.eSame.isNative]
  rw [hx]
  unfold ledgerAfterUnwrap
  by_cases k1 : k = holder.key
  · subst k1
    rw [if_neg n1, if_neg n2, if_pos rfl, hmid]
    simp only [Ledger.setData_apply, if_neg hNeW, if_true]
  · rw [if_neg k1]
    by_cases k2 : k = wmint.key
    · subst k2
      rw [if_neg n3, if_neg n4, if_pos rfl, hmid]
      simp only [Ledger.setData_apply, if_true, if_neg k1]
    · rw [if_neg k2]
      by_cases k3 : k = escrow.key
      · subst k3
        rw [if_pos rfl, if_pos rfl, o1, hnat, hsp]
      · rw [if_neg k3, if_neg k3]
        by_cases k4 : k = recipient.key
        · subst k4
          rw [if_pos rfl, if_pos rfl, o2, hnat]
        · rw [if_neg k4, if_neg k4, hmid]
          simp only [Ledger.setData_apply, if_neg k1, if_neg k2]

end

/-! ## Consequences for delegates -/

/-- **C89** A delegate that spends everything it was allowed is removed, one that spends part of it
keeps exactly the rest. -/
theorem takenFrom_allowance (t : TokenAcct) (pd : Option Pubkey) (auth : Pubkey) (amount : Nat)
    (hp : pd ≠ some auth) (hd : t.delegate = some auth) :
    (takenFrom t pd auth amount).delegatedAmount + min amount t.delegatedAmount =
      t.delegatedAmount ∧
    ((takenFrom t pd auth amount).delegate = none ↔ amount = t.delegatedAmount) := by
  unfold takenFrom
  rw [if_pos ⟨hp, hd⟩]
  dsimp only
  refine ⟨by omega, ?_⟩
  split
  · simp_all
  · simp; omega

/-! ## The built instructions -/

/-- The fee of a mint is determined by the specification. -/
theorem isMintFee_unique {m : Mint} {epoch amount f g : Nat} (hf : IsMintFee m epoch amount f)
    (hg : IsMintFee m epoch amount g) : f = g := by
  unfold IsMintFee at hf hg
  split at hf
  · rename_i c hc; simp only [hc] at hg; exact isFee_unique hf hg
  · rename_i hc; simp only [hc] at hg; rw [hf, hg]

/-- **C89** In the well-formed situation the built Wrap succeeds with exactly the specified
ledger. -/
theorem wrap_runs_to {rcp W A uprog wprog src u E tauth : Pubkey} {members : List Pubkey} {fee : Nat}
    {s d r : TokenAcct} {m w : Mint}
    (hid : env.programId = crateId) (hz : amount ≠ 0)
    (hrej : ∀ p ix sg L, env.reject p ix sg L = none) (hne : src ≠ E)
    (c : CanWrap env L rcp W A uprog wprog src u E tauth members amount.toNat fee s d r m w) :
    processInstruction env
      (Build.wrap crateId rcp W A uprog wprog src u E tauth members amount).accounts
      (Build.wrap crateId rcp W A uprog wprog src u E tauth members amount).data L =
    .ok (ledgerAfterWrap L src E rcp W s d r w (pdOf uprog m) tauth amount.toNat fee) := by
  obtain ⟨L', h⟩ := wrap_succeeds hid hz hrej c
  rw [h]
  simp only [Build.wrap] at h
  obtain ⟨s0, d0, r0, m0, w0, f0, h1, h2, h3, h4, h5, h6, _, _, h9⟩ := wrap_post_state h hne
  obtain rfl := Data.token.inj (h1.symm.trans c.srcData)
  obtain rfl := Data.token.inj (h2.symm.trans c.escData)
  obtain rfl := Data.token.inj (h3.symm.trans c.rData)
  obtain rfl := Data.mint.inj (h4.symm.trans c.mintData)
  obtain rfl := Data.mint.inj (h5.symm.trans c.wData)
  obtain rfl := isMintFee_unique h6 (feeOf_isMintFee c.uprogOk c.splExts c.feeEq)
  rw [h9]
  rfl

/-- **C89** In the well-formed situation the built Unwrap succeeds with exactly the specified
ledger. -/
theorem unwrap_runs_to {E rcp A u wprog uprog holder W tauth : Pubkey} {members : List Pubkey}
    {fee : Nat} {e d t : TokenAcct} {m w : Mint}
    (hid : env.programId = crateId) (hz : amount ≠ 0)
    (hrej : ∀ p ix sg L, env.reject p ix sg L = none) (hne : rcp ≠ E)
    (c : CanUnwrap env L E rcp A u wprog uprog holder W tauth members amount.toNat fee e d t m w) :
    processInstruction env
      (Build.unwrap crateId E rcp A u wprog uprog holder W tauth members amount).accounts
      (Build.unwrap crateId E rcp A u wprog uprog holder W tauth members amount).data L =
    .ok (ledgerAfterUnwrap L holder W E rcp t e d w (pdOf wprog w) (pdOf uprog m) tauth A
      amount.toNat fee) := by
  obtain ⟨L', h⟩ := unwrap_succeeds hid hz hrej c
  rw [h]
  simp only [Build.unwrap] at h
  obtain ⟨t0, e0, d0, m0, w0, f0, h1, h2, h3, h4, h5, h6, _, _, _, _, h9⟩ :=
    unwrap_post_state h c.wNeU hne
  obtain rfl := Data.token.inj (h1.symm.trans c.hData)
  obtain rfl := Data.token.inj (h2.symm.trans c.escData)
  obtain rfl := Data.token.inj (h3.symm.trans c.rData)
  obtain rfl := Data.mint.inj (h4.symm.trans c.mintData)
  obtain rfl := Data.mint.inj (h5.symm.trans c.wData)
  obtain rfl := isMintFee_unique h6 (feeOf_isMintFee c.uprogOk c.splExts c.feeEq)
  rw [h9]
  rfl

end Thms

/-! ## Concrete instances -/

namespace Example

/-- A delegate of the source account, allowed to spend 1500. -/
def bob : Pubkey := .lit 77

/-- The healthy world in which the user approved `bob` for 1500. -/
def LDel : Ledger := L0.setData src
  (.token { acct u user 5000 [.transferFeeAmount] with delegate := some bob, delegatedAmount := 1500 })

/-- The delegate wraps. -/
def delWrapAccounts (n : UInt64) : List Meta :=
  (Build.wrap crateId rcp W A token2022Id splTokenId src u E bob [] n).accounts

-- the hypotheses are met by a wrap of a delegate: 1000 of the 1500 are used
example : ok (processInstruction env (delWrapAccounts 1000) (wrap 1000).pack LDel) = true ∧ src ≠ E := by
  decide +kernel

-- ... and the remaining allowance is 500, the withheld fee of 10 is recorded in the escrow
example : ((get (processInstruction env (delWrapAccounts 1000) (wrap 1000).pack LDel)) src).data =
    .token { acct u user 4000 [.transferFeeAmount] with
      delegate := some bob, delegatedAmount := 500 } ∧
    ((get (processInstruction env (delWrapAccounts 1000) (wrap 1000).pack LDel)) E).data =
    .token { acct u A 1000 goodExts with withheld := 10 } := by decide +kernel

-- wrapping the whole allowance removes the delegate
example : ((get (processInstruction env (delWrapAccounts 1500) (wrap 1500).pack LDel)) src).data =
    .token (acct u user 3500 [.transferFeeAmount]) := by decide +kernel

-- the theorem applied to a run: no other account than the four is different
example (k : Pubkey) (h1 : k ≠ src) (h2 : k ≠ E) (h3 : k ≠ rcp) (h4 : k ≠ W) :
    get (processInstruction env (delWrapAccounts 1000) (wrap 1000).pack LDel) k = LDel k := by
  have hok : ok (processInstruction env (delWrapAccounts 1000) (wrap 1000).pack LDel) = true := by
    decide +kernel
  obtain ⟨s, d, r, m, w, fee, _, _, _, _, _, _, _, _, hL⟩ :=
    wrap_post_state (get_eq hok) (show src ≠ E by decide +kernel)
  refine (congrFun hL k).trans ?_
  unfold ledgerAfterWrap
  exact (if_neg h1).trans ((if_neg h2).trans ((if_neg h3).trans (if_neg h4)))

-- the unwrap theorem's hypotheses are met
example : ok (processInstruction env unwrapAccounts (unwrap 7).pack L0) = true ∧ W ≠ u ∧ src ≠ E := by
  decide +kernel

end Example

end TokenWrap
