import Verif.Freeze
import Verif.Props.HistoryExample
/-!
# C82–C84: custody of tokens, and freezing

Nobody takes tokens from an account without the approval of its owner, delegate, close authority or
the permanent delegate of its mint; nobody freezes wrapped tokens but the freeze authority of the
wrapped mint, which nobody but its holder replaces; and a frozen account with tokens stays as it is.
-/

set_option linter.unusedSimpArgs false

namespace TokenWrap

section
variable {cr : Crypto} {s : Setting cr} {ok : Act → Ledger → Prop} {L0 L1 L L' : Ledger}
  {trace trace' : List Act} {act : Act} {k : Pubkey} {t : TokenAcct} {m : Mint}

/-- The invariant, as a condition on a step and on what its transfer hook does. -/
theorem Step.known (hi : Inv .off s L) (hf : Funds L) (h : Step cr ok act L L') :
    Step cr (fun act L => ok act L ∧ Inv .off s L ∧ Funds L) act L L' := by
  refine Step.strengthenS (P := fun L => Inv .off s L ∧ Funds L) ?_ ?_ ⟨hi, hf⟩ h
  · intro act L L' hp hb
    exact ⟨(baseStep_safe hp.1 (fun h : False => h.elim) hp.2.all hb).inv, hp.2.baseStep hb⟩
  · intro env accounts a m amount fee L L' hp hr hs hw
    exact ⟨(wrapTransfer_safe (S := fun _ => True) hp.1 (fun h : False => h.elim)
      (fun _ _ => trivial) hs hw).inv, hp.2.wrapTransfer hr hw⟩

/-- The invariant along a continuation. -/
theorem History.invFrom (hi : Inv .off s L1) (hf : Funds L1) (h : History cr ok L1 trace' L) :
    Inv .off s L ∧ Funds L := by
  induction h with
  | start => exact ⟨hi, hf⟩
  | step h h1 h2 ih =>
    exact ⟨(step_eff' (fun _ _ _ (h : False) => h.elim) ih.1 ih.2 h1 h2).inv, ih.2.step h2⟩

/-- The token account `t` at address `k` of ledger `L1` is still there in `L`: under the same token
program, of the same mint, with the same owner, delegate and close authority, and with at least as
many tokens and confidential tokens. -/
structure TokensKept (L1 L : Ledger) (k : Pubkey) (t t' : TokenAcct) : Prop where
  program : (L k).owner = (L1 k).owner
  data : (L k).data = .token t'
  mint : t'.mint = t.mint
  owner : t'.owner = t.owner
  delegate : t'.delegate = t.delegate
  closeAuthority : t'.closeAuthority = t.closeAuthority
  amount : t.amount ≤ t'.amount
  confidential : t.confidential ≤ t'.confidential

theorem Stays.kept (h : Stays L L' k t) : ∃ t', TokensKept L L' k t t' := by
  obtain ⟨h1, t', h2, h3, h4⟩ := h
  exact ⟨t', h1, h2, h3, h4.owner, h4.delegate, h4.closeAuthority, h4.amount, h4.confidential⟩

theorem TokensKept.stays {t' : TokenAcct} (h : TokensKept L L' k t t') : Stays L L' k t :=
  ⟨h.program, t', h.data, h.mint, h.owner, h.delegate, h.closeAuthority, h.amount, h.confidential⟩

theorem stays_history (hf : Funds L1) (ho : isTokenProgram (L1 k).owner = true)
    (hd : (L1 k).data = .token t) (hn : ownedByNobody t = false)
    (h : History cr (fun act L => Unapproved t.mint (act.Signer cr) L k) L1 trace' L) :
    Stays L1 L k t := by
  induction h with
  | start => exact .refl hd
  | step h h1 h2 ih =>
    refine ih.trans fun t1 e1 e2 e3 => ?_
    exact stays_step (ok := fun act L => Unapproved t.mint (act.Signer cr) L k ∧ Funds L)
      (fun _ _ h => ⟨h.2.all, by rw [e2]; exact h.1⟩) (h2.funded (h.funds hf)) (h.funds hf).all
      (by rw [e2]; exact h1) (by rw [ih.1]; exact ho) e1 (by rw [e3.nobody]; exact hn)

/-- **C82** Custody of any token account.  As long as nobody in charge of it (its owner, its delegate,
its close authority, the permanent delegate of its mint) approves, no history of instructions of any
program, Token Wrap's included, takes a token out of it, closes it or changes who is in charge of it.
Accounts whose owner is the system program or the incinerator, where anybody may burn, are not
covered. -/
theorem tokens_stay (hf : Funds L0) (ho : isTokenProgram (L0 k).owner = true)
    (hd : (L0 k).data = .token t) (hn : t.owner ≠ systemId) (hn' : t.owner ≠ incineratorId)
    (h : History cr (fun act L => Unapproved t.mint (act.Signer cr) L k) L0 trace L) :
    ∃ t', TokensKept L0 L k t t' :=
  (stays_history hf ho hd (by simp [ownedByNobody, hn, hn']) h).kept

/-- **C82** The same for an account of wrapped tokens, at any point of any history of its pair: since
the wrapped mint never has a permanent delegate, only the approval of the account's owner, delegate
or close authority counts. -/
theorem wrapped_tokens_stay (h0 : Fresh s L0) (h : History cr ok L0 trace L1)
    (ho : (L1 k).owner = s.wp) (hd : (L1 k).data = .token t) (hm : t.mint = s.W)
    (hn : t.owner ≠ systemId) (hn' : t.owner ≠ incineratorId)
    (h' : History cr (fun act L => ∀ x a, (L k).data = .token x →
      (x.owner = a ∨ x.delegate = some a ∨ x.closeAuthority = some a) →
      ¬ ApprovesBy L (act.Signer cr) a) L1 trace' L) :
    ∃ t', TokensKept L1 L k t t' := by
  have hi := h.inv' h0
  have hf := h.funds h0.funds
  have hb : ownedByNobody t = false := by simp [ownedByNobody, hn, hn']
  refine Stays.kept ?_
  clear h
  induction h' with
  | start => exact .refl hd
  | step h h1 h2 ih =>
    obtain ⟨hi', hf'⟩ := h.invFrom hi hf
    have key : ∀ (act : Act) (L : Ledger), (∀ x a, (L k).data = .token x →
        (x.owner = a ∨ x.delegate = some a ∨ x.closeAuthority = some a) →
        ¬ ApprovesBy L (act.Signer cr) a) → Inv .off s L →
        Unapproved s.W (act.Signer cr) L k := by
      intro act L hq inv x a hx hxm hc
      refine hq x a hx ?_
      rcases hc with h | h | h | ⟨m, hmd, h⟩
      · exact .inl h
      · exact .inr (.inl h)
      · exact .inr (.inr h)
      · rw [hxm] at hmd
        rw [wrappedExts_noPD (inv.wMint hmd).2] at h; cases h
    refine ih.trans fun t1 e1 e2 e3 => ?_
    refine stays_step ?_ (h2.known hi' hf') hf'.all (by rw [e2, hm]; exact key _ _ h1 hi')
      (by rw [ih.1, ho]; exact wp_token s) e1 (by rw [e3.nobody]; exact hb)
    intro act L hx
    exact ⟨hx.2.2.all, by rw [e2, hm]; exact key _ _ hx.1 hx.2.1⟩

/-! ## C83: who freezes -/

/-- **C83** The freeze authority of the wrapped mint changes only with the approval of its holder: in
every continuation without that approval it stays what it is. -/
theorem freeze_authority_stays (h0 : Fresh s L0) (h : History cr ok L0 trace L1)
    (hm : (L1 s.W).data = .mint m)
    (h' : History cr (fun act L => FreezerIdle (act.Signer cr) L s.W) L1 trace' L) :
    ∃ m', (L s.W).data = .mint m' ∧ m'.freezeAuthority = m.freezeAuthority := by
  have hi := h.inv' h0
  have hf := h.funds h0.funds
  show FreezerKept L s.W m
  clear h
  induction h' with
  | start => exact ⟨m, hm, rfl⟩
  | step h h1 h2 ih =>
    obtain ⟨hi', hf'⟩ := h.invFrom hi hf
    exact ih.trans fun m1 e1 => freezer_step (fun _ _ h => ⟨h.2.1, h.2.2.all, h.1⟩)
      (h2.known hi' hf') hi' hf'.all h1 e1

theorem onset_history (hi : Inv .off s L1) (hf : Funds L1)
    (h' : History cr (fun act L => FreezerIdle (act.Signer cr) L s.W) L1 trace' L)
    (hz : FrozenAt s.wp s.W L k) : FrozenAt s.wp s.W L1 k := by
  induction h' with
  | start => exact hz
  | step h h1 h2 ih =>
    obtain ⟨hi', hf'⟩ := h.invFrom hi hf
    exact ih (onset_step (fun _ _ h => ⟨h.2.1, h.1⟩) (h2.known hi' hf') hi' h1 hz)

/-- **C83** An account of wrapped tokens is frozen only with the approval of the wrapped mint's freeze
authority: what is frozen after a continuation without that approval was frozen before. -/
theorem frozen_only_by_freezer (h0 : Fresh s L0) (h : History cr ok L0 trace L1)
    (h' : History cr (fun act L => FreezerIdle (act.Signer cr) L s.W) L1 trace' L)
    (ho : (L k).owner = s.wp) (hd : (L k).data = .token t) (hm : t.mint = s.W)
    (hz : t.frozen = true) :
    (L1 k).owner = s.wp ∧ ∃ t1, (L1 k).data = .token t1 ∧ t1.mint = s.W ∧ t1.frozen = true :=
  onset_history (h.inv' h0) (h.funds h0.funds) h' ⟨ho, t, hd, hm, hz⟩

/-- **C83** Unless the freeze authority ever approves an instruction, no account of wrapped tokens is
ever frozen. -/
theorem never_frozen (h0 : Fresh s L0)
    (h : History cr (fun act L => FreezerIdle (act.Signer cr) L s.W) L0 trace L)
    (ho : (L k).owner = s.wp) (hd : (L k).data = .token t) (hm : t.mint = s.W) :
    t.frozen = false := by
  cases hz : t.frozen with
  | false => rfl
  | true =>
    obtain ⟨h1, t1, h2, h3, _⟩ := onset_history h0.inv h0.funds h ⟨ho, t, hd, hm, hz⟩
    exact absurd h3 (h0.noHolder k t1 h1 h2)

/-- The wrapped mint exists, without freeze authority. -/
def NoFreezer (s : Setting cr) (L : Ledger) : Prop :=
  ∃ m, (L s.W).data = .mint m ∧ m.freezeAuthority = none

theorem NoFreezer.idle {S : Pubkey → Prop} (h : NoFreezer s L) : FreezerIdle S L s.W := by
  obtain ⟨m, h1, h2⟩ := h
  intro m' f h3 h4
  cases Data.mint.inj (h1.symm.trans h3)
  rw [h2] at h4; cases h4

theorem FreezerKept.none (hm : m.freezeAuthority = none) (h : FreezerKept L' s.W m) :
    NoFreezer s L' := by
  obtain ⟨m', h1, h2⟩ := h
  exact ⟨m', h1, h2.trans hm⟩

theorem Step.noFreezer (hi : Inv .off s L) (hf : Funds L) (hn : NoFreezer s L)
    (h : Step cr ok act L L') :
    Step cr (fun act L => ok act L ∧ Inv .off s L ∧ Funds L ∧ NoFreezer s L) act L L' := by
  refine Step.strengthenS (P := fun L => Inv .off s L ∧ Funds L ∧ NoFreezer s L) ?_ ?_ ⟨hi, hf, hn⟩ h
  · intro act L L' hp hb
    obtain ⟨m, h1, h2⟩ := id hp.2.2
    exact ⟨(baseStep_safe hp.1 (fun h : False => h.elim) hp.2.1.all hb).inv, hp.2.1.baseStep hb,
      (freezer_base hb hp.1 hp.2.1.all hp.2.2.idle h1).none h2⟩
  · intro env accounts a m amount fee L L' hp hr hs hw
    obtain ⟨m, h1, h2⟩ := id hp.2.2
    exact ⟨(wrapTransfer_safe (S := fun _ => True) hp.1 (fun h : False => h.elim)
      (fun _ _ => trivial) hs hw).inv, hp.2.1.wrapTransfer hr hw,
      (Eff.freezer (S := fun _ => True) (eff_wrapTransfer (fun _ _ => trivial) hw) h1
        (wrappedExts_noClose (hp.1.wMint h1).2) hp.2.2.idle).none h2⟩

/-- **C83** A wrapped mint without freeze authority can never be used to freeze: whoever signs
whatever, what is frozen later was frozen before. -/
theorem never_frozen_without_freezer (h0 : Fresh s L0) (h : History cr ok L0 trace L1)
    (hm : (L1 s.W).data = .mint m) (hnone : m.freezeAuthority = none)
    (h' : History cr ok L1 trace' L)
    (ho : (L k).owner = s.wp) (hd : (L k).data = .token t) (hmk : t.mint = s.W)
    (hz : t.frozen = true) :
    (L1 k).owner = s.wp ∧ ∃ t1, (L1 k).data = .token t1 ∧ t1.mint = s.W ∧ t1.frozen = true := by
  have hi := h.inv' h0
  have hf := h.funds h0.funds
  clear h
  have : History cr (fun act L => FreezerIdle (act.Signer cr) L s.W) L1 trace' L ∧ NoFreezer s L := by
    clear hd ho
    induction h' with
    | start => exact ⟨.start, m, hm, hnone⟩
    | step h h1 h2 ih =>
      obtain ⟨hi', hf'⟩ := h.invFrom hi hf
      have h3 := h2.noFreezer hi' hf' ih.2
      refine ⟨.step ih.1 ih.2.idle (h3.weaken fun _ _ h => h.2.2.2.idle), ?_⟩
      obtain ⟨m1, g1, g2⟩ := id ih.2
      exact (freezer_step (fun _ _ h => ⟨h.2.1, h.2.2.1.all, h.2.2.2.idle⟩) h3 hi' hf'.all
        ih.2.idle g1).none g2
  exact onset_history hi hf this.1 ⟨ho, t, hd, hmk, hz⟩

/-! ## C84: what is frozen -/

/-- **C84** A frozen account holding wrapped tokens is out of everybody's reach: unless the freeze
authority approves, it stays frozen, with exactly its balances and its authorities, whatever its
owner, its delegate, Token Wrap or any other program do. -/
theorem frozen_tokens_inert (h0 : Fresh s L0) (h : History cr ok L0 trace L1)
    (ho : (L1 k).owner = s.wp) (hd : (L1 k).data = .token t) (hm : t.mint = s.W)
    (hz : t.frozen = true) (pos : 0 < t.amount + t.confidential)
    (h' : History cr (fun act L => FreezerIdle (act.Signer cr) L s.W) L1 trace' L) :
    (L k).owner = s.wp ∧ ∃ t', (L k).data = .token t' ∧ t'.mint = s.W ∧ t'.owner = t.owner ∧
      t'.delegate = t.delegate ∧ t'.closeAuthority = t.closeAuthority ∧ t'.amount = t.amount ∧
      t'.confidential = t.confidential ∧ t'.frozen = true := by
  have hi := h.inv' h0
  have hf := h.funds h0.funds
  clear h
  have : Inert L1 L k t := by
    induction h' with
    | start => exact .of_kept hd .rfl'
    | step h h1 h2 ih =>
      obtain ⟨hi', hf'⟩ := h.invFrom hi hf
      refine ih.trans fun t1 e1 e2 e3 e4 e5 _ => ?_
      exact inert_step (fun _ _ h => ⟨h.2.1, h.2.2.all, h.1⟩) (h2.known hi' hf') hi' hf'.all h1
        (ih.1.trans ho) e1 (e2.trans hm) (e5.trans hz) (by omega)
  obtain ⟨a0, t', a1, a2, a3, a4, a5, a6, a7, a8, _⟩ := this
  exact ⟨a0.trans ho, t', a1, a2.trans hm, a3, a4, a5, a6, a7, a8.trans hz⟩

end

/-! ## A pair whose mint has a freeze authority -/

namespace Example.Hist.Frz

open TokenWrap.Example.Hist
open TokenWrap.Example (get get_eq)

/-- The unwrapped mint of the example, with a freeze authority. -/
def fMint : Mint := { TokenWrap.Example.uMint [] with freezeAuthority := some issuer }

def F0 : Ledger := L0.setData u (.mint fMint)

theorem F0_ne {k : Pubkey} (h : k ≠ u) : F0 k = L0 k := Ledger.setData_ne _ _ h

theorem F0_token {k : Pubkey} {t : TokenAcct} (h : (F0 k).data = .token t) : (L0 k).data = .token t := by
  by_cases hk : k = u
  · subst hk; rw [F0, setData_data] at h; cases h
  · rwa [F0_ne hk] at h

theorem F0_funds : Funds F0 where
  all := L0_funds.all.setData (.of_mint (m := fMint) rfl (by decide +kernel))
  native := by
    intro nm hnm
    obtain ⟨p, dec, h1, h2, h3, h4, h5⟩ := L0_funds.native nm hnm
    have hne : nm ≠ u := by rintro rfl; revert hnm; decide +kernel
    exact ⟨p, dec, h1, h2, h3, (by rw [F0_ne hne]; exact h4), (by rw [F0_ne hne]; exact h5)⟩

theorem F0_fresh : Fresh s F0 where
  W := by unfold Blank; decide +kernel
  A := by unfold Blank; decide +kernel
  B := by unfold Blank; decide +kernel
  Es := by unfold Blank; decide +kernel
  Et := by unfold Blank; decide +kernel
  noHolder := by
    intro k t ho hd
    have hd' := F0_token hd
    rcases L0_token hd' with rfl | rfl <;> exact absurd ho (by decide +kernel)
  funds := F0_funds

theorem F0_lamports (k : Pubkey) : (F0 k).lamports ≤ u64Max := by
  have h : (F0 k).lamports = (L0 k).lamports := by
    by_cases hk : k = u
    · subst hk; decide +kernel
    · rw [F0_ne hk]
  rw [h]; exact L0_lamports k

def F1 := get (ataCreate env A u splTokenId F0)
def F2 := get (processInstruction env mintAccs (TokenWrapInstruction.createMint false).pack F1)
def F3 := get (sysAllocate (fun k => k = rcp) rcp 165 F2)
def F4 := get (sysAssign (fun k => k = rcp) rcp token2022Id F3)
def F5 := get (tokenExec env token2022Id initIx (fun _ => false) F4)
def F6 := get (processInstruction env ptrAccs (TokenWrapInstruction.setCanonicalPointer W).pack F5)
def F7 := get (processInstruction env wrapAccs (TokenWrapInstruction.wrap 1000).pack F6)
/-- the freeze authority of the unwrapped mint, which the wrapped mint has taken over, freezes the
user's wrapped tokens -/
def freezeIx : TokenIx := .freezeAccount rcp W issuer [] true
def F8 := get (tokenExec env token2022Id freezeIx (fun k => k = issuer) F7)
/-- the user tries a step with the frozen account: setting a delegate on the source account works -/
def appIx : TokenIx := .approve src issuer user [] 5
def F9 := get (tokenExec env splTokenId appIx (fun k => k = user) F8)

variable {ok' : Act → Ledger → Prop}

theorem st1 : Step cr ok' (.createAta env A u splTokenId) F0 F1 :=
  .base (.createAta rfl ⟨by decide, F0_lamports⟩ (get_eq (by decide +kernel)) rent_pos)
theorem st2 : Step cr ok' (.tokenWrap env mintAccs (TokenWrapInstruction.createMint false).pack) F1 F2 :=
  .tokenWrap rfl rfl (signs_of (by decide +kernel)) (get_eq (by decide +kernel)) rent_pos
theorem st3 : Step cr ok' (.allocate rcp 165) F2 F3 :=
  .base (.allocate (.keypair (by decide +kernel)) (get_eq (by decide +kernel)))
theorem st4 : Step cr ok' (.assign rcp token2022Id) F3 F4 :=
  .base (.assign (.keypair (by decide +kernel)) ⟨List.replicate 165 0, by decide +kernel,
    by decide +kernel⟩ (get_eq (by decide +kernel)))
theorem st5 : Step cr ok' (.token env token2022Id initIx (fun _ => false)) F4 F5 :=
  .base (.token (by decide) (by simp) (get_eq (by decide +kernel)) rent_pos)
theorem st6 : Step cr ok' (.tokenWrap env ptrAccs (TokenWrapInstruction.setCanonicalPointer W).pack)
    F5 F6 :=
  .tokenWrap rfl rfl (signs_of (by decide +kernel)) (get_eq (by decide +kernel)) rent_pos
theorem st7 : Step cr ok' (.tokenWrap env wrapAccs (TokenWrapInstruction.wrap 1000).pack) F6 F7 :=
  .tokenWrap rfl rfl (signs_of (by decide +kernel)) (get_eq (by decide +kernel)) rent_pos
theorem st8 : Step cr ok' (.token env token2022Id freezeIx (fun k => k = issuer)) F7 F8 :=
  .base (.token (by decide) (by intro k h; rw [of_decide_eq_true h]; exact .keypair (by decide +kernel))
    (get_eq (by decide +kernel)) rent_pos)
theorem st9 : Step cr ok' (.token env splTokenId appIx (fun k => k = user)) F8 F9 :=
  .base (.token (by decide) (by intro k h; rw [of_decide_eq_true h]; exact .keypair (by decide +kernel))
    (get_eq (by decide +kernel)) rent_pos)

theorem hist7 : ∃ trace, History cr (fun _ _ => True) F0 trace F7 :=
  ⟨_, .step (.step (.step (.step (.step (.step (.step .start trivial st1) trivial st2) trivial st3)
    trivial st4) trivial st5) trivial st6) trivial st7⟩

theorem hist8 : ∃ trace, History cr (fun _ _ => True) F0 trace F8 := by
  obtain ⟨_, h⟩ := hist7
  exact ⟨_, .step h trivial st8⟩

def rcpAcct : TokenAcct := TokenWrap.Example.acct W user 1000 []

theorem F7_rcp : (F7 rcp).owner = s.wp ∧ (F7 rcp).data = .token rcpAcct := by decide +kernel
theorem F8_rcp : (F8 rcp).owner = s.wp ∧ (F8 rcp).data = .token { rcpAcct with frozen := true } := by
  decide +kernel

/-- The wrapped mint after the wrap: the freeze authority is the unwrapped mint's. -/
def wm : Mint := match (F8 W).data with | .mint m => m | _ => fMint

theorem F8_W : (F8 W).data = .mint wm ∧ wm.freezeAuthority = some issuer := by decide +kernel

theorem not_multisig {L : Ledger} {a : Pubkey} {S : Pubkey → Prop} (h : ¬ S a)
    (hb : (L a).data = .bytes []) : ¬ ApprovesBy L S a := by
  rintro (h1 | ⟨ms, mem, h1, _⟩)
  · exact h h1
  · rw [hb] at h1; cases h1

-- C82: freezing is not approved by the owner of the account, and takes nothing away
example : ∃ t', TokensKept F7 F8 rcp rcpAcct t' := by
  obtain ⟨_, h⟩ := hist7
  refine wrapped_tokens_stay F0_fresh h F7_rcp.1 F7_rcp.2 rfl (by decide +kernel) (by decide +kernel)
    (.step .start ?_ st8)
  intro x a hx ha
  cases Data.token.inj (F7_rcp.2.symm.trans hx)
  have : a = user := by
    rcases ha with h | h | h
    · exact h.symm
    · cases h
    · cases h
  subst this
  exact not_multisig (by show ¬ decide (user = issuer) = true; decide +kernel) (by decide +kernel)
-- … nor does it touch his other account
example : ∃ t', TokensKept F7 F8 src (TokenWrap.Example.acct u user 4000 []) t' := by
  refine tokens_stay (cr := cr) (trace := [_]) (F0_funds |> fun h => hist7.elim fun _ g => g.funds h)
    (by decide +kernel) (by decide +kernel) (by decide +kernel) (by decide +kernel) (.step .start ?_ st8)
  intro x a hx _ ha
  have h2 : (F7 src).data = .token (TokenWrap.Example.acct u user 4000 []) := by decide +kernel
  cases Data.token.inj (h2.symm.trans hx)
  have : a = user := by
    rcases ha with h | h | h | ⟨m, h, h'⟩
    · exact h.symm
    · cases h
    · cases h
    · have h3 : (F7 u).data = .mint fMint := by decide +kernel
      cases Data.mint.inj (h3.symm.trans h)
      cases h'
  subst this
  exact not_multisig (by show ¬ decide (user = issuer) = true; decide +kernel) (by decide +kernel)
-- C83: step 8 froze the account, approved by the freeze authority
example : ¬ FreezerIdle ((Act.token env token2022Id freezeIx (fun k => k = issuer)).Signer cr) F7 s.W := by
  intro h
  have h1 : (F7 W).data = .mint wm := by decide +kernel
  exact h wm issuer h1 F8_W.2 (.inl (by show decide (issuer = issuer) = true; decide))
theorem idle9 : FreezerIdle ((Act.token env splTokenId appIx (fun k => k = user)).Signer cr) F8 s.W := by
  intro m f hm hf
  cases Data.mint.inj (F8_W.1.symm.trans hm)
  rw [F8_W.2] at hf; cases hf
  exact not_multisig (by show ¬ decide (issuer = user) = true; decide +kernel) (by decide +kernel)
example : ∃ m', (F9 s.W).data = .mint m' ∧ m'.freezeAuthority = wm.freezeAuthority := by
  obtain ⟨_, h⟩ := hist8
  exact freeze_authority_stays F0_fresh h F8_W.1 (.step .start idle9 st9)
-- C83: without freeze authority (the history of Props/HistoryExample.lean), nothing is ever frozen
example : ∃ m, (L7 s.W).data = .mint m ∧ m.freezeAuthority = none :=
  ⟨match (L7 W).data with | .mint m => m | _ => fMint, by decide +kernel⟩
-- C84: the user signs, but his frozen tokens stay frozen
example : (F9 rcp).owner = s.wp ∧ ∃ t', (F9 rcp).data = .token t' ∧ t'.mint = s.W ∧ t'.owner = user ∧
    t'.delegate = none ∧ t'.closeAuthority = none ∧ t'.amount = 1000 ∧ t'.confidential = 0 ∧
    t'.frozen = true := by
  obtain ⟨_, h⟩ := hist8
  exact frozen_tokens_inert F0_fresh h F8_rcp.1 F8_rcp.2 rfl rfl (by decide) (.step .start idle9 st9)
-- and he cannot unwrap them
example : TokenWrap.Example.ok (processInstruction env unwrapAccs (TokenWrapInstruction.unwrap 300).pack F8)
    = false := by decide +kernel
example : TokenWrap.Example.ok (processInstruction env unwrapAccs (TokenWrapInstruction.unwrap 300).pack F7)
    = true := by decide +kernel

end Example.Hist.Frz

end TokenWrap
