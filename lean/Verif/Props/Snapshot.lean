import Verif.Props.Custody
import Verif.Props.NeverBlocked
/-!
# C104: the wrapped mint is a snapshot of the unwrapped mint

Every wrapped mint of every history was created by one CreateMint, from the unwrapped mint as it was at
that moment: decimals and freeze authority were copied then, and nothing links the two afterwards.
-/

namespace TokenWrap

section
variable {cr : Crypto} {s : Setting cr} {ok : Act → Ledger → Prop} {L0 L : Ledger} {trace : List Act}
  {w : Mint}

/-- The birth of the wrapped mint in a history `trace` from `L0` to `L`: the CreateMint step `act` from
`L1` to `L2`, what happened before it and after it, the unwrapped mint `m` just before and the new
wrapped mint `w2`. -/
structure Birth (s : Setting cr) (ok : Act → Ledger → Prop) (L0 L : Ledger) (trace : List Act)
    (m w2 : Mint) : Prop where
  intro ::
  birth : ∃ (before after : List Act) (act : Act) (L1 L2 : Ledger),
    trace = after ++ act :: before ∧
    History cr ok L0 before L1 ∧ ok act L1 ∧ Step cr ok act L1 L2 ∧ History cr ok L2 after L ∧
    (∃ env accounts idem, act = .tokenWrap env accounts (TokenWrapInstruction.createMint idem).pack) ∧
    (∀ x, (L1 s.W).data ≠ .mint x) ∧ (L1 s.u).data = .mint m ∧ (L2 s.W).data = .mint w2
  supply : w2.supply = 0
  decimals : w2.decimals = m.decimals
  freezeAuthority : w2.freezeAuthority = m.freezeAuthority

/-- **C104** In every history, an existing wrapped mint was created by exactly such a step: a CreateMint
in a state in which there was no wrapped mint and the unwrapped mint was `m`; the new mint had no
supply, and the decimals and freeze authority of `m`. -/
theorem wrapped_mint_birth (h0 : Fresh s L0) (h : History cr ok L0 trace L)
    (hw : (L s.W).data = .mint w) :
    ∃ m w2, Birth s ok L0 L trace m w2 := by
  revert w
  induction h with
  | start => intro w hw; rw [h0.W.2] at hw; cases hw
  | step hprev h1 h2 ih =>
    intro w hw
    rename_i trace act L1 L2
    have hi := hprev.inv' h0
    rcases hi.w with ⟨hb, _⟩ | hwo
    · have hold : Held L1 s.W := .inl hb
      have hk := hold.step s.W_noSign (Q := fun _ => True) (fun _ _ => trivial) (fun _ _ _ => trivial)
        (fun L _ wallet mint prog ha _ => by
          have := s.rW.unique (j := .ata wallet mint prog) ha; cases this) trivial h2
      cases hk with
      | kept hk => rw [hk.2, hb.2] at hw; cases hw
      | mint u' p' ha m0 w0 um wd hd hf hsup _ hact =>
        have := s.rW.unique (j := .wrappedMint u' p') ha
        injection this with hu' _
        subst hu'
        refine ⟨m0, w0, ⟨trace, [], act, L1, L2, rfl, hprev, h1, h2, .start, hact, ?_, um, wd⟩, hsup, hd, hf⟩
        intro x hx
        rw [hb.2] at hx; cases hx
      | backpointer w' ha => have := s.rW.unique (j := .backpointer w') ha; cases this
      | metaplex w' ha => have := s.rW.unique (j := .metaplex w') ha; cases this
      | pointer env accounts p' a m' hcr _ _ _ e hk =>
        have := e.pointer
        rw [hcr, hk] at this
        have := s.rW.unique (j := .canonicalPointer _) this
        cases this
    · obtain ⟨m0, hm0, _⟩ := hwo.mint
      obtain ⟨m, w2, b⟩ := ih hm0
      obtain ⟨before, after, a, K1, K2, e, g1, g2, g3, g4, g5⟩ := b.birth
      exact ⟨m, w2, ⟨before, act :: after, a, K1, K2, by rw [e]; rfl, g1, g2, g3,
        .step g4 h1 h2, g5⟩, b.supply, b.decimals, b.freezeAuthority⟩

/-- **C104** The decimals of an existing wrapped mint are for ever those of the unwrapped mint at the
birth of the wrapped mint, whatever became of the unwrapped mint since. -/
theorem decimals_snapshot (h0 : Fresh s L0) (h : History cr ok L0 trace L)
    (hw : (L s.W).data = .mint w) :
    ∃ m w2, Birth s ok L0 L trace m w2 ∧ w.decimals = m.decimals := by
  obtain ⟨m, w2, b⟩ := wrapped_mint_birth h0 h hw
  refine ⟨m, w2, b, ?_⟩
  obtain ⟨before, after, a, K1, K2, _, g1, g2, g3, g4, _, _, _, g8⟩ := b.birth
  obtain ⟨_, m', hm', e⟩ := mint_parameters_permanent h0 (.step g1 g2 g3) g8 g4
  cases Data.mint.inj (hw.symm.trans hm')
  exact e.decimals.trans b.decimals

/-- **C104** If the freeze authority of the wrapped mint never approves anything, it remains the freeze
authority that the unwrapped mint had at the birth of the wrapped mint. -/
theorem freeze_snapshot (h0 : Fresh s L0)
    (h : History cr (fun act L => FreezerIdle (act.Signer cr) L s.W) L0 trace L)
    (hw : (L s.W).data = .mint w) :
    ∃ m w2, Birth s (fun act L => FreezerIdle (act.Signer cr) L s.W) L0 L trace m w2 ∧
      w.freezeAuthority = m.freezeAuthority := by
  obtain ⟨m, w2, b⟩ := wrapped_mint_birth h0 h hw
  refine ⟨m, w2, b, ?_⟩
  obtain ⟨before, after, a, K1, K2, _, g1, g2, g3, g4, _, _, _, g8⟩ := b.birth
  obtain ⟨m', hm', e⟩ := freeze_authority_stays h0 (.step g1 g2 g3) g8 g4
  cases Data.mint.inj (hw.symm.trans hm')
  exact e.trans b.freezeAuthority

/-- **C104** A wrapped mint born of a mint without freeze authority never has one, whoever signs what,
even if the unwrapped mint is closed and re-created with one. -/
theorem no_freeze_snapshot (h0 : Fresh s L0) (h : History cr ok L0 trace L)
    (hw : (L s.W).data = .mint w) :
    ∃ m w2, Birth s ok L0 L trace m w2 ∧ (m.freezeAuthority = none → w.freezeAuthority = none) := by
  obtain ⟨m, w2, b⟩ := wrapped_mint_birth h0 h hw
  refine ⟨m, w2, b, ?_⟩
  obtain ⟨before, after, a, K1, K2, _, g1, g2, g3, g4, _, _, _, g8⟩ := b.birth
  obtain ⟨_, m', hm', e⟩ := mint_parameters_permanent h0 (.step g1 g2 g3) g8 g4
  cases Data.mint.inj (hw.symm.trans hm')
  exact fun hn => e.noFreeze (b.freezeAuthority.trans hn)

end

/-! ## The two freeze authorities part -/

namespace Example.Hist.Frz

open TokenWrap.Example.Hist
open TokenWrap.Example (get get_eq)

/-- the issuer hands the freeze authority of the unwrapped mint to the user -/
def handIx : TokenIx := .setAuthority u .freezeAccount (some user) issuer []
def G8 := get (tokenExec env splTokenId handIx (fun k => k = issuer) F7)
/-- ... and still freezes the user's wrapped tokens -/
def G9 := get (tokenExec env token2022Id freezeIx (fun k => k = issuer) G8)

variable {ok' : Act → Ledger → Prop}

theorem gt8 : Step cr ok' (.token env splTokenId handIx (fun k => k = issuer)) F7 G8 :=
  .base (.token (by decide) (by intro k h; rw [of_decide_eq_true h]; exact .keypair (by decide +kernel))
    (get_eq (by decide +kernel)) rent_pos)
theorem gt9 : Step cr ok' (.token env token2022Id freezeIx (fun k => k = issuer)) G8 G9 :=
  .base (.token (by decide) (by intro k h; rw [of_decide_eq_true h]; exact .keypair (by decide +kernel))
    (get_eq (by decide +kernel)) rent_pos)

theorem ghist8 : ∃ trace, History cr (fun _ _ => True) F0 trace G8 := by
  obtain ⟨_, h⟩ := hist7
  exact ⟨_, .step h trivial gt8⟩

-- the birth in the history of the example: the decimals and the freeze authority then
example : ∃ m w2 trace, Birth s (fun _ _ => True) F0 G8 trace m w2 ∧ wm.decimals = m.decimals := by
  obtain ⟨_, h⟩ := ghist8
  obtain ⟨m, w2, h'⟩ := decimals_snapshot F0_fresh h (w := wm) (by decide +kernel)
  exact ⟨m, w2, _, h'⟩

/-- no wrapped mint yet: nobody is its freeze authority -/
theorem idle_unborn {S : Pubkey → Prop} {L : Ledger} (h : (L s.W).data = .bytes []) :
    FreezerIdle S L s.W := by
  intro m f hm _
  rw [h] at hm; cases hm
theorem idle_issuer {S : Pubkey → Prop} {L : Ledger} {m : Mint} (h : (L s.W).data = .mint m)
    (hf : m.freezeAuthority = some issuer) (hi : (L issuer).data = .bytes []) (hs : ¬ S issuer) :
    FreezerIdle S L s.W := by
  intro m' f hm hf'
  cases Data.mint.inj (h.symm.trans hm)
  rw [hf] at hf'; cases hf'
  exact not_multisig hs hi

/-- The wrapped mint at its birth. -/
def bornMint : Mint := match (F2 W).data with | .mint m => m | _ => fMint

/-- The first five steps of the example: nobody signs for the freeze authority. -/
theorem hist5idle : ∃ trace,
    History cr (fun act L => FreezerIdle (act.Signer cr) L s.W) F0 trace F5 := by
  have g2 := History.step (.step (.start (cr := cr)
    (ok := fun act L => FreezerIdle (act.Signer cr) L s.W) (L0 := F0))
    (idle_unborn (by decide +kernel)) st1) (idle_unborn (by decide +kernel)) st2
  have g3 := History.step (act := .allocate rcp 165) g2 (idle_issuer (m := bornMint) (by decide +kernel) (by decide +kernel)
    (by decide +kernel) (show ¬ False from id)) st3
  have g4 := History.step (act := .assign rcp token2022Id) g3 (idle_issuer (m := bornMint) (by decide +kernel) (by decide +kernel)
    (by decide +kernel) (show ¬ False from id)) st4
  exact ⟨_, .step (act := .token env token2022Id initIx (fun _ => false)) g4 (idle_issuer (m := bornMint) (by decide +kernel) (by decide +kernel)
    (by decide +kernel) (show ¬ (false = true) by decide)) st5⟩

-- the freeze authority is the unwrapped mint's
example : ∃ m w2 trace, Birth s (fun act L => FreezerIdle (act.Signer cr) L s.W) F0 F5 trace m w2 ∧
    bornMint.freezeAuthority = m.freezeAuthority := by
  obtain ⟨_, h⟩ := hist5idle
  obtain ⟨m, w2, h'⟩ := freeze_snapshot F0_fresh h (w := bornMint) (by decide +kernel)
  exact ⟨m, w2, _, h'⟩
example : bornMint.freezeAuthority = some issuer := by decide +kernel
-- C83: nobody's wrapped tokens are frozen in it
example : (TokenWrap.Example.acct W user 0 []).frozen = false := by
  obtain ⟨_, h⟩ := hist5idle
  exact never_frozen F0_fresh h (k := rcp) (by decide +kernel) (by decide +kernel) (by decide +kernel)
-- C83: what is frozen after step 9, in which the freeze authority does not sign, was frozen before
example : (F8 rcp).owner = s.wp ∧ ∃ t1, (F8 rcp).data = .token t1 ∧ t1.mint = s.W ∧ t1.frozen = true := by
  obtain ⟨_, h⟩ := hist8
  exact frozen_only_by_freezer F0_fresh h (k := rcp) (t := { rcpAcct with frozen := true })
    (.step .start idle9 st9) (by decide +kernel) (by decide +kernel) rfl rfl

end Example.Hist.Frz

/-- **C104** The two freeze authorities can part: there is a pair and a history after which both mints
have a freeze authority, but different ones.  The former authority of the unwrapped mint still freezes
wrapped tokens, the new one cannot; and CreateMint does not repair it. -/
theorem freeze_authorities_can_diverge :
    ∃ (cr : Crypto) (s : Setting cr) (L0 L : Ledger) (trace : List Act) (u w : Mint)
      (holder old new : Pubkey) (t : TokenAcct) (env : Env) (L' : Ledger),
      Fresh s L0 ∧ History cr (fun _ _ => True) L0 trace L ∧ env.cr = cr ∧
      (L s.u).data = .mint u ∧ (L s.W).data = .mint w ∧
      u.freezeAuthority = some new ∧ w.freezeAuthority = some old ∧ old ≠ new ∧
      (L holder).owner = s.wp ∧ (L holder).data = .token t ∧ t.mint = s.W ∧ 0 < t.amount ∧
      tokenExec env s.wp (.freezeAccount holder s.W old [] true) (fun k => k = old) L = .ok L' ∧
      (L' holder).data = .token { t with frozen := true } ∧
      (∃ e, tokenExec env s.wp (.freezeAccount holder s.W new [] true) (fun k => k = new) L = .error e) ∧
      ∀ env : Env, env.cr = cr → env.programId = crateId →
        processInstruction env (Build.createMint crateId s.W s.B s.u s.wp true).accounts
          (Build.createMint crateId s.W s.B s.u s.wp true).data L = .ok L := by
  obtain ⟨tr, h⟩ := Example.Hist.Frz.ghist8
  have hw : (Example.Hist.Frz.G8 Example.Hist.s.W).data = .mint Example.Hist.Frz.wm := by decide +kernel
  refine ⟨Example.Hist.cr, Example.Hist.s, Example.Hist.Frz.F0, Example.Hist.Frz.G8, tr,
    { Example.Hist.Frz.fMint with freezeAuthority := some Example.Hist.user }, Example.Hist.Frz.wm,
    Example.Hist.rcp, Example.Hist.issuer, Example.Hist.user, Example.Hist.Frz.rcpAcct,
    Example.Hist.env, Example.Hist.Frz.G9, Example.Hist.Frz.F0_fresh, h, rfl, by decide +kernel, hw,
    by decide +kernel, by decide +kernel, by decide +kernel, by decide +kernel, by decide +kernel,
    by decide +kernel, by decide +kernel, ?_, by decide +kernel, ?_, ?_⟩
  · exact Example.get_eq (by decide +kernel)
  · cases hr : tokenExec Example.Hist.env Example.Hist.s.wp
      (.freezeAccount Example.Hist.rcp Example.Hist.s.W Example.Hist.user [] true)
      (fun k => k = Example.Hist.user) Example.Hist.Frz.G8 with
    | error e => exact ⟨e, rfl⟩
    | ok L' =>
      have : Example.ok (tokenExec Example.Hist.env Example.Hist.s.wp
        (.freezeAccount Example.Hist.rcp Example.Hist.s.W Example.Hist.user [] true)
        (fun k => k = Example.Hist.user) Example.Hist.Frz.G8) = false := by decide +kernel
      rw [hr] at this; cases this
  · intro env' hcr hid
    exact creation_idempotent_always Example.Hist.Frz.F0_fresh h hcr hid hw (by decide +kernel)

end TokenWrap
