import Verif.JsExample
import Verif.Props.Offline
import Verif.Props.Clients
/-!
# The published walk-throughs work (C87)
-/

namespace TokenWrap

open TokenWrapInstruction

/-! ## Where a script may start -/

/-- The wrapped mint and its backpointer: both still unused, or created before. -/
def PairReady (L : Ledger) (W B A wprog : Pubkey) : Prop :=
  ((L W).owner = systemId ∧ (L W).data = .bytes [] ∧
    (L B).owner = systemId ∧ (L B).data = .bytes []) ∨
  (∃ w, (L W).owner = wprog ∧ (L W).data = .mint w ∧ w.mintAuthority = some A ∧
    w.defaultFrozen = false ∧ w.requiredAccountExts = [] ∧ (wprog = splTokenId → w.exts = []) ∧
    (L B).owner = crateId)

/-- The escrow: nothing there yet, or a usable one. -/
def EscrowReady (L : Ledger) (E A u uprog : Pubkey) : Prop :=
  ((L E).owner = systemId ∧ (L E).data = .bytes [] ∧ (L E).lamports = 0) ∨
  (∃ d, (L E).lamports ≠ 0 ∧ (L E).owner = uprog ∧ (L E).data = .token d ∧ d.mint = u ∧ d.owner = A ∧
    d.frozen = false ∧ d.delegate = none ∧ d.isNative = none)

/-- What a walk-through needs to find on the chain: a mint that charges no fee for the amount and does
not create accounts frozen, an ordinary source account with that amount, a payer who can pay the rent
still missing, and nothing in the way.  `size` is the size of the account for the wrapped tokens. -/
structure ScriptStart (env : Env) (L : Ledger) (payer u src wprog uprog key W B A E : Pubkey)
    (amount : UInt64) (m : Mint) (s : TokenAcct) (size : Nat := 165) : Prop where
  uprogOk : uprog = splTokenId ∨ uprog = token2022Id
  wprogOk : wprog = splTokenId ∨ wprog = token2022Id
  addrW : wrappedMintAddress env.cr u wprog = some W
  addrB : backpointerAddress env.cr W = some B
  addrA : authorityAddress env.cr W = some A
  addrE : associatedTokenAddress env.cr A u uprog = some E
  /-- no two of the addresses coincide -/
  nodup : [payer, u, src, key, W, B, A, E].Nodup
  notNative : u ∉ nativeMints ∧ W ∉ nativeMints
  positive : amount ≠ 0
  -- the unwrapped mint
  mintOwner : (L u).owner = uprog
  mintData : (L u).data = .mint m
  mintExists : (L u).lamports ≠ 0
  splExts : uprog = splTokenId → m.exts = []
  thawedByDefault : m.defaultFrozen = false
  noFee : feeOf uprog env.epoch m amount.toNat = .ok 0
  -- the source account
  srcOwner : (L src).owner = uprog
  srcData : (L src).data = .token s
  srcExists : (L src).lamports ≠ 0
  srcMint : s.mint = u
  srcThawed : s.frozen = false
  srcPlain : s.isNative = none
  srcU64 : s.amount ≤ u64Max
  enough : amount.toNat ≤ s.amount
  -- the rest
  pair : PairReady L W B A wprog
  escrow : EscrowReady L E A u uprog
  authority : (L A).data = .bytes []
  fresh : L key = Account.empty
  payerAcct : (L payer).owner = systemId ∧ (L payer).data = .bytes []
  rentPositive : 0 < env.rentMin size
  payerFunds : (env.rentMin (specMintSize wprog) - (L W).lamports) +
    (env.rentMin 32 - (L B).lamports) + (env.rentMin (ataLen uprog u L) - (L E).lamports) +
    env.rentMin size ≤ (L payer).lamports
  supplyRoom : supplyOf L W + amount.toNat ≤ u64Max
  escrowRoom : balanceOf L E + amount.toNat ≤ u64Max

/-! ## The steps -/

section
variable {env : Env}

/-- Funding two accounts and then the rest. -/
theorem runClient_fund_two {payer W B : Pubkey} {rW rB : Nat} {rest : List ClientIx} {L : Ledger}
    (hp : (L payer).owner = systemId) (hd : (L payer).data = .bytes [])
    (pW : payer ≠ W) (pB : payer ≠ B) (hne : W ≠ B)
    (hl : (rW - (L W).lamports) + (rB - (L B).lamports) ≤ (L payer).lamports) :
    ∃ L2, runClient env (cliFund payer W rW (L W).lamports ++ cliFund payer B rB (L B).lamports ++
        rest) L = runClient env rest L2 ∧
      L2 payer = ⟨(L payer).lamports - (rW - (L W).lamports) - (rB - (L B).lamports), systemId,
        .bytes []⟩ ∧
      L2 W = ⟨max rW (L W).lamports, (L W).owner, (L W).data⟩ ∧
      L2 B = ⟨max rB (L B).lamports, (L B).owner, (L B).data⟩ ∧
      ∀ k, k ≠ payer → k ≠ W → k ≠ B → L2 k = L k := by
  rw [List.append_assoc, runClient_fund hp hd pW (by omega)]
  generalize hL1 : (L.setLamports payer ((L payer).lamports - (rW - (L W).lamports))).setLamports W
      (max rW (L W).lamports) = L1
  have hP1 : L1 payer = ⟨(L payer).lamports - (rW - (L W).lamports), systemId, .bytes []⟩ := by
    rw [← hL1, Ledger.setLamports_ne _ _ pW, Ledger.setLamports_same]; dsimp only; rw [hp, hd]
  have hW1 : L1 W = ⟨max rW (L W).lamports, (L W).owner, (L W).data⟩ := by
    rw [← hL1, Ledger.setLamports_same, Ledger.setLamports_ne _ _ pW.symm]
  have ho1 : ∀ k, k ≠ payer → k ≠ W → L1 k = L k := by
    intro k h1 h2
    rw [← hL1, Ledger.setLamports_ne _ _ h2, Ledger.setLamports_ne _ _ h1]
  have hB1 : L1 B = L B := ho1 B pB.symm hne.symm
  have := runClient_fund (env := env) (payer := payer) (dst := B) (rent := rB)
    (rest := rest) (L := L1) (by rw [hP1]) (by rw [hP1]) pB (by rw [hP1, hB1]; dsimp only; omega)
  rw [hB1] at this
  refine ⟨_, this, ?_, ?_, ?_, ?_⟩
  · rw [Ledger.setLamports_ne _ _ pB, Ledger.setLamports_same, hP1]
  · rw [Ledger.setLamports_ne _ _ hne, Ledger.setLamports_ne _ _ pW.symm, hW1]
  · rw [Ledger.setLamports_same, Ledger.setLamports_ne _ _ pB.symm, hB1]
  · intro k h1 h2 h3
    rw [Ledger.setLamports_ne _ _ h3, Ledger.setLamports_ne _ _ h1, ho1 k h1 h2]

/-- What the wrapped mint looks like after the first step. -/
structure MintStep (L L1 : Ledger) (payer W B A wprog : Pubkey) (left : Nat) (w : Mint) : Prop where
  wOwner : (L1 W).owner = wprog
  wData : (L1 W).data = .mint w
  wAuth : w.mintAuthority = some A
  wThawed : w.defaultFrozen = false
  wNoRoom : w.requiredAccountExts = []
  wExts : wprog = splTokenId → w.exts = []
  supply : w.supply = supplyOf L W
  payerLeft : L1 payer = ⟨left, systemId, .bytes []⟩
  frame : ∀ k, k ≠ payer → k ≠ W → k ≠ B → L1 k = L k

theorem js_mint_step {L : Ledger} {payer u wprog W B A : Pubkey} {um : Mint}
    (hid : env.programId = crateId) (hrej : ∀ p ix s L, env.reject p ix s L = none)
    (hp : wprog = splTokenId ∨ wprog = token2022Id)
    (hW : wrappedMintAddress env.cr u wprog = some W) (hB : backpointerAddress env.cr W = some B)
    (hA : authorityAddress env.cr W = some A)
    (uo : (L u).owner = splTokenId ∨ (L u).owner = token2022Id) (ud : (L u).data = .mint um)
    (hpair : PairReady L W B A wprog)
    (po : (L payer).owner = systemId ∧ (L payer).data = .bytes [])
    (hne : W ≠ B) (pW : payer ≠ W) (pB : payer ≠ B) (pu : payer ≠ u) (uW : u ≠ W) (uB : u ≠ B)
    (hl : (env.rentMin (specMintSize wprog) - (L W).lamports) + (env.rentMin 32 - (L B).lamports) ≤
      (L payer).lamports) :
    ∃ ixs L1 w, jsCreateMint env payer u wprog true L = .ok ixs ∧ runClient env ixs L = .ok L1 ∧
      MintStep L L1 payer W B A wprog ((L payer).lamports -
        (env.rentMin (specMintSize wprog) - (L W).lamports) - (env.rentMin 32 - (L B).lamports)) w := by
  rw [js_createMint_eq_cli, cliCreateMint_ok hW hB]
  obtain ⟨L2, hrun, hP2, hW2, hB2, hfr⟩ := runClient_fund_two (env := env)
    (rest := [.call (Build.createMint crateId W B u wprog true)]) po.1 po.2 pW pB hne hl
  have hu2 : L2 u = L u := hfr u pu.symm uW uB
  rcases hpair with ⟨w1, w2, b1, b2⟩ | ⟨w, w1, w2, w3, w4, w4', w5, b1⟩
  · obtain ⟨L1, h1⟩ := createMint_succeeds .default (env := env) (L := L2) (idem := true)
      (wmint := .rw W false) (bp := .rw B false) (umint := .ro u false) (sys := .ro systemId false)
      (wprog := .ro wprog false) (rest := []) (um := um) (A := A) hid (fun ix s L => hrej _ ix s L)
      hW hB hA hne hp rfl rfl rfl
      (by rw [show (Meta.ro u false).key = u from rfl, hu2]; exact uo)
      (by rw [show (Meta.ro u false).key = u from rfl, hu2]; exact ud)
      (hW2.trans (by rw [w1, w2])) (hB2.trans (by rw [b1, b2]))
      (by
        refine Nat.le_trans (Nat.le_of_eq ?_) (Nat.le_max_left _ _)
        congr 1) (Nat.le_max_left _ _)
    have h2 : processInstruction env ([.rw W false, .rw B false, .ro u false, .ro systemId false,
        .ro wprog false] ++ []) (createMint true).pack L2 = .ok L1 :=
      (processInstruction_pack env _ (createMint true) L2).trans h1
    obtain ⟨um', A', _, hA', _, e1, e2, e3⟩ := createMint_creates h2
      (by show (L2 W).data.len = 0; rw [hW2, w2]; rfl) (by show (L2 B).data.len = 0; rw [hB2, b2]; rfl)
    have : A' = A := Option.some.inj (hA'.symm.trans hA)
    subst this
    have e1 : L1 W = _ := e1
    refine ⟨_, L1, _, rfl, hrun.trans (runClient_call.2 h2), ⟨by rw [e1]; rfl, by rw [e1], rfl, ?_, ?_, ?_, ?_, ?_, ?_⟩⟩
    · simp only [Mint.defaultFrozen]
      split <;> rfl
    · simp only [Mint.requiredAccountExts]
      split <;> rfl
    · intro h
      show (if wprog = token2022Id then _ else []) = _
      rw [if_neg]; rw [h]; decide
    · simp [supplyOf, w2]
    · rw [e3 payer (by simp [Meta.rw, pW, pB]), hP2]
    · intro k h1 h2 h3
      rw [e3 k (by simp [Meta.rw, h2, h3]), hfr k h1 h2 h3]
  · obtain ⟨mb, hm⟩ := wrappedMintAddress_some.1 hW
    obtain ⟨bb, hb⟩ := backpointerAddress_some.1 hB
    have h2 : processInstruction env ([.rw W false, .rw B false, .ro u false, .ro systemId false,
        .ro wprog false] ++ []) (createMint true).pack L2 = .ok L2 := by
      rw [processInstruction_pack]
      simp only [dispatch, processCreateMint, parseCreateMint, List.cons_append, List.nil_append, ok_bind,
        Meta.rw, Meta.ro, hm, hb, okOr_some, decide_true, require_true]
      have ho' : (decide ((L2 u).owner = splTokenId) || decide ((L2 u).owner = token2022Id)) = true := by
        rw [hu2]; simpa using uo
      rw [ho', if_pos (.inl (by rw [hW2, w2]; exact mint_len_pos w))]
      simp [hW2, hB2, w1, b1, hid, pure, Except.pure]
    refine ⟨_, L2, w, rfl, hrun.trans (runClient_call.2 h2), ⟨by rw [hW2]; exact w1, by rw [hW2]; exact w2, w3, w4, w4', w5, ?_, hP2, hfr⟩⟩
    simp [supplyOf, w2]

/-- The escrow after the second step. -/
structure EscrowStep (L L2 : Ledger) (payer E A u uprog : Pubkey) (cost : Nat) (d : TokenAcct) :
    Prop where
  owner : (L2 E).owner = uprog
  data : (L2 E).data = .token d
  mint : d.mint = u
  tokenOwner : d.owner = A
  thawed : d.frozen = false
  delegate : d.delegate = none
  plain : d.isNative = none
  amount : d.amount = balanceOf L E
  payerOwner : (L2 payer).owner = systemId
  payerData : (L2 payer).data = .bytes []
  payerLeft : (L payer).lamports ≤ (L2 payer).lamports + cost
  frame : ∀ k, k ≠ payer → k ≠ E → L2 k = L k

theorem js_escrow_step {L : Ledger} {payer u wprog uprog W A E : Pubkey} {m : Mint}
    (hp : uprog = splTokenId ∨ uprog = token2022Id)
    (hW : wrappedMintAddress env.cr u wprog = some W) (hA : authorityAddress env.cr W = some A)
    (hE : associatedTokenAddress env.cr A u uprog = some E)
    (hul : (L u).lamports ≠ 0) (huo : (L u).owner = uprog) (hud : (L u).data = .mint m)
    (hsp : uprog = splTokenId → m.exts = []) (hdf : m.defaultFrozen = false) (hn : u ∉ nativeMints)
    (hesc : EscrowReady L E A u uprog)
    (po : (L payer).owner = systemId) (pd : (L payer).data = .bytes []) (pE : payer ≠ E)
    (hl : env.rentMin (ataLen uprog u L) - (L E).lamports ≤ (L payer).lamports) :
    ∃ r L2 d, Js.createEscrowAccount env payer u wprog L = .ok r ∧ Js.sendEscrow env r L = .ok L2 ∧
      EscrowStep L L2 payer E A u uprog (env.rentMin (ataLen uprog u L) - (L E).lamports) d := by
  obtain ⟨j1, j2, _⟩ := js_escrow_eq_cli (env := env) (payer := ⟨payer, true⟩) hp hW hA hE hul huo hud
  rcases hesc with ⟨e1, e2, e3⟩ | ⟨d, e1, e2, e3, e4, e5, e6, e7, e8⟩
  · have hr := ataCreatePaid_ok (env := env) hp hE e1 e2 huo hud hsp po pd pE hl
    generalize hd : newTokenAcct (env.rentMin (ataLen uprog u L)) uprog (max (L E).lamports
      (env.rentMin (ataLen uprog u L))) u m A [.immutableOwner] = d at hr
    refine ⟨_, _, d, (j1 e3).1, (show runClient env [.createAta payer A u uprog] L = _ by
        simp only [runClient, runClientIx, hr, ok_bind]; rfl), ?_⟩
    subst hd
    refine ⟨?_, ?_, ?_, ?_, ?_, ?_, ?_, ?_, ?_, ?_, ?_, ?_⟩
    · rw [Ledger.set_same]
    · rw [Ledger.set_same]
    · rfl
    · rfl
    · simp [newTokenAcct, hdf]
    · rfl
    · simp [newTokenAcct, hn]
    · simp [newTokenAcct, hn, balanceOf, e2]
    · rw [Ledger.set_ne _ _ pE, Ledger.setLamports_same]; exact po
    · rw [Ledger.set_ne _ _ pE, Ledger.setLamports_same]; exact pd
    · rw [Ledger.set_ne _ _ pE, Ledger.setLamports_same]; dsimp only; omega
    · intro k h1 h2
      rw [Ledger.set_ne _ _ h2, Ledger.setLamports_ne _ _ h1]
  · refine ⟨_, L, d, (j2 d e1 e3).1, rfl, ⟨e2, e3, e4, e5, e6, e7, e8, ?_, po, pd, by omega,
      fun _ _ _ => rfl⟩⟩
    simp [balanceOf, e3]

/-- The account for the wrapped tokens after the third step. -/
structure HolderStep (L L3 : Ledger) (payer key W wprog owner : Pubkey) (left : Nat) (r : TokenAcct) :
    Prop where
  acct : L3 key = ⟨left, wprog, .token r⟩
  mint : r.mint = W
  tokenOwner : r.owner = owner
  amount : r.amount = 0
  thawed : r.frozen = false
  delegate : r.delegate = none
  plain : r.isNative = none
  payerData : (L3 payer).data = .bytes []
  payerOwner : (L3 payer).owner = systemId
  frame : ∀ k, k ≠ payer → k ≠ key → L3 k = L k

/-- `createTokenAccount` on an unused address: exactly this happens. -/
theorem js_token_account_run {L : Ledger} {payer key W wprog owner : Pubkey} {w : Mint}
    (hrej : ∀ p ix s L, env.reject p ix s L = none)
    (hp : wprog = splTokenId ∨ wprog = token2022Id) (hk : L key = Account.empty)
    (wo : (L W).owner = wprog) (wd : (L W).data = .mint w) (we : wprog = splTokenId → w.exts = [])
    (wq : wprog = token2022Id → w.requiredAccountExts = [])
    (po : (L payer).owner = systemId) (pd : (L payer).data = .bytes [])
    (pk : payer ≠ key) (hl : env.rentMin 165 ≤ (L payer).lamports) :
    ∃ ixs, Js.createTokenAccount env payer key W owner wprog = .ok ixs ∧
      Js.runSetup env ixs L = .ok ((L.setLamports payer ((L payer).lamports - env.rentMin 165)).set key
        ⟨env.rentMin 165, wprog, .token
          (newTokenAcct (env.rentMin 165) wprog (env.rentMin 165) W w owner [])⟩) := by
  have e1 : isTokenProgram wprog = true := by rcases hp with h | h <;> simp [isTokenProgram, h]
  have e2 : ((List.replicate 165 (0 : UInt8)).all fun x => decide (x = 0)) = true := by decide
  have hne : wprog ≠ systemId := by rcases hp with h | h <;> rw [h] <;> decide
  have wk : W ≠ key := by rintro rfl; rw [hk] at wd; cases wd
  have wp : W ≠ payer := by rintro rfl; rw [pd] at wd; cases wd
  unfold Js.createTokenAccount
  simp only [e1, require_true, ok_bind]
  generalize hn' : (165 : Nat) = n at *
  have h165 : roomFor wprog (newAcctExts wprog w []) n = true := by
    subst hn'
    rcases hp with h | h
    · simp [roomFor, h, spl_ne_2022]
    · simp [roomFor, newAcctExts, h, wq h, tokenAccountLen]
  refine ⟨_, rfl, ?_⟩
  · have c1 : Js.sysCreateAccount payer key (env.rentMin n) n wprog L =
        .ok (((L.set key ⟨0, wprog, .bytes (List.replicate n 0)⟩).setLamports payer
          ((L payer).lamports - env.rentMin n)).set key ⟨env.rentMin n, wprog,
            .bytes (List.replicate n 0)⟩) := by
      have a1 : sysAllocate (fun _ => true) key n L =
          .ok (L.setData key (.bytes (List.replicate n 0))) := by
        unfold sysAllocate
        rw [hk]; rfl
      have a2 : sysAssign (fun _ => true) key wprog (L.setData key (.bytes (List.replicate n 0))) =
          .ok (L.set key ⟨0, wprog, .bytes (List.replicate n 0)⟩) := by
        unfold sysAssign
        rw [Ledger.setData_same, hk]
        rw [if_neg (by exact fun h => hne h.symm)]
        show Except.ok _ = _
        congr 1
        funext x
        simp only [Ledger.set_apply, Ledger.setData_apply]
        split <;> rfl
      unfold Js.sysCreateAccount
      rw [a1, ok_bind, a2, ok_bind]
      rw [show (L key).lamports = 0 by rw [hk]; rfl]
      simp only [decide_true, require_true, ok_bind]
      unfold sysTransfer
      rw [Ledger.set_ne _ _ pk]
      simp only [po, pd, decide_true, Bool.and_self, require_true, ok_bind, hl]
      show Except.ok _ = _
      congr 1
      funext x
      simp only [Ledger.setLamports_apply, Ledger.set_apply]
      by_cases hx : x = key
      · subst hx; simp [Ne.symm pk]
      · simp [hx]
    simp only [Js.runSetup, Js.runSetupIx, c1, ok_bind]
    generalize hX : ((L.set key ⟨0, wprog, .bytes (List.replicate n 0)⟩).setLamports payer
          ((L payer).lamports - env.rentMin n)) = X
    have xW : X W = L W := by
      rw [← hX, Ledger.setLamports_ne _ _ wp, Ledger.set_ne _ _ wk]
    have c2 : tokenExec env wprog (.initializeAccount3 key W owner []) (fun _ => false)
        (X.set key ⟨env.rentMin n, wprog, .bytes (List.replicate n 0)⟩) =
        .ok (X.set key ⟨env.rentMin n, wprog, .token
        (newTokenAcct (env.rentMin n) wprog (env.rentMin n) W w owner [])⟩) := by
      unfold tokenExec
      rw [hrej]
      dsimp only
      unfold initializeAccount3Exec
      have e3 : getMint wprog (X.set key ⟨env.rentMin n, wprog, .bytes (List.replicate n 0)⟩) W =
          .ok w := by
        rw [getMint_ok_iff, Ledger.set_ne _ _ wk, xW]; exact ⟨wo, wd, we⟩
      simp only [Ledger.set_same, decide_true, require_true, ok_bind, List.length_replicate, e2,
        e3, h165, Nat.le_refl]
      show Except.ok _ = _
      congr 1
      funext x
      simp only [Ledger.setData_apply, Ledger.set_apply, if_true]
      split <;> rfl
    rw [c2]
    show Except.ok _ = _
    congr 1
    funext x
    rw [← hX]
    simp only [Ledger.setLamports_apply, Ledger.set_apply]
    by_cases hx : x = key
    · simp [hx]
    · by_cases hy : x = payer
      · subst hy; simp [hx]
      · simp [hx, hy]

theorem js_holder_step {L : Ledger} {payer key W wprog owner : Pubkey} {w : Mint}
    (hrej : ∀ p ix s L, env.reject p ix s L = none)
    (hp : wprog = splTokenId ∨ wprog = token2022Id) (hk : L key = Account.empty)
    (wo : (L W).owner = wprog) (wd : (L W).data = .mint w) (we : wprog = splTokenId → w.exts = [])
    (wf : w.defaultFrozen = false) (wq : w.requiredAccountExts = []) (hn : W ∉ nativeMints)
    (po : (L payer).owner = systemId) (pd : (L payer).data = .bytes [])
    (pk : payer ≠ key) (hl : env.rentMin 165 ≤ (L payer).lamports) :
    ∃ ixs L3 r, Js.createTokenAccount env payer key W owner wprog = .ok ixs ∧
      Js.runSetup env ixs L = .ok L3 ∧ HolderStep L L3 payer key W wprog owner (env.rentMin 165) r := by
  obtain ⟨ixs, h1, h2⟩ := js_token_account_run (owner := owner) hrej hp hk wo wd we (fun _ => wq) po pd pk hl
  refine ⟨ixs, _, _, h1, h2,
      ⟨Ledger.set_same .., rfl, rfl, by simp [newTokenAcct, hn], by simp [newTokenAcct, wf], rfl,
        by simp [newTokenAcct, hn], ?_, ?_, ?_⟩⟩
  · rw [Ledger.set_ne _ _ pk, Ledger.setLamports_same]; exact pd
  · rw [Ledger.set_ne _ _ pk, Ledger.setLamports_same]; exact po
  · intro k h1 h2
    rw [Ledger.set_ne _ _ h2, Ledger.setLamports_ne _ _ h1]

/-- What was just wrapped, without a fee and into an account of `o`, can be unwrapped again. -/
theorem wrapped_can_be_unwrapped {L L4 : Ledger} {amount : UInt64}
    {rcp wm au up wp sr um es ta : Meta} {rest : List Meta} {o : Pubkey} {members members' : List Pubkey}
    {s d r : TokenAcct} {m w : Mint}
    (c : CanWrap env L rcp.key wm.key au.key up.key wp.key sr.key um.key es.key ta.key members
      amount.toNat 0 s d r m w)
    (h : processInstruction env ([rcp, wm, au, up, wp, sr, um, es, ta] ++ rest) (wrap amount).pack L =
      .ok L4)
    (hne : sr.key ≠ es.key) (hu64 : s.amount ≤ u64Max)
    (d1 : d.delegate = none) (d2 : d.isNative = none) (r1 : r.delegate = none) (r2 : r.owner = o)
    (ho : o ∉ [sr.key, es.key, rcp.key, wm.key]) (happ : BuiltApproval wp.key L o members') :
    ∃ e d' h' w', CanUnwrap env L4 es.key sr.key au.key um.key wp.key up.key rcp.key wm.key o members'
      amount.toNat 0 e d' h' m w' := by
  obtain ⟨m', w', s0, d0, s', r', L1, e⟩ := wrap_effect h
  obtain ⟨pda, cx⟩ := e.ctx
  obtain ⟨f1, f2, _⟩ := wrap_frame h
  have em := Data.mint.inj (c.mintData.symm.trans cx.uMint)
  subst em
  have ew := Data.mint.inj (c.wData.symm.trans e.wData)
  have es0 := Data.token.inj (c.srcData.symm.trans e.tr.srcData)
  have ed := Data.token.inj (c.escData.symm.trans e.tr.escData)
  have er := Data.token.inj (c.rData.symm.trans e.rData)
  subst ew es0 ed er
  have hfee : wrapFee env m amount.toNat = 0 := Except.ok.inj (e.tr.feeEq.symm.trans c.feeEq)
  have fin := e.final
  have mv := e.tr.moved
  rw [hfee] at fin mv
  rcases mv with ⟨heq, _⟩ | ⟨_, mv⟩
  · exact absurd heq hne
  have i := transferMove_inv hne mv
  have h1 := e.rNeS; have h2 := e.rNeE; have h3 := e.rNeW; have h4 := e.wNeS; have h5 := e.wNeE
  have h6 := e.rNeU; have h7 := e.wNeU; have h8 := e.tr.borrow
  have same := e.tr.same
  dsimp only at h1 h2 h3 h4 h5 h6 h7 h8 fin i
  have kSrc : (L4 sr.key).data = .token { s' with amount := s'.amount - amount.toNat } := by
    rw [fin]; simp [Ledger.setData_apply, Ne.symm h4, Ne.symm h1, i.2.2.2.1]
  have kEsc : (L4 es.key).data = .token { d with amount := d.amount + (amount.toNat - 0), withheld := d.withheld + 0 } := by
    rw [fin]; simp only [Ledger.setData_apply, if_neg (Ne.symm h5), if_neg (Ne.symm h2), i.2.2.2.2.2.1]
  have kR : (L4 rcp.key).data = .token { r with amount := r.amount + (amount.toNat - 0) } := by
    rw [fin]; simp [Ledger.setData_apply, h3]
  have kW : (L4 wm.key).data = .mint { w with supply := w.supply + (amount.toNat - 0) } := by
    rw [fin]; simp
  have kU : L4 um.key = L um.key :=
    f1 _ (by simp [Ne.symm h8.1, Ne.symm h8.2, Ne.symm h6, Ne.symm h7])
  have aNe : au.key ∉ [sr.key, es.key, rcp.key, wm.key] := by
    have ha := c.aData
    simp only [List.mem_cons, List.not_mem_nil, or_false, not_or]
    refine ⟨?_, ?_, ?_, ?_⟩ <;> intro hh <;> rw [hh] at ha
    · exact absurd (ha.symm.trans c.srcData) (by simp)
    · exact absurd (ha.symm.trans c.escData) (by simp)
    · exact absurd (ha.symm.trans c.rData) (by simp)
    · exact absurd (ha.symm.trans c.wData) (by simp)
  have kA : L4 au.key = L au.key := f1 _ aNe
  have kO : L4 o = L o := f1 _ ho
  refine ⟨_, _, _, _, {
    uprogOk := c.uprogOk, wprogOk := c.wprogOk, addrW := c.addrW, addrA := c.addrA, addrE := c.addrE
    wNeU := c.wNeU
    hOwner := (f2 _).trans c.rOwner, hData := kR, hMint := c.rMint, hThawed := c.rThawed
    hNative := c.rNative, enough := by dsimp only; omega
    spend := .inr (.inr ⟨by dsimp only; rw [r1]; simp, r2⟩)
    approval := ?_
    wOwner := (f2 _).trans c.wOwner, wData := kW, wExts := c.wExts, supply := by dsimp only; omega
    escOwner := (f2 _).trans c.escOwner, escData := kEsc, escMint := c.escMint
    escTokenOwner := c.escTokenOwner, escThawed := c.escThawed, escDelegate := d1
    escEnough := by dsimp only; omega
    escNative := .inl d2
    aData := by rw [kA]; exact c.aData
    mintOwner := by rw [kU]; exact c.mintOwner
    mintData := by rw [kU]; exact c.mintData
    splExts := c.splExts, feeEq := c.feeEq, feeLe := Nat.zero_le _
    rOwner := (f2 _).trans c.srcOwner, rData := kSrc
    rMint := same.mint.trans c.srcMint, rThawed := same.frozen.trans c.srcThawed
    rFee := .inl rfl
    rRoom := by dsimp only; rw [same.amount]; have := c.enough; omega }⟩
  unfold BuiltApproval at happ ⊢
  rw [kO]
  exact happ

/-- What the setup of a walk-through leaves. -/
structure SetupDone (env : Env) (L L3 : Ledger) (payer u key W B A E wprog uprog owner : Pubkey)
    (d r : TokenAcct) (w : Mint) : Prop where
  wOwner : (L3 W).owner = wprog
  wData : (L3 W).data = .mint w
  wAuth : w.mintAuthority = some A
  wExts : wprog = splTokenId → w.exts = []
  supply : w.supply = supplyOf L W
  eOwner : (L3 E).owner = uprog
  eData : (L3 E).data = .token d
  eMint : d.mint = u
  eTokenOwner : d.owner = A
  eThawed : d.frozen = false
  eDelegate : d.delegate = none
  ePlain : d.isNative = none
  eAmount : d.amount = balanceOf L E
  rData : (L3 key).data = .token r
  rOwner : (L3 key).owner = wprog
  rExists : (L3 key).lamports ≠ 0
  rMint : r.mint = W
  rTokenOwner : r.owner = owner
  rAmount : r.amount = 0
  rThawed : r.frozen = false
  rDelegate : r.delegate = none
  rPlain : r.isNative = none
  payerSame : (L3 payer).owner = systemId ∧ (L3 payer).data = .bytes []
  frame : ∀ k, k ∉ [payer, key, W, B, E] → L3 k = L k

theorem exampleSetup_done {L : Ledger} {payer u src wprog uprog key W B A E owner : Pubkey}
    {amount : UInt64} {m : Mint} {s : TokenAcct} (hid : env.programId = crateId)
    (hrej : ∀ p ix s L, env.reject p ix s L = none)
    (st : ScriptStart env L payer u src wprog uprog key W B A E amount m s) :
    ∃ L3 d r w, Js.exampleSetup env payer u wprog owner key L = some L3 ∧
      SetupDone env L L3 payer u key W B A E wprog uprog owner d r w := by
  have nd := st.nodup
  simp only [List.nodup_cons, List.mem_cons, List.not_mem_nil, or_false, not_or, not_false_eq_true,
    List.nodup_nil, and_true] at nd
  obtain ⟨⟨p1, p2, p3, p4, p5, p6, p7⟩, ⟨u1, u2, u3, u4, u5, u6⟩, ⟨s1, s2, s3, s4, s5⟩,
    ⟨k1, k2, k3, k4⟩, ⟨w1, w2, w3⟩, ⟨b1, b2⟩, a1⟩ := nd
  have hf := st.payerFunds
  obtain ⟨ixs, L1, w, h1, h2, ms⟩ := js_mint_step (um := m) hid hrej st.wprogOk st.addrW st.addrB st.addrA
    (by rw [st.mintOwner]; exact st.uprogOk) st.mintData st.pair st.payerAcct w1 p4 p5 p1 u3 u4
    (by omega)
  have fU : L1 u = L u := ms.frame u (Ne.symm p1) u3 u4
  have fE : L1 E = L E := ms.frame E (Ne.symm p7) (Ne.symm w3) (Ne.symm b2)
  have fLen : ataLen uprog u L1 = ataLen uprog u L := by simp only [ataLen, fU]
  obtain ⟨r, L2, d, h3, h4, es⟩ := js_escrow_step (env := env) (L := L1) (payer := payer) (W := W)
    (wprog := wprog) st.uprogOk st.addrW st.addrA st.addrE (by rw [fU]; exact st.mintExists)
    (by rw [fU]; exact st.mintOwner) (by rw [fU]; exact st.mintData) st.splExts st.thawedByDefault
    st.notNative.1 (by have := st.escrow; unfold EscrowReady at this ⊢; rwa [fE])
    (by rw [ms.payerLeft]) (by rw [ms.payerLeft]) p7
    (by rw [fLen, fE, ms.payerLeft]; dsimp only; omega)
  have gK : L2 key = Account.empty := by
    rw [es.frame key (Ne.symm p3) k4, ms.frame key (Ne.symm p3) k1 k2]
    exact st.fresh
  have gW : L2 W = L1 W := es.frame W (Ne.symm p4) w3
  have gP := es.payerLeft
  rw [fLen, fE, ms.payerLeft] at gP
  dsimp only at gP
  obtain ⟨ixs', L3, t, h5, h6, hs⟩ := js_holder_step (owner := owner) hrej st.wprogOk gK
    (by rw [gW]; exact ms.wOwner) (by rw [gW]; exact ms.wData) ms.wExts ms.wThawed ms.wNoRoom st.notNative.2
    es.payerOwner es.payerData p3 (by omega)
  have jW : L3 W = L1 W := (hs.frame W (Ne.symm p4) (Ne.symm k1)).trans gW
  have jE : L3 E = L2 E := hs.frame E (Ne.symm p7) (Ne.symm k4)
  refine ⟨L3, d, t, w, ?_, {
    wOwner := by rw [jW]; exact ms.wOwner
    wData := by rw [jW]; exact ms.wData
    wAuth := ms.wAuth, wExts := ms.wExts, supply := ms.supply
    eOwner := by rw [jE]; exact es.owner
    eData := by rw [jE]; exact es.data
    eMint := es.mint, eTokenOwner := es.tokenOwner, eThawed := es.thawed, eDelegate := es.delegate
    ePlain := es.plain
    eAmount := by rw [es.amount]; simp only [balanceOf, fE]
    rData := by rw [hs.acct]
    rOwner := by rw [hs.acct]
    rExists := by rw [hs.acct]; exact Nat.pos_iff_ne_zero.1 st.rentPositive
    rMint := hs.mint, rTokenOwner := hs.tokenOwner, rAmount := hs.amount, rThawed := hs.thawed
    rDelegate := hs.delegate, rPlain := hs.plain
    payerSame := ⟨hs.payerOwner, hs.payerData⟩
    frame := ?_ }⟩
  · unfold Js.exampleSetup
    rw [h1]
    simp only [Except.toOption, Option.bind_eq_bind, Option.bind_some, h2, h3, h4,
      (js_addresses env.cr u W wprog).1, st.addrW, h5, h6]
  · intro k hk
    simp only [List.mem_cons, List.not_mem_nil, or_false, not_or] at hk
    rw [hs.frame k hk.1 hk.2.1, es.frame k hk.1 hk.2.2.2.2, ms.frame k hk.1 hk.2.2.1 hk.2.2.2.1]

/-- After the setup the amount can be wrapped. -/
theorem SetupDone.canWrap {L L3 : Ledger} {payer u src wprog uprog key W B A E owner tauth : Pubkey}
    {members : List Pubkey} {amount : UInt64} {m w : Mint} {s d r : TokenAcct} {n : Nat}
    (st : ScriptStart env L payer u src wprog uprog key W B A E amount m s n)
    (sd : SetupDone env L L3 payer u key W B A E wprog uprog owner d r w)
    (hsp : CanSpend s (pdOf uprog m) tauth amount.toNat) (happ : BuiltApproval uprog L3 tauth members) :
    CanWrap env L3 key W A uprog wprog src u E tauth members amount.toNat 0 s d r m w := by
  have nd := st.nodup
  simp only [List.nodup_cons, List.mem_cons, List.not_mem_nil, or_false, not_or, not_false_eq_true,
    List.nodup_nil, and_true] at nd
  obtain ⟨⟨p1, p2, p3, p4, p5, p6, p7⟩, ⟨u1, u2, u3, u4, u5, u6⟩, ⟨s1, s2, s3, s4, s5⟩,
    ⟨k1, k2, k3, k4⟩, ⟨w1, w2, w3⟩, ⟨b1, b2⟩, a1⟩ := nd
  have fU : L3 u = L u := sd.frame u (by simp [Ne.symm p1, u2, u3, u4, u6])
  have fS : L3 src = L src := sd.frame src (by simp [Ne.symm p2, s1, s2, s3, s5])
  have fA : L3 A = L A := sd.frame A (by simp [Ne.symm p6, Ne.symm k3, Ne.symm w2, Ne.symm b1, a1])
  have lim : amount.toNat ≤ u64Max := by have := st.enough; have := st.srcU64; omega
  refine ⟨{
    uprogOk := st.uprogOk, wprogOk := st.wprogOk, addrW := st.addrW, addrA := st.addrA
    addrE := st.addrE, wNeU := Ne.symm u3
    srcOwner := by rw [fS]; exact st.srcOwner
    srcData := by rw [fS]; exact st.srcData
    srcMint := st.srcMint, srcThawed := st.srcThawed, enough := st.enough
    native := .inl st.srcPlain
    spend := hsp, approval := happ
    mintOwner := by rw [fU]; exact st.mintOwner
    mintData := by rw [fU]; exact st.mintData
    splExts := st.splExts, feeEq := st.noFee, feeLe := Nat.zero_le _
    wOwner := sd.wOwner, wData := sd.wData, wExts := sd.wExts, wAuth := sd.wAuth
    aData := by rw [fA]; exact st.authority
    rOwner := sd.rOwner, rData := sd.rData, rMint := sd.rMint, rThawed := sd.rThawed
    rNative := sd.rPlain
    rRoom := by rw [sd.rAmount]; omega
    supRoom := by rw [sd.supply]; have := st.supplyRoom; omega }, sd.eOwner, sd.eData, sd.eMint,
    sd.eTokenOwner, sd.eThawed, .inl rfl, by rw [sd.eAmount]; have := st.escrowRoom; omega⟩

/-- What the user of a walk-through sees: after the wrap the new account holds the amount, backed by
the escrow; after the unwrap everything is as it was, and no account was touched but those of the
script. -/
structure ScriptWorked (L L1 L2 : Ledger) (payer src key W B E : Pubkey) (amount : UInt64) : Prop where
  wrapped : balanceOf L1 key = amount.toNat
  backed : balanceOf L1 E = balanceOf L E + amount.toNat
  paid : balanceOf L1 src + amount.toNat = balanceOf L src
  supply : supplyOf L1 W = supplyOf L W + amount.toNat
  unwrapped : balanceOf L2 key = 0
  escrowBack : balanceOf L2 E = balanceOf L E
  paidBack : balanceOf L2 src = balanceOf L src
  supplyBack : supplyOf L2 W = supplyOf L W
  nothingElse : OnlyChanged [payer, src, key, W, B, E] L L2

/-- The accounting of a script, from the effects of its two calls. -/
theorem script_accounting {L L3 L4 L5 : Ledger} {payer u src wprog uprog key W B A E owner : Pubkey}
    {amount : UInt64} {m w : Mint} {s d r : TokenAcct}
    {rcp wm au up wp sr um es ta es' sr' au' um' wp' up' hd' wm' ta' : Meta} {rest rest' : List Meta} {n : Nat}
    (st : ScriptStart env L payer u src wprog uprog key W B A E amount m s n)
    (sd : SetupDone env L L3 payer u key W B A E wprog uprog owner d r w)
    (k1 : rcp.key = key) (k2 : wm.key = W) (k3 : sr.key = src) (k4 : um.key = u) (k5 : es.key = E)
    (q1 : hd'.key = key) (q2 : wm'.key = W) (q3 : sr'.key = src) (q4 : um'.key = u) (q5 : es'.key = E)
    (h4 : processInstruction env ([rcp, wm, au, up, wp, sr, um, es, ta] ++ rest) (wrap amount).pack L3 =
      .ok L4)
    (h5 : processInstruction env ([es', sr', au', um', wp', up', hd', wm', ta'] ++ rest')
      (unwrap amount).pack L4 = .ok L5)
    (hfee : ∀ fee, IsMintFee m env.epoch amount.toNat fee → fee = 0) :
    ScriptWorked L L4 L5 payer src key W B E amount := by
  have nd := st.nodup
  simp only [List.nodup_cons, List.mem_cons, List.not_mem_nil, or_false, not_or, not_false_eq_true,
    List.nodup_nil, and_true] at nd
  obtain ⟨⟨p1, p2, p3, p4, p5, p6, p7⟩, ⟨u1, u2, u3, u4, u5, u6⟩, ⟨s1, s2, s3, s4, s5⟩,
    ⟨kk1, kk2, kk3, kk4⟩, ⟨w1, w2, w3⟩, ⟨b1, b2⟩, a1⟩ := nd
  have hse : sr.key ≠ es.key := by rw [k3, k5]; exact s5
  obtain ⟨m1, f1, a1, a2, a3, a4, a5, a6, a7⟩ := wrap_credits_exactly_what_escrow_receives h4 hse
  have hfr := (wrap_frame h4).1
  rw [k1, k2, k3, k5] at hfr
  have fU : L3 u = L u := sd.frame u (by simp [Ne.symm p1, u2, u3, u4, u6])
  have fS : L3 src = L src := sd.frame src (by simp [Ne.symm p2, s1, s2, s3, s5])
  have gU : L4 u = L3 u := hfr u (by simp [u1, u2, u3, u6])
  rw [k4, fU, st.mintData] at a1; cases a1
  have hwu : wm'.key ≠ um'.key := by rw [q2, q4]; exact Ne.symm u3
  obtain ⟨m2, f2, c1, c2, c3, c4, c5, c6, c7⟩ := unwrap_pays_one_for_one h5 hwu
    (by rw [q5, q3]; exact Ne.symm s5)
  rw [q4, gU, fU, st.mintData] at c1; cases c1
  have z1 := hfee _ a2
  have z2 := hfee _ c2
  subst z1 z2
  have hfr2 := (unwrap_frame h5 hwu).1
  rw [q1, q2, q3, q5] at hfr2
  rw [k1] at a6; rw [k2] at a7; rw [k3] at a4; rw [k5] at a5
  rw [q1] at c4; rw [q2] at c5; rw [q3] at c7; rw [q5] at c6
  have e1 : balanceOf L3 key = 0 := by simp only [balanceOf, sd.rData, sd.rAmount]
  have e2 : balanceOf L3 E = balanceOf L E := by simp only [balanceOf, sd.eData]; exact sd.eAmount
  have e3 : balanceOf L3 src = balanceOf L src := by simp only [balanceOf, fS]
  have e4 : supplyOf L3 W = supplyOf L W := by simp only [supplyOf, sd.wData]; exact sd.supply
  refine ⟨by omega, by omega, by omega, by omega, by omega, by omega, by omega, by omega, ?_⟩
  intro k hk
  simp only [List.mem_cons, List.not_mem_nil, or_false, not_or] at hk
  rw [hfr2 k (by simp [hk]), hfr k (by simp [hk]), sd.frame k (by simp [hk])]

theorem ScriptStart.feeZero {L : Ledger} {payer u src wprog uprog key W B A E : Pubkey}
    {amount : UInt64} {m : Mint} {s : TokenAcct} {n : Nat}
    (st : ScriptStart env L payer u src wprog uprog key W B A E amount m s n) (fee : Nat)
    (h : IsMintFee m env.epoch amount.toNat fee) : fee = 0 := by
  have h0 := feeOf_isMintFee st.uprogOk st.splExts st.noFee
  unfold IsMintFee at h h0
  cases hm : m.transferFee? with
  | some c => rw [hm] at h h0; exact isFee_unique h h0
  | none => rw [hm] at h; exact h

/-- `singleSignerWrap` builds the instruction of the Rust builder. -/
theorem js_wrap_built {L : Ledger} {payer u src uprog wprog key W A E : Pubkey} {n : UInt64}
    (hW : wrappedMintAddress env.cr u wprog = some W) (hA : authorityAddress env.cr W = some A)
    (hE : associatedTokenAddress env.cr A u uprog = some E)
    (hl : (L src).lamports ≠ 0) (ho : (L src).owner = uprog) :
    ∃ wr, Js.singleSignerWrap env
        { payer := payer
          unwrappedTokenAccount := src
          wrappedTokenProgram := wprog
          amount := (n.toNat : Int)
          unwrappedMint := some u
          recipient := some key } L = .ok wr ∧
      wr.ix = Build.wrap crateId key W A uprog wprog src u E payer [] n := by
  unfold Js.singleSignerWrap Js.buildWrapIx Js.wrapIx
  dsimp only
  rw [orQuery_ok.2 (.inl rfl), ok_bind, orQuery_ok.2 (.inr ⟨rfl, rpcOwner_ok.2 ⟨hl, ho⟩⟩), ok_bind,
    (js_addresses env.cr u W wprog).1, hW, okOr_some, ok_bind, (js_addresses env.cr u W wprog).2.1, hA,
    okOr_some, ok_bind, orQuery_ok.2 (.inl rfl), ok_bind, hE, okOr_some, ok_bind, ok_bind, encodeU64_eq,
    ok_bind]
  exact ⟨_, rfl, rfl⟩

/-- **C87** The single-signer walk-through works: from every chain on which the mint charges no fee for
the amount, the payer owns the tokens and can pay the rent still missing, all five transactions succeed
- whether the wrapped mint and the escrow existed before or not -, the new account holds the amount,
fully backed, after the wrap, and after the unwrap everybody has what they had before. -/
theorem single_signer_example_works {L : Ledger} {payer u src wprog uprog key W B A E : Pubkey}
    {amount : UInt64} {m : Mint} {s : TokenAcct} (hid : env.programId = crateId)
    (hrej : ∀ p ix s L, env.reject p ix s L = none)
    (st : ScriptStart env L payer u src wprog uprog key W B A E amount m s)
    (hown : s.owner = payer) (hdel : s.delegate ≠ some payer) :
    ∃ L1 L2, Js.singleSignerExample env payer u src wprog amount.toNat key L = some (L1, L2) ∧
      ScriptWorked L L1 L2 payer src key W B E amount := by
  have nd := st.nodup
  simp only [List.nodup_cons, List.mem_cons, List.not_mem_nil, or_false, not_or, not_false_eq_true,
    List.nodup_nil, and_true] at nd
  obtain ⟨⟨p1, p2, p3, p4, p5, p6, p7⟩, ⟨u1, u2, u3, u4, u5, u6⟩, ⟨s1, s2, s3, s4, s5⟩,
    ⟨kk1, kk2, kk3, kk4⟩, ⟨w1, w2, w3⟩, ⟨b1, b2⟩, a1⟩ := nd
  obtain ⟨L3, d, r, w, hset, sd⟩ := exampleSetup_done (owner := payer) hid hrej st
  have fS : L3 src = L src := sd.frame src (by simp [Ne.symm p2, s1, s2, s3, s5])
  have happ : ∀ prog, BuiltApproval prog L3 payer [] := fun _ =>
    .inl ⟨rfl, fun ms h => by rw [sd.payerSame.2] at h; cases h⟩
  have cw := sd.canWrap st (tauth := payer) (members := []) (.inr (.inr ⟨hdel, hown⟩)) (happ _)
  obtain ⟨L4, h4⟩ := wrap_succeeds hid st.positive hrej cw
  obtain ⟨wr, hwr, hix⟩ := js_wrap_built (env := env) (payer := payer) (key := key) (n := amount)
    st.addrW st.addrA st.addrE (L := L3)
    (by rw [fS]; exact st.srcExists) (by rw [fS]; exact st.srcOwner)
  obtain ⟨e, d', h', w', cu⟩ := wrapped_can_be_unwrapped (rcp := .rw key false) (wm := .rw W false)
    (au := .ro A false) (up := .ro uprog false) (wp := .ro wprog false) (sr := .rw src false)
    (um := .ro u false) (es := .rw E false) (ta := .ro payer true) (rest := []) (o := payer)
    (members' := []) cw h4 s5 st.srcU64 sd.eDelegate sd.ePlain sd.rDelegate sd.rTokenOwner
    (by simp [Meta.rw, p2, p3, p4, p7]) (happ _)
  have lam := (wrap_frame (rest := []) h4)
  have lam4 : (L4 key).lamports ≠ 0 := by
    rw [show (L4 key).lamports = _ from lam.2.2.2.2.1]
    exact sd.rExists
  have lamS : (L4 src).lamports ≠ 0 := by
    obtain ⟨m', w'', s0, d0, s', r', Lx, ef⟩ := wrap_effect (rest := []) h4
    have es0 := Data.token.inj (cw.srcData.symm.trans ef.tr.srcData)
    subst es0
    have fin := ef.final
    have mv := ef.tr.moved
    dsimp only at fin mv
    rcases mv with ⟨heq, _⟩ | ⟨_, mv⟩
    · exact absurd heq s5
    have i := transferMove_inv s5 mv
    have := (i.2.2.2.2.2.2.2.2 (ef.tr.same.isNative.trans st.srcPlain)).1
    rw [fin]
    simp only [Ledger.setData_apply, Meta.rw, if_neg s2, if_neg s1]
    show (Lx src).lamports ≠ 0
    rw [this, show (L3 src) = L src from fS]
    exact st.srcExists
  obtain ⟨ix, L5, hub, h5⟩ := js_unwrap_succeeds (env := env) (L := L4)
    (args := ⟨payer, key, (amount.toNat : Int), src, none, none, none, none⟩)
    hid st.positive rfl hrej rfl cu ⟨lam4, lamS⟩ (.inl rfl) (.inl rfl) (.inl rfl)
  refine ⟨L4, L5, ?_, ?_⟩
  · unfold Js.singleSignerExample
    rw [hset]
    simp only [Option.bind_eq_bind, Option.bind_some, hwr, Except.toOption, hix, h4, hub, h5]
    rfl
  · obtain ⟨u', wp', up', W', A', E', n', hr, hn, rfl⟩ := js_unwrap_ok hub
    have nn : n' = amount := by
      have : (amount.toNat : Int) = (n'.toNat : Int) := hn
      exact UInt64.toNat_inj.1 (by exact_mod_cast this.symm)
    subst nn
    have eU : u' = u := by
      rcases hr.mint with h | ⟨_, t, h1, h2⟩
      · cases h
      · exact h2.symm.trans ((congrArg _ (Data.token.inj (h1.symm.trans cu.rData))).trans cu.rMint)
    have eUp : up' = uprog := by
      rcases hr.unwrappedProgram with h | ⟨_, h⟩
      · cases h
      · exact h.symm.trans cu.rOwner
    have eW : W' = W := by
      obtain ⟨t, h1, h2⟩ := hr.wrappedMint
      exact h2.symm.trans ((congrArg _ (Data.token.inj (h1.symm.trans cu.hData))).trans cu.hMint)
    subst eU eUp eW
    have eA : A' = A := Option.some.inj (hr.authority.symm.trans st.addrA)
    subst eA
    have eE : E' = E := Option.some.inj (hr.escrow.symm.trans st.addrE)
    subst eE
    exact script_accounting st sd rfl rfl rfl rfl rfl rfl rfl rfl rfl rfl h4 h5 st.feeZero

/-- **C87** The multisig walk-through works likewise: the tokens belong to a multisig of the unwrapped
mint's program, the wrapped tokens to one of the wrapped mint's program, and the listed members are
enough for both.  The payer and every member sign a copy of their own; the combined transactions carry
every signature needed. -/
theorem multisig_example_works {Sig : Type} {encode : Message → Bytes} {sign : Pubkey → Bytes → Sig}
    {demoted : List Pubkey} {L : Ledger}
    {payer u src wprog uprog key W B A E msU msW : Pubkey} {members : List Pubkey}
    {amount : UInt64} {m : Mint} {s : TokenAcct} {mu mw : Multisig} (hid : env.programId = crateId)
    (hrej : ∀ p ix s L, env.reject p ix s L = none)
    (st : ScriptStart env L payer u src wprog uprog key W B A E amount m s)
    (hown : s.owner = msU) (hdel : s.delegate ≠ some msU)
    (hmu : (L msU).owner = uprog ∧ (L msU).data = .multisig mu ∧ 1 ≤ mu.m ∧
      mu.m ≤ (mu.signers.filter (· ∈ members)).length)
    (hmw : (L msW).owner = wprog ∧ (L msW).data = .multisig mw ∧ 1 ≤ mw.m ∧
      mw.m ≤ (mw.signers.filter (· ∈ members)).length)
    (hdis : ∀ k ∈ [msU, msW], k ∉ [payer, src, key, W, B, E])
    (hdem : ∀ k ∈ [src, key, W, E], k ∉ demoted) :
    ∃ L1 L2, Js.multisigExample env encode sign demoted payer u src wprog msU msW members amount.toNat
        key L = some (L1, L2) ∧
      ScriptWorked L L1 L2 payer src key W B E amount := by
  have nd := st.nodup
  simp only [List.nodup_cons, List.mem_cons, List.not_mem_nil, or_false, not_or, not_false_eq_true,
    List.nodup_nil, and_true] at nd
  obtain ⟨⟨p1, p2, p3, p4, p5, p6, p7⟩, ⟨u1, u2, u3, u4, u5, u6⟩, ⟨s1, s2, s3, s4, s5⟩,
    ⟨kk1, kk2, kk3, kk4⟩, ⟨w1, w2, w3⟩, ⟨b1, b2⟩, a1⟩ := nd
  have hne : members ≠ [] := by
    rintro rfl
    have h1 := hmu.2.2.1
    have h2 := hmu.2.2.2
    have : mu.signers.filter (· ∈ ([] : List Pubkey)) = [] := by
      rw [List.filter_eq_nil_iff]; simp
    rw [this] at h2
    simp at h2
    omega
  obtain ⟨L3, d, r, w, hset, sd⟩ := exampleSetup_done (owner := msW) hid hrej st
  have fS : L3 src = L src := sd.frame src (by simp [Ne.symm p2, s1, s2, s3, s5])
  have dU := hdis msU (by simp)
  have dW := hdis msW (by simp)
  simp only [List.mem_cons, List.not_mem_nil, or_false, not_or] at dU dW
  have fMU : L3 msU = L msU := sd.frame msU (by simp [dU])
  have fMW : L3 msW = L msW := sd.frame msW (by simp [dW])
  have appU : BuiltApproval uprog L3 msU members := .inr ⟨mu, by rw [fMU]; exact hmu⟩
  have appW : BuiltApproval wprog L3 msW members := .inr ⟨mw, by rw [fMW]; exact hmw⟩
  have cw := sd.canWrap st (tauth := msU) (members := members) (.inr (.inr ⟨hdel, hown⟩)) appU
  have hpay : ∃ g ∈ members.map (fun k => [k]) ++ [[payer]], payer ∈ g := ⟨[payer], by simp, by simp⟩
  have hmem : ∀ k ∈ members, ∃ g ∈ members.map (fun k => [k]) ++ [[payer]], k ∈ g :=
    fun k hk => ⟨[k], by simp [hk], by simp⟩
  obtain ⟨msg, L4, sigs, m1, m2, _, m4⟩ := js_multisig_wrap_end_to_end (encode := encode) (sign := sign)
    (demoted := demoted) (groups := members.map (fun k => [k]) ++ [[payer]])
    (a := ⟨payer, src, wprog, (amount.toNat : Int), W, A, ⟨msU, false⟩, u, key, uprog, members⟩)
    hid st.positive hrej rfl rfl hne cw
    (by intro k hk; exact hdem k (by simp at hk ⊢; rcases hk with h | h | h | h <;> simp [h])) hpay hmem
  obtain ⟨E', n', hE', hn', hmsg, _⟩ := js_multisig_wrap_message m1 rfl hne
  have eE : E' = E := Option.some.inj (hE'.symm.trans st.addrE)
  have en : n' = amount := by
    have : (amount.toNat : Int) = (n'.toNat : Int) := hn'
    exact UInt64.toNat_inj.1 (by exact_mod_cast this.symm)
  subst eE en
  have h4 := m4
  rw [hmsg] at h4
  have h4 := run_single.1 h4
  generalize hf : (⟨payer, [.call (Build.wrap crateId key W A uprog wprog src u E' msU members n')]⟩ :
    Message).compileMeta env.cr demoted = f at h4
  have hfk : ∀ x, (f x).key = x.key := fun x => by rw [← hf]; rfl
  have hlist : (Build.wrap crateId key W A uprog wprog src u E' msU members n').accounts.map f =
      [f (.rw key false), f (.rw W false), f (.ro A false), f (.ro uprog false), f (.ro wprog false),
        f (.rw src false), f (.ro u false), f (.rw E' false), f (.ro msU members.isEmpty)] ++
        (members.map fun k => Meta.ro k true).map f := by
    rfl
  have h4 : processInstruction env _ (wrap n').pack L3 = .ok L4 := h4
  rw [hlist] at h4
  obtain ⟨e, d', h', w', cu⟩ := wrapped_can_be_unwrapped (o := msW) (members := members)
    (members' := members) (s := s) (d := d) (r := r) (m := m) (w := w)
    (by simp only [hfk]; exact cw) h4 (by simp only [hfk]; exact s5) st.srcU64 sd.eDelegate sd.ePlain
    sd.rDelegate sd.rTokenOwner (by simp only [hfk]; simp [Meta.rw, dW])
    (by simp only [hfk]; exact appW)
  simp only [hfk] at cu
  obtain ⟨msg2, L5, sigs2, x1, x2, _, x4⟩ := js_multisig_unwrap_end_to_end (encode := encode)
    (sign := sign) (demoted := demoted) (groups := members.map (fun k => [k]) ++ [[payer]])
    (a := ⟨payer, key, (n'.toNat : Int), W, A, u, src, uprog, wprog, ⟨msW, false⟩, members⟩)
    hid st.positive hrej rfl rfl hne cu
    (by intro k hk; exact hdem k (by simp [Meta.rw] at hk ⊢; rcases hk with h | h | h | h <;> simp [h])) hpay hmem
  refine ⟨L4, L5, ?_, ?_⟩
  · unfold Js.multisigExample
    rw [hset]
    have ho : rpcOwner L3 src = .ok uprog :=
      rpcOwner_ok.2 ⟨by rw [fS]; exact st.srcExists, by rw [fS]; exact st.srcOwner⟩
    simp only [Option.bind_eq_bind, Option.bind_some, (js_addresses env.cr u W wprog).1, st.addrW,
      (js_addresses env.cr u W wprog).2.1, st.addrA, ho, Except.toOption, m1]
    unfold signedCopies at m2 x2
    simp only [Option.bind_some, m2, m4, x1, x2, x4]
    rfl
  · obtain ⟨E2, n2, hE2, hn2, hmsg2, _⟩ := js_multisig_unwrap_message x1 rfl hne
    have eE : E2 = E' := Option.some.inj (hE2.symm.trans st.addrE)
    have en : n2 = n' := by
      have : (n'.toNat : Int) = (n2.toNat : Int) := hn2
      exact UInt64.toNat_inj.1 (by exact_mod_cast this.symm)
    subst eE en
    have h5 := x4
    rw [hmsg2] at h5
    have h5 := run_single.1 h5
    generalize hg : (⟨payer, [.call (Build.unwrap crateId E2 src A u wprog uprog key W msW members n2)]⟩ :
      Message).compileMeta env.cr demoted = g at h5
    have hgk : ∀ x, (g x).key = x.key := fun x => by rw [← hg]; rfl
    have hlist2 : (Build.unwrap crateId E2 src A u wprog uprog key W msW members n2).accounts.map g =
        [g (.rw E2 false), g (.rw src false), g (.ro A false), g (.ro u false), g (.ro wprog false),
          g (.ro uprog false), g (.rw key false), g (.rw W false), g (.ro msW members.isEmpty)] ++
          (members.map fun k => Meta.ro k true).map g := by
      rfl
    have h5 : processInstruction env _ (unwrap n2).pack L4 = .ok L5 := h5
    rw [hlist2] at h5
    exact script_accounting st sd (hfk _) (hfk _) (hfk _) (hfk _) (hfk _) (hgk _) (hgk _) (hgk _)
      (hgk _) (hgk _) h4 h5 st.feeZero

theorem toOption_some {ε α : Type} {x : Except ε α} {a : α} : x.toOption = some a ↔ x = .ok a := by
  cases x <;> simp [Except.toOption]

/-- After the setup the new account is empty. -/
theorem exampleSetup_empty {L L3 : Ledger} {payer u wprog owner key W : Pubkey}
    (hW : wrappedMintAddress env.cr u wprog = some W) (hn : W ∉ nativeMints)
    (h : Js.exampleSetup env payer u wprog owner key L = some L3) : balanceOf L3 key = 0 := by
  unfold Js.exampleSetup at h
  simp only [Option.bind_eq_bind, Option.bind_eq_some_iff, toOption_some,
    (js_addresses env.cr u W wprog).1, hW, Option.some.injEq] at h
  obtain ⟨_, _, _, _, _, _, L2, _, _, rfl, ixs, h5, h6⟩ := h
  unfold Js.createTokenAccount at h5
  simp only [bind_ok_iff, require_ok_iff, pure_ok_iff] at h5
  obtain ⟨_, _, rfl⟩ := h5
  simp only [Js.runSetup, Js.runSetupIx, bind_ok_iff, Except.ok.injEq] at h6
  obtain ⟨L4, _, _, h7, rfl⟩ := h6
  have hrej := tokenExec_not_rejected h7
  unfold tokenExec at h7
  rw [hrej] at h7
  obtain ⟨_, b, m, _, _, _, _, _, _, h8, _⟩ := initializeAccount3Exec_inv h7
  rw [h8]
  simp [balanceOf, newTokenAcct, hn]

/-- **C87** With a transfer fee the script cannot succeed: it asks to unwrap the amount it wrapped, but
the new account received that amount less the fee. -/
theorem single_signer_example_fails_with_fee {L L3 : Ledger} {payer u src wprog key W A E uprog : Pubkey}
    {amount : UInt64} {m : Mint} {fee : Nat}
    (hW : wrappedMintAddress env.cr u wprog = some W) (hA : authorityAddress env.cr W = some A)
    (hE : associatedTokenAddress env.cr A u uprog = some E) (hn : W ∉ nativeMints)
    (hs : Js.exampleSetup env payer u wprog payer key L = some L3)
    (ho : (L3 src).owner = uprog) (hm : (L3 u).data = .mint m) (hne : src ≠ E) (huk : u ≠ W)
    (hfee : IsMintFee m env.epoch amount.toNat fee) (hpos : 0 < fee) :
    Js.singleSignerExample env payer u src wprog amount.toNat key L = none := by
  rw [← Option.not_isSome_iff_eq_none, Option.isSome_iff_exists]
  rintro ⟨⟨L4, L5⟩, h⟩
  unfold Js.singleSignerExample at h
  rw [hs] at h
  simp only [Option.bind_eq_bind, Option.bind_some, Option.bind_eq_some_iff, toOption_some] at h
  obtain ⟨wr, h1, L4', h2, ix, h3, L5', h4, h5⟩ := h
  have e0 := exampleSetup_empty hW hn hs
  obtain ⟨u', up', W', A', hr, _, hw⟩ := js_wrap_effect h1 h2
  have eU : u' = u := by
    rcases hr.mint with h | ⟨h, _⟩
    · exact (Option.some.inj h).symm
    · cases h
  have eP : up' = uprog := by
    rcases hr.prog with h | ⟨_, h⟩
    · cases h
    · exact h.symm.trans ho
  subst eU eP
  have eR : wr.recipient = key := by
    rcases hr.recipient with h | ⟨h, _⟩
    · exact (Option.some.inj h).symm
    · cases h
  have eE : wr.escrow = E := by
    have := hr.escrow
    rw [escrowAddress_eq _ _ _ _ _ _ hW hA] at this
    exact Option.some.inj (this.symm.trans hE)
  obtain ⟨m', fee', a1, a2, a3, a4, a5, a6, a7⟩ := hw (by rw [eE]; exact hne)
  rw [hm] at a1; cases a1
  have ef : fee' = fee := by
    unfold IsMintFee at a2 hfee
    cases hc : m.transferFee? with
    | some c => rw [hc] at a2 hfee; exact isFee_unique a2 hfee
    | none => rw [hc] at a2 hfee; rw [a2, hfee]
  subst ef
  rw [eR, e0] at a6
  obtain ⟨u2, wp2, up2, W2, A2, E2, n2, hr2, hn2, rfl⟩ := js_unwrap_ok h3
  obtain ⟨m2, w2, t, t', e, e', d, fee2, Lx, ef⟩ := unwrap_effect h4
  have t1 := ef.hData; have t2 := ef.hEnough
  dsimp only at t1 t2
  have t1 : (L4' key).data = .token t := t1
  simp only [balanceOf, t1] at a6
  have hn2 : (amount.toNat : Int) = (n2.toNat : Int) := hn2
  have a3' : fee' ≤ amount.toNat := a3
  have a6' : t.amount = 0 + (amount.toNat - fee') := a6
  omega

end

/-! ## Concrete instances -/

namespace Example.Journey

open TokenWrap.Example

/-- the freshly generated key pair -/
def key : Pubkey := .lit 30
/-- multisig owning the unwrapped tokens -/
def msU : Pubkey := .lit 31
/-- multisig to own the wrapped tokens -/
def msW : Pubkey := .lit 32
def m1 : Pubkey := .lit 41
def m2 : Pubkey := .lit 42
def m3 : Pubkey := .lit 43

/-- A chain where nobody has wrapped this mint before: the mint, the tokens, the payer, two multisigs;
somebody already sent 30 lamports to the address of the wrapped mint. -/
def start (exts : List MintExt) (owner : Pubkey) : Ledger := fun k =>
  if k = u then ⟨200, token2022Id, .mint (uMint exts)⟩
  else if k = src then ⟨200, token2022Id, .token (acct u owner 5000 [.transferFeeAmount])⟩
  else if k = user then ⟨370, systemId, .bytes []⟩
  else if k = W then ⟨30, systemId, .bytes []⟩
  else if k = msU then ⟨200, token2022Id, .multisig ⟨2, [m1, m2, m3]⟩⟩
  else if k = msW then ⟨200, splTokenId, .multisig ⟨2, [m1, m2, m3]⟩⟩
  else Account.empty

/-- A chain where the pair and the escrow exist and 40 tokens are already wrapped. -/
def later (owner : Pubkey) : Ledger := fun k =>
  if k = W then ⟨200, splTokenId, .mint (wMint 40)⟩
  else if k = E then ⟨200, token2022Id, .token (acct u A 40 [.immutableOwner])⟩
  else if k = B then ⟨200, crateId, .bytes u.bytes⟩
  else start [] owner k

/-- Each condition, computed. -/
local macro "start_tac" : tactic => `(tactic| first
  | decide +kernel
  | exact Or.inl (by decide +kernel)
  | exact Or.inr ⟨wMint 40, by decide +kernel⟩
  | exact Or.inr ⟨acct u A 40 [.immutableOwner], by decide +kernel⟩
  | rfl)

theorem start_user : ScriptStart env (start [] user) user u src splTokenId token2022Id key
    W B A E 1000 (uMint []) (acct u user 5000 [.transferFeeAmount]) := by
  constructor <;> start_tac

theorem start_ms : ScriptStart env (start [] msU) user u src splTokenId token2022Id key
    W B A E 1000 (uMint []) (acct u msU 5000 [.transferFeeAmount]) := by
  constructor <;> start_tac

theorem later_user : ScriptStart env (later user) user u src splTokenId token2022Id key
    W B A E 1000 (uMint []) (acct u user 5000 [.transferFeeAmount]) := by
  constructor <;> start_tac

/-- From scratch. -/
example : ∃ L1 L2, Js.singleSignerExample env user u src splTokenId (1000 : UInt64).toNat key (start [] user) =
      some (L1, L2) ∧ ScriptWorked (start [] user) L1 L2 user src key W B E 1000 :=
  single_signer_example_works rfl (fun _ _ _ _ => rfl) start_user rfl (by simp [acct])

/-- With everything there already. -/
example : ∃ L1 L2, Js.singleSignerExample env user u src splTokenId (1000 : UInt64).toNat key (later user) =
      some (L1, L2) ∧ ScriptWorked (later user) L1 L2 user src key W B E 1000 :=
  single_signer_example_works rfl (fun _ _ _ _ => rfl) later_user rfl (by simp [acct])

/-- Two of three members. -/
example : ∃ L1 L2, Js.multisigExample env (fun _ => [7]) (fun k b => (k, b)) [A] user u src splTokenId
      msU msW [m1, m3] (1000 : UInt64).toNat key (start [] msU) = some (L1, L2) ∧
    ScriptWorked (start [] msU) L1 L2 user src key W B E 1000 :=
  multisig_example_works rfl (fun _ _ _ _ => rfl) start_ms rfl (by simp [acct])
    (mu := ⟨2, [m1, m2, m3]⟩) (mw := ⟨2, [m1, m2, m3]⟩) (by decide +kernel) (by decide +kernel)
    (by decide +kernel) (by decide +kernel)

/-- The setup of the script succeeds for a mint with a fee too ... -/
def feeStart : Ledger := start [.transferFeeConfig feeCfg] user

theorem fee_setup : (Js.exampleSetup env user u splTokenId user key feeStart).isSome = true := by
  decide +kernel

/-- ... and then the unwrap of the full amount fails. -/
example : Js.singleSignerExample env user u src splTokenId (1000 : UInt64).toNat key feeStart = none := by
  obtain ⟨L3, h3⟩ := Option.isSome_iff_exists.1 fee_setup
  have q : ∀ p : Ledger → Bool, (Js.exampleSetup env user u splTokenId user key feeStart).all p = true →
      p L3 = true := fun p h => by rw [h3] at h; exact h
  refine single_signer_example_fails_with_fee (W := W) (A := A) (E := E) (uprog := token2022Id)
    (m := uMint [.transferFeeConfig feeCfg]) (fee := 10) (L3 := L3)
    (amount := 1000) (by decide +kernel) (by decide +kernel) (by decide +kernel) (by decide +kernel) h3
    (of_decide_eq_true (q (fun L => decide ((L src).owner = token2022Id)) (by decide +kernel)))
    (of_decide_eq_true (q (fun L => decide ((L u).data = .mint (uMint [.transferFeeConfig feeCfg])))
      (by decide +kernel)))
    (by decide +kernel) (by decide +kernel) ?_ (by decide)
  show IsFee (specFeeSchedule feeCfg 5) 1000 10
  unfold IsFee
  decide +kernel

end Example.Journey

end TokenWrap
