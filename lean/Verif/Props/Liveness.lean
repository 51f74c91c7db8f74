import Verif.CpiLemmas
import Verif.WrapLemmas
import Verif.Props.Unwrap
/-!
# Liveness of Wrap and Unwrap

When the accounts are the derived ones and the token programs agree, the instructions built by the
public builders succeed. Used for C18, C32, C52.
-/

set_option linter.unusedSimpArgs false

namespace TokenWrap

open TokenWrapInstruction

theorem transferMove_ok {L : Ledger} {src dst : Pubkey} {s d : TokenAcct} {amount fee : Nat}
    (h1 : fee ≤ amount) (h2 : d.amount + (amount - fee) ≤ u64Max)
    (h3 : fee = 0 ∨ AcctExt.transferFeeAmount ∈ d.exts)
    (h4 : s.isNative = none ∨ amount ≤ (L src).lamports) :
    ∃ L', transferMove L src dst s d amount fee = .ok L' := by
  unfold transferMove
  have e3 : (decide (fee = 0) || decide (AcctExt.transferFeeAmount ∈ d.exts)) = true := by
    simpa using h3
  simp only [decide_eq_true h1, decide_eq_true h2, e3, require_true, ok_bind]
  split
  · rename_i hn
    rcases h4 with h4 | h4
    · simp [h4] at hn
    · unfold moveLamports
      have : ((L.setData src (.token { s with amount := s.amount - amount })).setData dst (.token
        { d with amount := d.amount + (amount - fee), withheld := d.withheld + fee }) src).lamports =
          (L src).lamports := by
        simp only [Ledger.setData_apply]
        split
        · rename_i he; rw [he]; split <;> rfl
        · simp
      rw [this, decide_eq_true h4, require_true, ok_bind]
      exact ⟨_, rfl⟩
  · exact ⟨_, rfl⟩

theorem transferExec_ok {env : Env} {prog : Pubkey} {signed : Pubkey → Bool} {L : Ledger}
    {src dst auth mk : Pubkey} {signers : List Pubkey} {amount fee : Nat} {ef : Option Nat}
    {s d : TokenAcct} {m : Mint}
    (so : (L src).owner = prog) (sd : (L src).data = .token s)
    (do_ : (L dst).owner = prog) (dd : (L dst).data = .token d)
    (mo : (L mk).owner = prog) (md : (L mk).data = .mint m) (me : prog = splTokenId → m.exts = [])
    (sf : s.frozen = false) (df : d.frozen = false) (ha : amount ≤ s.amount)
    (sm : s.mint = mk) (dm : d.mint = mk)
    (hfee : feeOf prog env.epoch m amount = .ok fee) (hef : ef = none ∨ ef = some fee)
    (hsp : CanSpend s (pdOf prog m) auth amount) (hau : AuthOk prog L auth signers signed)
    (h1 : fee ≤ amount) (h2 : d.amount + (amount - fee) ≤ u64Max)
    (h3 : fee = 0 ∨ AcctExt.transferFeeAmount ∈ d.exts)
    (h4 : s.isNative = none ∨ amount ≤ (L src).lamports) :
    ∃ L', transferExec env prog signed L src dst auth signers amount (some (mk, m.decimals)) ef =
      .ok L' := by
  obtain ⟨s', hs'⟩ := spendAuth_ok hsp hau
  have hsame := (spendAuth_inv hs').2.2
  have e1 : getToken prog L src = .ok s := getToken_ok_iff.2 ⟨so, sd⟩
  have e2 : getToken prog L dst = .ok d := getToken_ok_iff.2 ⟨do_, dd⟩
  have e3 : getMint prog L mk = .ok m := getMint_ok_iff.2 ⟨mo, md, me⟩
  have e4 : (decide (ef = none) || decide (ef = some fee)) = true := by simpa using hef
  unfold transferExec transferCheck checkMint
  simp only [e1, e2, ok_bind, sf, df, Bool.not_false, Bool.and_self, require_true,
    decide_eq_true ha, sm, dm, decide_true, e3, hfee]
  show ∃ L', (do
    require (decide (ef = none) || decide (ef = some fee)) (Err.token .feeMismatch)
    let s' ← spendAuth prog L s (pdOf prog m) auth signers signed amount
    if src = dst then pure L else transferMove L src dst s' d amount fee) = .ok L'
  rw [e4, require_true, ok_bind, hs', ok_bind]
  split
  · exact ⟨L, rfl⟩
  · exact transferMove_ok h1 h2 h3 (by rw [hsame.isNative]; exact h4)

theorem mintToExec_ok {prog : Pubkey} {signed : Pubkey → Bool} {L : Ledger}
    {mint dst auth : Pubkey} {signers : List Pubkey} {amount : Nat} {d : TokenAcct} {m : Mint}
    (do_ : (L dst).owner = prog) (dd : (L dst).data = .token d)
    (mo : (L mint).owner = prog) (md : (L mint).data = .mint m)
    (me : prog = splTokenId → m.exts = [])
    (df : d.frozen = false) (dn : d.isNative = none) (dm : d.mint = mint)
    (ma : m.mintAuthority = some auth) (hau : AuthOk prog L auth signers signed)
    (h1 : d.amount + amount ≤ u64Max) (h2 : m.supply + amount ≤ u64Max) :
    ∃ L', mintToExec prog signed L mint dst auth signers amount = .ok L' := by
  have e2 : getToken prog L dst = .ok d := getToken_ok_iff.2 ⟨do_, dd⟩
  have e3 : getMint prog L mint = .ok m := getMint_ok_iff.2 ⟨mo, md, me⟩
  have hv : validateOwner prog L auth auth signers signed = .ok () := validateOwner_ok_iff.2 ⟨rfl, hau⟩
  unfold mintToExec
  simp only [e2, ok_bind, df, dn, Bool.not_false, Option.isNone_none, require_true, dm, decide_true,
    e3, ma, okOr_some, hv, decide_eq_true h1, decide_eq_true h2]
  exact ⟨_, rfl⟩

theorem burnExec_ok {prog : Pubkey} {signed : Pubkey → Bool} {L : Ledger}
    {acct mint auth : Pubkey} {signers : List Pubkey} {amount : Nat} {s : TokenAcct} {m : Mint}
    (so : (L acct).owner = prog) (sd : (L acct).data = .token s)
    (mo : (L mint).owner = prog) (md : (L mint).data = .mint m)
    (me : prog = splTokenId → m.exts = [])
    (sf : s.frozen = false) (sn : s.isNative = none) (sm : s.mint = mint)
    (hsp : CanSpend s (pdOf prog m) auth amount) (hau : AuthOk prog L auth signers signed)
    (h1 : amount ≤ s.amount) (h2 : amount ≤ m.supply) :
    ∃ L', burnExec prog signed L acct mint auth signers amount = .ok L' := by
  have e1 : getToken prog L acct = .ok s := getToken_ok_iff.2 ⟨so, sd⟩
  have e3 : getMint prog L mint = .ok m := getMint_ok_iff.2 ⟨mo, md, me⟩
  obtain ⟨s', hs'⟩ := spendAuth_ok hsp hau
  unfold burnExec
  simp only [e1, ok_bind, sf, sn, Bool.not_false, Option.isNone_none, require_true, sm, decide_true,
    e3, decide_eq_true h1, decide_eq_true h2]
  split
  · exact ⟨_, rfl⟩
  · rw [hs', ok_bind]; exact ⟨_, rfl⟩

theorem wrapFee_eq {env : Env} {prog : Pubkey} {m : Mint} {amount fee : Nat}
    (hp : prog = splTokenId ∨ prog = token2022Id) (me : prog = splTokenId → m.exts = [])
    (h : feeOf prog env.epoch m amount = .ok fee) : wrapFee env m amount = fee := by
  unfold feeOf at h
  unfold wrapFee
  split at h
  · split at h
    · rename_i c hc
      simp only [okOr_ok_iff] at h
      simp [hc, h]
    · rename_i hc
      simp only [hc]
      simpa using h
  · rename_i h22
    have := me (hp.resolve_right h22)
    simp only [Mint.transferFee?, this, List.findSome?_nil]
    simpa using h

/-- The well-formed situation in which `amount` can be wrapped, apart from the escrow account. -/
structure CanWrapInto (env : Env) (L : Ledger) (rcp W A uprog wprog src u E tauth : Pubkey)
    (members : List Pubkey) (amount fee : Nat) (s r : TokenAcct) (m w : Mint) : Prop where
  uprogOk : uprog = splTokenId ∨ uprog = token2022Id
  wprogOk : wprog = splTokenId ∨ wprog = token2022Id
  addrW : wrappedMintAddress env.cr u wprog = some W
  addrA : authorityAddress env.cr W = some A
  addrE : associatedTokenAddress env.cr A u uprog = some E
  wNeU : W ≠ u
  -- source
  srcOwner : (L src).owner = uprog
  srcData : (L src).data = .token s
  srcMint : s.mint = u
  srcThawed : s.frozen = false
  enough : amount ≤ s.amount
  native : s.isNative = none ∨ amount ≤ (L src).lamports
  spend : CanSpend s (pdOf uprog m) tauth amount
  approval : BuiltApproval uprog L tauth members
  -- unwrapped mint
  mintOwner : (L u).owner = uprog
  mintData : (L u).data = .mint m
  splExts : uprog = splTokenId → m.exts = []
  feeEq : feeOf uprog env.epoch m amount = .ok fee
  feeLe : fee ≤ amount
  -- wrapped mint, authority and recipient
  wOwner : (L W).owner = wprog
  wData : (L W).data = .mint w
  wExts : wprog = splTokenId → w.exts = []
  wAuth : w.mintAuthority = some A
  aData : (L A).data = .bytes []
  rOwner : (L rcp).owner = wprog
  rData : (L rcp).data = .token r
  rMint : r.mint = W
  rThawed : r.frozen = false
  rNative : r.isNative = none
  rRoom : r.amount + (amount - fee) ≤ u64Max
  supRoom : w.supply + (amount - fee) ≤ u64Max

/-- The well-formed situation in which `amount` can be wrapped: what the token programs need. -/
structure CanWrap (env : Env) (L : Ledger) (rcp W A uprog wprog src u E tauth : Pubkey)
    (members : List Pubkey) (amount fee : Nat) (s d r : TokenAcct) (m w : Mint) : Prop
    extends CanWrapInto env L rcp W A uprog wprog src u E tauth members amount fee s r m w where
  escOwner : (L E).owner = uprog
  escData : (L E).data = .token d
  escMint : d.mint = u
  escTokenOwner : d.owner = A
  escThawed : d.frozen = false
  escFee : fee = 0 ∨ AcctExt.transferFeeAmount ∈ d.exts
  escRoom : d.amount + (amount - fee) ≤ u64Max

/-- **C52** In such a situation the instruction built by `wrap` succeeds, unless a token program
vetoes. -/
theorem wrap_succeeds {env : Env} {L : Ledger} {rcp W A uprog wprog src u E tauth : Pubkey}
    {members : List Pubkey} {amount : UInt64} {fee : Nat} {s d r : TokenAcct} {m w : Mint}
    (hid : env.programId = crateId) (hz : amount ≠ 0)
    (hrej : ∀ p ix sg L, env.reject p ix sg L = none)
    (c : CanWrap env L rcp W A uprog wprog src u E tauth members amount.toNat fee s d r m w) :
    ∃ L', processInstruction env
      (Build.wrap crateId rcp W A uprog wprog src u E tauth members amount).accounts
      (Build.wrap crateId rcp W A uprog wprog src u E tauth members amount).data L = .ok L' := by
  obtain ⟨bump, hA⟩ := authorityAddress_some.1 c.addrA
  simp only [Build.wrap]
  rw [processInstruction_pack]
  generalize hacc : ([Meta.rw rcp false, .rw W false, .ro A false, .ro uprog false, .ro wprog false,
      .rw src false, .ro u false, .rw E false, .ro tauth members.isEmpty] ++
      members.map fun k => Meta.ro k true) = accounts
  have hpar : parseWrap accounts = .ok ⟨.rw rcp false, .rw W false, .ro A false, .ro uprog false,
      .ro wprog false, .rw src false, .ro u false, .rw E false, .ro tauth members.isEmpty,
      members.map fun k => Meta.ro k true⟩ := by rw [← hacc]; rfl
  have hz' : require (decide (amount ≠ 0)) (wrapErr .zeroWrapAmount) = .ok () := by simp [hz]
  have hwf : wrapFee env m amount.toNat = fee := wrapFee_eq c.uprogOk c.splExts c.feeEq
  have ue : unpackToken (L E).data = .ok d := by simpa using c.escData
  have um : unpackMint (L u).data = .ok m := by simpa using c.mintData
  have hs : signerPda env (authoritySignerSeeds W bump) = .ok A := by
    rw [signerPda_ok_iff, hid]; exact findProgramAddress_spec hA
  simp only [dispatch, processWrap, hz', ok_bind, hpar, Meta.rw, Meta.ro, c.addrW, okOr_some,
    decide_true, require_true, hA, c.addrE, ue, c.escTokenOwner, um, hwf, decide_eq_true c.feeLe, hs]
  -- distinctness from the contents
  have nSU : src ≠ u := by rintro rfl; have := c.srcData; rw [c.mintData] at this; cases this
  have nEU : E ≠ u := by rintro rfl; have := c.escData; rw [c.mintData] at this; cases this
  have nRU : rcp ≠ u := by rintro rfl; have := c.rData; rw [c.mintData] at this; cases this
  have nSW : W ≠ src := by rintro rfl; have := c.srcData; rw [c.wData] at this; cases this
  have nEW : W ≠ E := by rintro rfl; have := c.escData; rw [c.wData] at this; cases this
  have nSA : A ≠ src := by rintro rfl; have := c.srcData; rw [c.aData] at this; cases this
  have nEA : A ≠ E := by rintro rfl; have := c.escData; rw [c.aData] at this; cases this
  have nRS : rcp ≠ src := by
    rintro rfl; have := c.rData; rw [c.srcData] at this; cases this
    exact c.wNeU (c.rMint.symm.trans c.srcMint)
  have nRE : rcp ≠ E := by
    rintro rfl; have := c.rData; rw [c.escData] at this; cases this
    exact c.wNeU (c.rMint.symm.trans c.escMint)
  -- the transfer
  have mem : ∀ x ∈ [Meta.rw rcp false, .rw W false, .ro A false, .ro uprog false, .ro wprog false,
      .rw src false, .ro u false, .rw E false, .ro tauth members.isEmpty], x ∈ accounts := by
    intro x hx; rw [← hacc]; exact List.mem_append_left _ hx
  have memS : ∀ x ∈ members, Meta.ro x true ∈ accounts := by
    intro x hx; rw [← hacc]; exact List.mem_append_right _ (List.mem_map.2 ⟨x, hx, rfl⟩)
  obtain ⟨au1, au2, au3⟩ := builtApproval_auth (metas := [.rw src false, .ro u false, .rw E false])
    c.uprogOk c.approval
  have allowed : ∀ m ∈ [Meta.rw src false, .ro u false, .rw E false] ++ authMetas tauth
      (extractMultisig L tauth (members.map fun k => Meta.ro k true)),
      metaAllowed accounts [] m = true := by
    intro x hx
    rcases List.mem_append.1 hx with hx | hx
    · simp only [List.mem_cons, List.not_mem_nil, or_false] at hx
      rcases hx with rfl | rfl | rfl
      · exact metaAllowed_of_mem (mem (.rw src false) (by simp)) rfl (fun _ => rfl)
          (fun h => by simp [Meta.rw] at h)
      · exact metaAllowed_of_mem (mem (.ro u false) (by simp)) rfl (fun h => by simp [Meta.ro] at h)
          (fun h => by simp [Meta.ro] at h)
      · exact metaAllowed_of_mem (mem (.rw E false) (by simp)) rfl (fun _ => rfl)
          (fun h => by simp [Meta.rw] at h)
    · simp only [authMetas, List.mem_cons, List.mem_map] at hx
      rcases hx with rfl | ⟨x', hx', rfl⟩
      · exact metaAllowed_of_mem (mem (.ro tauth members.isEmpty) (by simp)) rfl
          (fun h => by simp [Meta.ro] at h) (fun h => .inr (au3 h))
      · exact metaAllowed_of_mem (memS _ (au2 _ hx')) rfl (fun h => by simp [Meta.ro] at h)
          (fun _ => .inr rfl)
  have borrow : ∀ m ∈ [Meta.rw src false, .ro u false, .rw E false] ++ authMetas tauth
      (extractMultisig L tauth (members.map fun k => Meta.ro k true)),
      m.writable = true → m.key ∉ [u] := by
    intro x hx hw
    rcases List.mem_append.1 hx with hx | hx
    · simp only [List.mem_cons, List.not_mem_nil, or_false] at hx
      rcases hx with rfl | rfl | rfl
      · simpa [Meta.rw] using nSU
      · simp [Meta.ro] at hw
      · simpa [Meta.rw] using nEU
    · simp only [authMetas, List.mem_cons, List.mem_map] at hx
      rcases hx with rfl | ⟨x', hx', rfl⟩ <;> simp [Meta.ro] at hw
  have htr : ∃ L1, wrapTransfer env accounts ⟨.rw rcp false, .rw W false, .ro A false, .ro uprog false,
      .ro wprog false, .rw src false, .ro u false, .rw E false, .ro tauth members.isEmpty,
      members.map fun k => Meta.ro k true⟩ m amount.toNat fee L = .ok L1 := by
    unfold wrapTransfer
    dsimp only [Meta.ro, Meta.rw]
    by_cases h22 : uprog = token2022Id
    · refine Exists.imp (fun L1 h => (if_pos h22).trans h) ?_
      refine Exists.imp (fun L1 h => (invokeToken_enter c.uprogOk ?_
        ⟨_, mem (.ro uprog false) (by simp), rfl⟩ ?_).trans h) ?_
      · exact borrow
      · exact allowed
      unfold tokenExec
      rw [hrej]
      exact transferExec_ok c.srcOwner c.srcData c.escOwner c.escData c.mintOwner c.mintData c.splExts
        c.srcThawed c.escThawed c.enough c.srcMint c.escMint c.feeEq (.inr rfl) c.spend au1
        c.feeLe c.escRoom c.escFee c.native
    · refine Exists.imp (fun L1 h => (if_neg h22).trans h) ?_
      refine Exists.imp (fun L1 h => (invokeToken_enter c.uprogOk ?_
        ⟨_, mem (.ro uprog false) (by simp), rfl⟩ ?_).trans h) ?_
      · exact borrow
      · exact allowed
      unfold tokenExec
      rw [hrej]
      exact transferExec_ok c.srcOwner c.srcData c.escOwner c.escData c.mintOwner c.mintData c.splExts
        c.srcThawed c.escThawed c.enough c.srcMint c.escMint c.feeEq (.inl rfl) c.spend au1
        c.feeLe c.escRoom c.escFee c.native
  obtain ⟨L1, htr⟩ := htr
  obtain ⟨s1, d1, s1', t⟩ := wrapTransfer_inv (a := ⟨.rw rcp false, .rw W false, .ro A false,
      .ro uprog false, .ro wprog false, .rw src false, .ro u false, .rw E false,
      .ro tauth members.isEmpty, members.map fun k => Meta.ro k true⟩) c.mintData
      (by rw [hwf]; exact htr)
  have mv := t.moved
  have oW : L1 W = L W := mv.other nSW nEW
  have oA : L1 A = L A := mv.other nSA nEA
  have oR : L1 rcp = L rcp := mv.other nRS nRE
  simp only [Meta.rw, Meta.ro] at htr
  rw [htr, ok_bind]
  have hmetas : (TokenIx.mintTo W rcp A [] (amount.toNat - fee)).metas =
      [.rw W false, .rw rcp false, .ro A true] := rfl
  rw [invokeToken_enter c.wprogOk]
  · unfold tokenExec
    rw [hrej]
    refine mintToExec_ok (d := r) (m := w) (by rw [oR]; exact c.rOwner) (by rw [oR]; exact c.rData)
      (by rw [oW]; exact c.wOwner) (by rw [oW]; exact c.wData) c.wExts c.rThawed c.rNative c.rMint
      c.wAuth ?_ c.rRoom c.supRoom
    unfold AuthOk multisigAt
    rw [oA, c.aData]
    have : ∀ x : Option Multisig, x = none →
        (match x with
          | some ms => (ms.signers.filter (· ∈ ([] : List Pubkey))).all
              (signedBy (TokenIx.mintTo W rcp A [] (amount.toNat - fee)).metas) = true ∧
              ms.m ≤ (ms.signers.filter (· ∈ ([] : List Pubkey))).length
          | none => signedBy (TokenIx.mintTo W rcp A [] (amount.toNat - fee)).metas A = true) := by
      rintro _ rfl
      rw [hmetas]
      simp [signedBy, Meta.ro]
    apply this
    split <;> rfl
  · rw [hmetas]
    intro x hx hw
    simp only [List.mem_cons, List.not_mem_nil, or_false] at hx
    rcases hx with rfl | rfl | rfl
    · simpa [Meta.rw] using c.wNeU
    · simpa [Meta.rw] using nRU
    · simp [Meta.ro] at hw
  · exact ⟨_, mem (.ro wprog false) (by simp), rfl⟩
  · rw [hmetas]
    intro x hx
    simp only [List.mem_cons, List.not_mem_nil, or_false] at hx
    rcases hx with rfl | rfl | rfl
    · exact metaAllowed_of_mem (mem (.rw W false) (by simp)) rfl (fun _ => rfl)
        (fun h => by simp [Meta.rw] at h)
    · exact metaAllowed_of_mem (mem (.rw rcp false) (by simp)) rfl (fun _ => rfl)
        (fun h => by simp [Meta.rw] at h)
    · exact metaAllowed_of_mem (mem (.ro A false) (by simp)) rfl (fun h => by simp [Meta.ro] at h)
        (fun _ => .inl (by simp [Meta.ro]))

/-- The well-formed situation in which `amount` can be unwrapped. -/
structure CanUnwrap (env : Env) (L : Ledger) (E rcp A u wprog uprog holder W tauth : Pubkey)
    (members : List Pubkey) (amount fee : Nat) (e d h : TokenAcct) (m w : Mint) : Prop where
  uprogOk : uprog = splTokenId ∨ uprog = token2022Id
  wprogOk : wprog = splTokenId ∨ wprog = token2022Id
  addrW : wrappedMintAddress env.cr u wprog = some W
  addrA : authorityAddress env.cr W = some A
  addrE : associatedTokenAddress env.cr A u uprog = some E
  wNeU : W ≠ u
  -- holder and wrapped mint
  hOwner : (L holder).owner = wprog
  hData : (L holder).data = .token h
  hMint : h.mint = W
  hThawed : h.frozen = false
  hNative : h.isNative = none
  enough : amount ≤ h.amount
  spend : CanSpend h (pdOf wprog w) tauth amount
  approval : BuiltApproval wprog L tauth members
  wOwner : (L W).owner = wprog
  wData : (L W).data = .mint w
  wExts : wprog = splTokenId → w.exts = []
  supply : amount ≤ w.supply
  -- escrow
  escOwner : (L E).owner = uprog
  escData : (L E).data = .token e
  escMint : e.mint = u
  escTokenOwner : e.owner = A
  escThawed : e.frozen = false
  escDelegate : e.delegate = none
  escEnough : amount ≤ e.amount
  escNative : e.isNative = none ∨ amount ≤ (L E).lamports
  aData : (L A).data = .bytes []
  -- unwrapped mint and recipient
  mintOwner : (L u).owner = uprog
  mintData : (L u).data = .mint m
  splExts : uprog = splTokenId → m.exts = []
  feeEq : feeOf uprog env.epoch m amount = .ok fee
  feeLe : fee ≤ amount
  rOwner : (L rcp).owner = uprog
  rData : (L rcp).data = .token d
  rMint : d.mint = u
  rThawed : d.frozen = false
  rFee : fee = 0 ∨ AcctExt.transferFeeAmount ∈ d.exts
  rRoom : d.amount + (amount - fee) ≤ u64Max

/-- In such a situation the instruction built by `unwrap` succeeds, unless a token program
vetoes. -/
theorem unwrap_succeeds {env : Env} {L : Ledger} {E rcp A u wprog uprog holder W tauth : Pubkey}
    {members : List Pubkey} {amount : UInt64} {fee : Nat} {e d h : TokenAcct} {m w : Mint}
    (hid : env.programId = crateId) (hz : amount ≠ 0)
    (hrej : ∀ p ix sg L, env.reject p ix sg L = none)
    (c : CanUnwrap env L E rcp A u wprog uprog holder W tauth members amount.toNat fee e d h m w) :
    ∃ L', processInstruction env
      (Build.unwrap crateId E rcp A u wprog uprog holder W tauth members amount).accounts
      (Build.unwrap crateId E rcp A u wprog uprog holder W tauth members amount).data L = .ok L' := by
  obtain ⟨bump, hA⟩ := authorityAddress_some.1 c.addrA
  simp only [Build.unwrap]
  rw [processInstruction_pack]
  generalize hacc : ([Meta.rw E false, .rw rcp false, .ro A false, .ro u false, .ro wprog false,
      .ro uprog false, .rw holder false, .rw W false, .ro tauth members.isEmpty] ++
      members.map fun k => Meta.ro k true) = accounts
  have hpar : parseUnwrap accounts = .ok ⟨.rw E false, .rw rcp false, .ro A false, .ro u false,
      .ro wprog false, .ro uprog false, .rw holder false, .rw W false, .ro tauth members.isEmpty,
      members.map fun k => Meta.ro k true⟩ := by rw [← hacc]; rfl
  have hz' : require (decide (amount ≠ 0)) (wrapErr .zeroWrapAmount) = .ok () := by simp [hz]
  have hs : signerPda env (authoritySignerSeeds W bump) = .ok A := by
    rw [signerPda_ok_iff, hid]; exact findProgramAddress_spec hA
  simp only [dispatch, processUnwrap, hz', ok_bind, hpar, Meta.rw, Meta.ro, c.addrW, okOr_some,
    decide_true, require_true, hA, c.addrE]
  -- distinctness from the contents
  have nHU : u ≠ holder := by rintro rfl; have := c.hData; rw [c.mintData] at this; cases this
  have nEU : E ≠ u := by rintro rfl; have := c.escData; rw [c.mintData] at this; cases this
  have nRU : rcp ≠ u := by rintro rfl; have := c.rData; rw [c.mintData] at this; cases this
  have nRW : rcp ≠ W := by rintro rfl; have := c.rData; rw [c.wData] at this; cases this
  have nEW : E ≠ W := by rintro rfl; have := c.escData; rw [c.wData] at this; cases this
  have nHA : A ≠ holder := by rintro rfl; have := c.hData; rw [c.aData] at this; cases this
  have nWA : A ≠ W := by rintro rfl; have := c.wData; rw [c.aData] at this; cases this
  have nRH : rcp ≠ holder := by
    rintro rfl; have := c.rData; rw [c.hData] at this; cases this
    exact c.wNeU (c.hMint.symm.trans c.rMint)
  have nEH : E ≠ holder := by
    rintro rfl; have := c.hData; rw [c.escData] at this; cases this
    exact c.wNeU (c.hMint.symm.trans c.escMint)
  have mem : ∀ x ∈ [Meta.rw E false, .rw rcp false, .ro A false, .ro u false, .ro wprog false,
      .ro uprog false, .rw holder false, .rw W false, .ro tauth members.isEmpty], x ∈ accounts := by
    intro x hx; rw [← hacc]; exact List.mem_append_left _ hx
  have memS : ∀ x ∈ members, Meta.ro x true ∈ accounts := by
    intro x hx; rw [← hacc]; exact List.mem_append_right _ (List.mem_map.2 ⟨x, hx, rfl⟩)
  obtain ⟨au1, au2, au3⟩ := builtApproval_auth (metas := [.rw holder false, .rw W false])
    c.wprogOk c.approval
  -- the burn
  have hburn : ∃ L1, invokeToken env accounts [] [] wprog (.burn holder W tauth
      (extractMultisig L tauth (members.map fun k => Meta.ro k true)) amount.toNat) L = .ok L1 := by
    refine Exists.imp (fun L1 h => (invokeToken_enter c.wprogOk ?_
        ⟨_, mem (.ro wprog false) (by simp), rfl⟩ ?_).trans h) ?_
    · intro x _ _; simp
    · intro x hx
      have hx : x ∈ [Meta.rw holder false, .rw W false] ++ authMetas tauth
        (extractMultisig L tauth (members.map fun k => Meta.ro k true)) := hx
      rcases List.mem_append.1 hx with hx | hx
      · simp only [List.mem_cons, List.not_mem_nil, or_false] at hx
        rcases hx with rfl | rfl
        · exact metaAllowed_of_mem (mem (.rw holder false) (by simp)) rfl (fun _ => rfl)
            (fun h => by simp [Meta.rw] at h)
        · exact metaAllowed_of_mem (mem (.rw W false) (by simp)) rfl (fun _ => rfl)
            (fun h => by simp [Meta.rw] at h)
      · simp only [authMetas, List.mem_cons, List.mem_map] at hx
        rcases hx with rfl | ⟨x', hx', rfl⟩
        · exact metaAllowed_of_mem (mem (.ro tauth members.isEmpty) (by simp)) rfl
            (fun h => by simp [Meta.ro] at h) (fun h => .inr (au3 h))
        · exact metaAllowed_of_mem (memS _ (au2 _ hx')) rfl (fun h => by simp [Meta.ro] at h)
            (fun _ => .inr rfl)
    unfold tokenExec
    rw [hrej]
    exact burnExec_ok c.hOwner c.hData c.wOwner c.wData c.wExts c.hThawed c.hNative c.hMint c.spend
      au1 c.enough c.supply
  obtain ⟨L1, hb⟩ := hburn
  have hb1 := hb
  simp only [Meta.ro] at hb1
  rw [hb1, ok_bind]
  obtain ⟨_, _, _, _, hb'⟩ := invokeToken_inv hb
  unfold tokenExec at hb'
  rw [hrej] at hb'
  obtain ⟨_, _, _, _, _, _, _, _, _, _, _, _, _, _, hL1⟩ := burnExec_inv hb'
  have keep : ∀ k, k ≠ holder → k ≠ W → L1 k = L k := by
    intro k h1 h2
    first
      | rw [hL1.1]; simp [Ledger.setData_apply, h1, h2]
      | rw [hL1]; simp [Ledger.setData_apply, h1, h2]
  have oE := keep E nEH nEW
  have oR := keep rcp nRH nRW
  have oU := keep u nHU (Ne.symm c.wNeU)
  have oA := keep A nHA nWA
  have um : unpackMint (L1 u).data = .ok m := by rw [oU]; simpa using c.mintData
  have hx : extractMultisig L1 A (members.map fun k => Meta.ro k true) = [] := by
    unfold extractMultisig
    rw [oA, c.aData]
  simp only [Meta.ro] at hx
  rw [um, ok_bind, hs, ok_bind, hx]
  have hmetas : (TokenIx.transferChecked E u rcp A [] amount.toNat m.decimals).metas =
      [.rw E false, .ro u false, .rw rcp false, .ro A true] := rfl
  rw [invokeToken_enter c.uprogOk]
  · unfold tokenExec
    rw [hrej]
    refine transferExec_ok (s := e) (d := d) (m := m) (by rw [oE]; exact c.escOwner)
      (by rw [oE]; exact c.escData)
      (by rw [oR]; exact c.rOwner) (by rw [oR]; exact c.rData)
      (by rw [oU]; exact c.mintOwner) (by rw [oU]; exact c.mintData) c.splExts c.escThawed c.rThawed
      c.escEnough c.escMint c.rMint c.feeEq (.inl rfl) (.inr (.inr ⟨by rw [c.escDelegate]; simp,
        c.escTokenOwner⟩)) ?_ c.feeLe c.rRoom c.rFee (by rw [oE]; exact c.escNative)
    unfold AuthOk multisigAt
    rw [oA, c.aData]
    have : ∀ x : Option Multisig, x = none →
        (match x with
          | some ms => (ms.signers.filter (· ∈ ([] : List Pubkey))).all
              (signedBy (TokenIx.transferChecked E u rcp A [] amount.toNat m.decimals).metas) = true ∧
              ms.m ≤ (ms.signers.filter (· ∈ ([] : List Pubkey))).length
          | none => signedBy
              (TokenIx.transferChecked E u rcp A [] amount.toNat m.decimals).metas A = true) := by
      rintro _ rfl
      rw [hmetas]
      simp [signedBy, Meta.ro]
    apply this
    split <;> rfl
  · rw [hmetas]
    intro x hx hw
    simp only [List.mem_cons, List.not_mem_nil, or_false] at hx
    rcases hx with rfl | rfl | rfl | rfl
    · simpa [Meta.rw] using nEU
    · simp [Meta.ro] at hw
    · simpa [Meta.rw] using nRU
    · simp [Meta.ro] at hw
  · exact ⟨_, mem (.ro uprog false) (by simp), rfl⟩
  · rw [hmetas]
    intro x hx
    simp only [List.mem_cons, List.not_mem_nil, or_false] at hx
    rcases hx with rfl | rfl | rfl | rfl
    · exact metaAllowed_of_mem (mem (.rw E false) (by simp)) rfl (fun _ => rfl)
        (fun h => by simp [Meta.rw] at h)
    · exact metaAllowed_of_mem (mem (.ro u false) (by simp)) rfl (fun h => by simp [Meta.ro] at h)
        (fun h => by simp [Meta.ro] at h)
    · exact metaAllowed_of_mem (mem (.rw rcp false) (by simp)) rfl (fun _ => rfl)
        (fun h => by simp [Meta.rw] at h)
    · exact metaAllowed_of_mem (mem (.ro A false) (by simp)) rfl (fun h => by simp [Meta.ro] at h)
        (fun _ => .inl (by simp [Meta.ro]))

namespace Example

/-- A situation meeting `CanWrap` (a fee-bearing mint, 1000 tokens, fee 10). -/
example : CanWrap env L0 rcp W A token2022Id splTokenId src u E user [] 1000 10
    (acct u user 5000 [.transferFeeAmount]) (acct u A 10 goodExts) (acct W user 10 [])
    (uMint [.transferFeeConfig feeCfg]) (wMint 10) := by
  refine ⟨?_, ?_, ?_, ?_, ?_, ?_, ?_, ?_⟩
  · constructor <;> first
      | decide +kernel
      | exact .inl ⟨rfl, fun ms h => by
          rw [show L0 user = Account.empty by decide +kernel] at h; cases h⟩
      | exact .inr (.inr ⟨by decide, by decide⟩)
  all_goals decide +kernel

/-- A situation meeting `CanUnwrap`. -/
example : CanUnwrap env L0 E src A u splTokenId token2022Id rcp W user [] 7 1
    (acct u A 10 goodExts) (acct u user 5000 [.transferFeeAmount]) (acct W user 10 [])
    (uMint [.transferFeeConfig feeCfg]) (wMint 10) := by
  constructor <;> first
    | decide +kernel
    | exact .inl ⟨rfl, fun ms h => by
        rw [show L0 user = Account.empty by decide +kernel] at h; cases h⟩
    | exact .inr (.inr ⟨by decide, by decide⟩)

end Example

end TokenWrap
