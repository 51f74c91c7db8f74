import Verif.WorldKeys
/-!
# Conservation of tokens

For every mint that is not native SOL: the tokens recorded in all accounts (public and confidential
balances, withheld transfer fees) add up exactly to the mint's supply.  Every step keeps this.
-/

set_option linter.unusedSimpArgs false

namespace TokenWrap

open scoped BigOperators

/-- Transfer fees collected in the mint itself. -/
def feeHeld : List MintExt → Nat
  | [] => 0
  | .transferFeeConfig c :: _ => c.withheld
  | _ :: rest => feeHeld rest

/-- Tokens of mint `u` recorded in account `a` at address `k`: balances and withheld fees of a token
account, or the fees collected in the mint itself. -/
def tokensIn (u k : Pubkey) (a : Account) : Nat :=
  if isTokenProgram a.owner then
    match a.data with
    | .token t => if t.mint = u then t.amount + t.confidential + t.withheld else 0
    | .mint m => if k = u then feeHeld m.exts else 0
    | .preMint _ exts => if k = u then feeHeld exts else 0
    | _ => 0
  else 0

/-- Tokens of mint `u` recorded at address `k`. -/
def tokensAt (u : Pubkey) (L : Ledger) (k : Pubkey) : Nat := tokensIn u k (L k)

/-- The supply recorded in a mint account of a token program. -/
def supplyIn (a : Account) : Nat :=
  if isTokenProgram a.owner then
    match a.data with
    | .mint m => m.supply
    | _ => 0
  else 0

/-- The supply of mint `u`; 0 if `u` is not a mint. -/
def mintSupply (u : Pubkey) (L : Ledger) : Nat := supplyIn (L u)

/-- The tokens of mint `u` recorded in all accounts add up exactly to the mint's supply: outside some
finite set of addresses nothing is recorded, and inside it the sum is the supply. -/
def Conserved (u : Pubkey) (L : Ledger) : Prop :=
  ∃ F : Finset Pubkey, (∀ k, k ∉ F → tokensAt u L k = 0) ∧ ∑ k ∈ F, tokensAt u L k = mintSupply u L

/-! ## Single steps -/

/-- A change of the ledger that keeps the balance of mint `u`. -/
inductive Flow (u : Pubkey) (L L' : Ledger) : Prop
  | even (S : Finset Pubkey) (out : ∀ k, k ∉ S → tokensAt u L' k = tokensAt u L k)
      (bal : ∑ k ∈ S, tokensAt u L' k + mintSupply u L = ∑ k ∈ S, tokensAt u L k + mintSupply u L')
  | gone (before : mintSupply u L = 0) (after : mintSupply u L' = 0)
      (le : ∀ k, tokensAt u L' k ≤ tokensAt u L k)

section
variable {cr : Crypto} {u : Pubkey} {L L' : Ledger}

theorem Conserved.flow (h : Conserved u L) (f : Flow u L L') : Conserved u L' := by
  classical
  obtain ⟨F, hout, hsum⟩ := h
  cases f with
  | even S out bal =>
    refine ⟨F ∪ S, ?_, ?_⟩
    · intro k hk
      rw [Finset.mem_union, not_or] at hk
      rw [out k hk.2]; exact hout k hk.1
    · have e1 : ∑ k ∈ F ∪ S, tokensAt u L' k = ∑ k ∈ F \ S, tokensAt u L' k + ∑ k ∈ S, tokensAt u L' k := by
        rw [← Finset.sdiff_union_self_eq_union, Finset.sum_union Finset.sdiff_disjoint]
      have e2 : ∑ k ∈ F ∪ S, tokensAt u L k = ∑ k ∈ F \ S, tokensAt u L k + ∑ k ∈ S, tokensAt u L k := by
        rw [← Finset.sdiff_union_self_eq_union, Finset.sum_union Finset.sdiff_disjoint]
      have e3 : ∑ k ∈ F \ S, tokensAt u L' k = ∑ k ∈ F \ S, tokensAt u L k :=
        Finset.sum_congr rfl fun k hk => out k (Finset.mem_sdiff.1 hk).2
      have e4 : ∑ k ∈ F ∪ S, tokensAt u L k = ∑ k ∈ F, tokensAt u L k := by
        refine (Finset.sum_subset Finset.subset_union_left ?_).symm
        intro k _ hk; exact hout k hk
      omega
  | gone before after le =>
    have z : ∀ k, tokensAt u L' k = 0 := by
      intro k
      by_cases hk : k ∈ F
      · have := Finset.single_le_sum (f := tokensAt u L) (fun _ _ => Nat.zero_le _) hk
        have := le k
        omega
      · have := le k; have := hout k hk; omega
    exact ⟨∅, fun k _ => z k, by simp [after]⟩

theorem tokensAt_kept {k : Pubkey} (h : Kept L L' k) : tokensAt u L' k = tokensAt u L k := by
  unfold tokensAt tokensIn; rw [h.1, h.2]

theorem mintSupply_kept (h : Kept L L' u) : mintSupply u L' = mintSupply u L := by
  unfold mintSupply supplyIn; rw [h.1, h.2]

theorem Flow.of_kept (h : ∀ k, Kept L L' k) : Flow u L L' :=
  .even ∅ (fun k _ => tokensAt_kept (h k)) (by simp [mintSupply_kept (h u)])

theorem Flow.rfl' : Flow u L L := .of_kept fun _ => .rfl'

/-- One account changes. -/
theorem Flow.one {k : Pubkey} (hf : ∀ x, x ≠ k → Kept L L' x)
    (h : tokensIn u k (L' k) = tokensIn u k (L k)) (hs : k = u → supplyIn (L' k) = supplyIn (L k)) :
    Flow u L L' := by
  refine .even ∅ (fun x _ => ?_) ?_
  · by_cases hx : x = k
    · subst hx; exact h
    · exact tokensAt_kept (hf x hx)
  · have : mintSupply u L' = mintSupply u L := by
      by_cases hx : u = k
      · subst hx; exact hs rfl
      · exact mintSupply_kept (hf u hx)
    simp [this]

/-- Two accounts change. -/
theorem Flow.two {k l : Pubkey} (hne : k ≠ l) (hf : ∀ x, x ≠ k → x ≠ l → Kept L L' x)
    (h : tokensIn u k (L' k) + tokensIn u l (L' l) + mintSupply u L =
      tokensIn u k (L k) + tokensIn u l (L l) + mintSupply u L') : Flow u L L' := by
  classical
  refine .even {k, l} (fun x hx => ?_) ?_
  · simp only [Finset.mem_insert, Finset.mem_singleton, not_or] at hx
    exact tokensAt_kept (hf x hx.1 hx.2)
  · rw [Finset.sum_pair hne, Finset.sum_pair hne]; exact h

theorem tokensIn_token {k : Pubkey} {a : Account} {t : TokenAcct} (ho : isTokenProgram a.owner = true)
    (hd : a.data = .token t) :
    tokensIn u k a = if t.mint = u then t.amount + t.confidential + t.withheld else 0 := by
  unfold tokensIn; rw [if_pos ho, hd]

theorem tokensIn_mint {k : Pubkey} {a : Account} {m : Mint} (ho : isTokenProgram a.owner = true)
    (hd : a.data = .mint m) : tokensIn u k a = if k = u then feeHeld m.exts else 0 := by
  unfold tokensIn; rw [if_pos ho, hd]

theorem tokensIn_pre {k : Pubkey} {a : Account} {n : Nat} {e : List MintExt}
    (ho : isTokenProgram a.owner = true) (hd : a.data = .preMint n e) :
    tokensIn u k a = if k = u then feeHeld e else 0 := by
  unfold tokensIn; rw [if_pos ho, hd]

theorem tokensIn_bytes {k : Pubkey} {a : Account} {b : Bytes} (hd : a.data = .bytes b) :
    tokensIn u k a = 0 := by
  unfold tokensIn; rw [hd]; simp

theorem tokensIn_multisig {k : Pubkey} {a : Account} {ms : Multisig} (hd : a.data = .multisig ms) :
    tokensIn u k a = 0 := by
  unfold tokensIn; rw [hd]; simp

theorem tokensIn_owner {k : Pubkey} {a : Account} (h : isTokenProgram a.owner = false) :
    tokensIn u k a = 0 := by
  unfold tokensIn; rw [h]; simp

theorem supplyIn_mint {a : Account} {m : Mint} (ho : isTokenProgram a.owner = true)
    (hd : a.data = .mint m) : supplyIn a = m.supply := by
  unfold supplyIn; rw [if_pos ho, hd]

theorem supplyIn_other {a : Account} (hd : ∀ m, a.data ≠ .mint m) : supplyIn a = 0 := by
  unfold supplyIn
  split
  · split
    · rename_i m hm; exact absurd hm (hd m)
    · rfl
  · rfl

theorem supplyIn_token {a : Account} {t : TokenAcct} (hd : a.data = .token t) : supplyIn a = 0 :=
  supplyIn_other (by rw [hd]; simp)

theorem supplyIn_bytes {a : Account} {b : Bytes} (hd : a.data = .bytes b) : supplyIn a = 0 :=
  supplyIn_other (by rw [hd]; simp)

theorem supplyIn_owner {a : Account} (h : isTokenProgram a.owner = false) : supplyIn a = 0 := by
  unfold supplyIn; rw [h]; simp

/-! ## Fee configurations -/

theorem feeHeld_none {l : List MintExt}
    (h : l.findSome? (fun | .transferFeeConfig c => some c | _ => none) = (none : Option TransferFeeConfig)) :
    feeHeld l = 0 := by
  induction l with
  | nil => rfl
  | cons e l ih => cases e <;> simp_all [feeHeld]

theorem feeHeld_some {m : Mint} {c : TransferFeeConfig} (h : m.transferFee? = some c) :
    feeHeld m.exts = c.withheld := by
  unfold Mint.transferFee? at h
  generalize m.exts = l at h
  induction l with
  | nil => cases h
  | cons e l ih => cases e <;> simp_all [feeHeld]

theorem feeHeld_mapFee {m : Mint} {c : TransferFeeConfig} (f : TransferFeeConfig → TransferFeeConfig)
    (h : m.transferFee? = some c) : feeHeld (mapFee f m.exts) = (f c).withheld := by
  unfold Mint.transferFee? at h
  generalize m.exts = l at h
  induction l with
  | nil => cases h
  | cons e l ih => cases e <;> simp_all [feeHeld, mapFee]

theorem feeHeld_setPointer (a : Option Pubkey) (l : List MintExt) :
    feeHeld (setPointer a l) = feeHeld l := by
  induction l with
  | nil => rfl
  | cons e l ih => cases e <;> simp [feeHeld, setPointer, ih]

theorem feeHeld_mapMetadata (f : TokenMetadata → TokenMetadata) (l : List MintExt) :
    feeHeld (mapMetadata f l) = feeHeld l := by
  induction l with
  | nil => rfl
  | cons e l ih => cases e <;> simp [feeHeld, mapMetadata, ih]

theorem feeHeld_append {l : List MintExt} {e : MintExt} (h : feeHeld [e] = 0) :
    feeHeld (l ++ [e]) = feeHeld l := by
  induction l with
  | nil => exact h
  | cons x l ih => cases x <;> simp [feeHeld, ih]

theorem feeHeld_initOk {e : MintExt} (h : e.initOk = true) : feeHeld [e] = 0 := by
  cases e <;> simp_all [feeHeld, MintExt.initOk]

/-- Extensions that agree on what they withhold. -/
theorem feeHeld_cons {e e' : MintExt} {l l' : List MintExt}
    (h : e'.tag = e.tag) (hw : feeHeld [e'] = feeHeld [e]) (hl : feeHeld l' = feeHeld l) :
    feeHeld (e' :: l') = feeHeld (e :: l) := by
  cases e <;> cases e' <;> simp_all [feeHeld, MintExt.tag] <;> omega

theorem feeHeld_updateExtAuthority {kind : AuthorityType} {new cur : Option Pubkey}
    {l l' : List MintExt} (h : updateExtAuthority kind new l = some (cur, l')) :
    feeHeld l' = feeHeld l := by
  induction l generalizing l' with
  | nil => cases h
  | cons e l ih =>
    unfold updateExtAuthority at h
    split at h
    · rename_i c e' he
      cases h
      refine feeHeld_cons (authorityUpdate_spec he).2 ?_ rfl
      cases e <;> simp only [MintExt.authorityUpdate] at he <;> (try cases he) <;>
        (repeat' split at he) <;> cases he <;> rfl
    · cases hr : updateExtAuthority kind new l with
      | none => rw [hr] at h; cases h
      | some p =>
        rw [hr] at h
        cases h
        exact feeHeld_cons rfl rfl (ih hr)

theorem feeHeld_updateExtSettings {freeze cur : Option Pubkey} {new : MintExt}
    {l l' : List MintExt} (h : updateExtSettings freeze new l = some (cur, l')) :
    feeHeld l' = feeHeld l := by
  induction l generalizing l' with
  | nil => cases h
  | cons e l ih =>
    unfold updateExtSettings at h
    split at h
    · rename_i c e' he
      cases h
      refine feeHeld_cons (settingsUpdate_spec he).2 ?_ rfl
      unfold MintExt.settingsUpdate at he
      split at he <;> cases he <;> rfl
    · cases hr : updateExtSettings freeze new l with
      | none => rw [hr] at h; cases h
      | some p =>
        rw [hr] at h
        cases h
        exact feeHeld_cons rfl rfl (ih hr)

/-! ## Token-program instructions -/

/-- Replacing a token account by one with the same total. -/
theorem Flow.setTok {prog k : Pubkey} {t t' : TokenAcct} (hp : isTokenProgram prog = true)
    (ho : (L k).owner = prog) (hd : (L k).data = .token t) (hm : t'.mint = t.mint)
    (ht : t.mint = u → t'.amount + t'.confidential + t'.withheld = t.amount + t.confidential + t.withheld) :
    Flow u L (L.setData k (.token t')) := by
  refine .one (k := k) (fun _ h => kept_setData h) ?_ ?_
  · rw [tokensIn_token (t := t') (by simpa [ho] using hp) (setData_data _ _ _),
      tokensIn_token (by rw [ho]; exact hp) hd, hm]
    split
    · rename_i h; exact ht h
    · rfl
  · intro _
    rw [supplyIn_token (setData_data _ _ _), supplyIn_token hd]

/-- Replacing a mint by one with the same supply and collected fees. -/
theorem Flow.setMint {prog k : Pubkey} {m m' : Mint} (hp : isTokenProgram prog = true)
    (ho : (L k).owner = prog) (hd : (L k).data = .mint m) (hs : m'.supply = m.supply)
    (hf : feeHeld m'.exts = feeHeld m.exts) : Flow u L (L.setData k (.mint m')) := by
  have h1 : isTokenProgram (L.setData k (.mint m') k).owner = true := by simpa [ho] using hp
  refine .one (k := k) (fun _ h => kept_setData h) ?_ ?_
  · rw [tokensIn_mint h1 (setData_data _ _ _), tokensIn_mint (by rw [ho]; exact hp) hd, hf]
  · intro _
    rw [supplyIn_mint h1 (setData_data _ _ _), supplyIn_mint (by rw [ho]; exact hp) hd, hs]

variable {env : Env} {prog : Pubkey} {signed : Pubkey → Bool}

theorem flow_transferMove {src dst auth : Pubkey} {signers : List Pubkey} {amount fee : Nat}
    {s d s' : TokenAcct} {pd : Option Pubkey} (hp : isTokenProgram prog = true)
    (so : (L src).owner = prog) (sd : (L src).data = .token s)
    (do_ : (L dst).owner = prog) (dd : (L dst).data = .token d)
    (ham : amount ≤ s.amount) (hm : s.mint = d.mint)
    (hsp : spendAuth prog L s pd auth signers signed amount = .ok s')
    (hfin : (src = dst ∧ L' = L) ∨ (src ≠ dst ∧ transferMove L src dst s' d amount fee = .ok L')) :
    Flow u L L' := by
  rcases hfin with ⟨_, rfl⟩ | ⟨hne, hmv⟩
  · exact .rfl'
  · obtain ⟨_, _, a3⟩ := spendAuth_inv hsp
    obtain ⟨m1, m2, m3, m4, m5, m6, m7, m8, m9⟩ := transferMove_inv hne hmv
    have hs : mintSupply u L' = mintSupply u L := by
      unfold mintSupply
      by_cases h1 : u = src
      · subst h1; rw [supplyIn_token m4, supplyIn_token sd]
      · by_cases h2 : u = dst
        · subst h2; rw [supplyIn_token m6, supplyIn_token dd]
        · rw [m8 u h1 h2]
    refine .two hne (fun x h1 h2 => .of_eq (m8 x h1 h2)) ?_
    rw [hs, tokensIn_token (by rw [m5, so]; exact hp) m4, tokensIn_token (by rw [m7, do_]; exact hp) m6,
      tokensIn_token (by rw [so]; exact hp) sd, tokensIn_token (by rw [do_]; exact hp) dd]
    dsimp only
    rw [a3.mint, a3.amount, a3.confidential, a3.withheld, hm]
    split <;> omega

theorem flow_transfer {src dst auth : Pubkey} {signers : List Pubkey} {amount : Nat}
    {chk : Option (Pubkey × UInt8)} {ef : Option Nat} (hp : isTokenProgram prog = true)
    (h : transferExec env prog signed L src dst auth signers amount chk ef = .ok L') :
    Flow u L L' := by
  cases chk with
  | none =>
    obtain ⟨s, d, s', e1, e2, e3, e4, e5, e6, e7, e8, e9, e10⟩ := transferExec_inv_unchecked h
    exact flow_transferMove hp e1 e2 e3 e4 e7 e8 e9 e10
  | some p =>
    obtain ⟨s, d, m, fee, s', e1, e2, e3, e4, e5, e6, e7, e8, e9, e10, e11, e12, _, e13, e14, e15,
      e16⟩ := transferExec_inv (mk := p.1) (dec := p.2) h
    exact flow_transferMove hp e1 e2 e3 e4 e7 (e8.trans e9.symm) e15 e16

/-- A token account and its mint change together. -/
theorem Flow.tokMint {mk k : Pubkey} {m m' : Mint} {t t' : TokenAcct} (hp : isTokenProgram prog = true)
    (mo : (L mk).owner = prog) (md : (L mk).data = .mint m)
    (to_ : (L k).owner = prog) (td : (L k).data = .token t) (tm : t.mint = mk) (tm' : t'.mint = mk)
    (bal : t'.amount + t'.confidential + t'.withheld + feeHeld m'.exts + m.supply =
      t.amount + t.confidential + t.withheld + feeHeld m.exts + m'.supply) :
    Flow u L ((L.setData k (.token t')).setData mk (.mint m')) := by
  have hne : k ≠ mk := by rintro rfl; rw [md] at td; cases td
  have d1 : (((L.setData k (.token t')).setData mk (.mint m')) k).data = .token t' := by
    rw [Ledger.setData_ne _ _ hne]; exact setData_data _ _ _
  have o1 : isTokenProgram (((L.setData k (.token t')).setData mk (.mint m')) k).owner = true := by
    rw [Ledger.setData_ne _ _ hne]; simpa [to_] using hp
  have d2 : (((L.setData k (.token t')).setData mk (.mint m')) mk).data = .mint m' := setData_data _ _ _
  have o2 : isTokenProgram (((L.setData k (.token t')).setData mk (.mint m')) mk).owner = true := by
    simpa [Ledger.setData_ne _ _ hne.symm, mo] using hp
  refine .two hne (fun x h1 h2 => .of_eq ?_) ?_
  · rw [Ledger.setData_ne _ _ h2, Ledger.setData_ne _ _ h1]
  rw [tokensIn_token o1 d1, tokensIn_mint o2 d2, tokensIn_token (by rw [to_]; exact hp) td,
    tokensIn_mint (by rw [mo]; exact hp) md, tm, tm']
  unfold mintSupply
  by_cases hu : mk = u
  · subst hu
    rw [supplyIn_mint o2 d2, supplyIn_mint (by rw [mo]; exact hp) md]
    simp only [if_true]; omega
  · simp only [hu, if_false]
    by_cases hu' : u = k
    · subst hu'; rw [supplyIn_token d1, supplyIn_token td]
    · rw [Ledger.setData_ne _ _ (Ne.symm hu), Ledger.setData_ne _ _ hu']

theorem flow_mintTo {mint dst auth : Pubkey} {signers : List Pubkey} {amount : Nat}
    (hp : isTokenProgram prog = true)
    (h : mintToExec prog signed L mint dst auth signers amount = .ok L') : Flow u L L' := by
  obtain ⟨d, m, h1, h2, h3, h4, h5, h6, h7, h8, h9, h10, h11, rfl⟩ := mintToExec_inv h
  exact .tokMint hp h3 h4 h1 h2 h7 h7 (by dsimp only; omega)

theorem flow_burn {acct mint auth : Pubkey} {signers : List Pubkey} {amount : Nat}
    (hp : isTokenProgram prog = true)
    (h : burnExec prog signed L acct mint auth signers amount = .ok L') : Flow u L L' := by
  obtain ⟨s, m, s', h1, h2, h3, h4, h5, h6, h7, h8, h9, h10, h11, rfl⟩ := burnExec_inv h
  exact .tokMint hp h3 h4 h1 h2 h7 (h11.mint.trans h7)
    (by dsimp only; rw [h11.confidential, h11.withheld]; omega)

theorem flow_close {acct dst auth : Pubkey} {signers : List Pubkey} (hp : isTokenProgram prog = true)
    (hf : AllFunded L) (hu : u ∉ nativeMints)
    (h : closeAccountExec prog signed L acct dst auth signers = .ok L') : Flow u L L' := by
  obtain ⟨h1, h2, rfl, h4⟩ := closeAccountExec_inv h
  have hk : ∀ x, x ≠ acct → Kept L (closeOut L acct dst) x := fun x hx => kept_closeOut h1 hx
  have hgone : (closeOut L acct dst) acct = Account.empty := closeOut_same ..
  have ho : isTokenProgram (L acct).owner = true := by rw [h2]; exact hp
  rcases h4 with ⟨t, t1, t2, t3, t4, t5⟩ | ⟨m, ca, m1, m2, m3, m4, m5, m6⟩
  · refine .one hk ?_ ?_
    · rw [hgone, tokensIn_owner system_not_token, tokensIn_token ho t1]
      split
      · rename_i hm
        have hn : t.isNative = none := by
          by_contra hx
          exact hu (hm ▸ (((hf acct).tok t ho t1).native.1 hx))
        rw [hn] at t2
        simp at t2
        omega
      · rfl
    · intro _; rw [hgone, supplyIn_owner system_not_token, supplyIn_token t1]
  · by_cases hx : acct = u
    · subst hx
      refine .gone ?_ ?_ ?_
      · unfold mintSupply; rw [supplyIn_mint ho m1]; exact m6
      · unfold mintSupply; rw [hgone]; exact supplyIn_owner system_not_token
      · intro k
        by_cases hk' : k = acct
        · subst hk'; unfold tokensAt; rw [hgone, tokensIn_owner system_not_token]; exact Nat.zero_le _
        · rw [tokensAt_kept (hk k hk')]
    · refine .one hk ?_ (fun h => absurd h hx)
      rw [hgone, tokensIn_owner system_not_token, tokensIn_mint ho m1, if_neg hx]

theorem flow_approve {src delegate auth : Pubkey} {signers : List Pubkey} {amount : Nat}
    (hp : isTokenProgram prog = true)
    (h : approveExec prog signed L src delegate auth signers amount = .ok L') : Flow u L L' := by
  unfold approveExec at h
  simp only [bind_ok_iff, require_ok_iff, getToken_ok_iff, pure_ok_iff, validateOwner_ok_iff] at h
  obtain ⟨t, ⟨h1, h2⟩, _, _, _, _, rfl⟩ := h
  exact .setTok hp h1 h2 rfl (fun _ => rfl)

theorem flow_revoke {src auth : Pubkey} {signers : List Pubkey} (hp : isTokenProgram prog = true)
    (h : revokeExec prog signed L src auth signers = .ok L') : Flow u L L' := by
  unfold revokeExec at h
  simp only [bind_ok_iff, require_ok_iff, getToken_ok_iff, pure_ok_iff, validateOwner_ok_iff] at h
  obtain ⟨t, ⟨h1, h2⟩, _, _, _, _, rfl⟩ := h
  exact .setTok hp h1 h2 rfl (fun _ => rfl)

theorem flow_setAuthority {acct auth : Pubkey} {kind : AuthorityType} {new : Option Pubkey}
    {signers : List Pubkey} (hp : isTokenProgram prog = true)
    (h : setAuthorityExec prog signed L acct kind new auth signers = .ok L') : Flow u L L' := by
  unfold setAuthorityExec at h
  simp only [bind_ok_iff, require_ok_iff, decide_eq_true_eq] at h
  obtain ⟨_, h1, h⟩ := h
  split at h
  · rename_i t ht
    simp only [bind_ok_iff, require_ok_iff, decide_eq_true_eq] at h
    obtain ⟨_, _, h⟩ := h
    split at h
    · simp only [bind_ok_iff, require_ok_iff, validateOwner_ok_iff, okOr_ok_iff, pure_ok_iff] at h
      obtain ⟨_, _, _, _, o, _, rfl⟩ := h
      exact .setTok hp h1 ht rfl (fun _ => rfl)
    · split at h
      · simp only [bind_ok_iff, require_ok_iff, validateOwner_ok_iff, okOr_ok_iff, pure_ok_iff] at h
        obtain ⟨_, _, rfl⟩ := h
        exact .setTok hp h1 ht rfl (fun _ => rfl)
      · cases h
  · rename_i m hm
    split at h
    · simp only [bind_ok_iff, require_ok_iff, validateOwner_ok_iff, okOr_ok_iff, pure_ok_iff] at h
      obtain ⟨cur, hc, _, _, rfl⟩ := h
      exact .setMint hp h1 hm rfl rfl
    · split at h
      · simp only [bind_ok_iff, require_ok_iff, validateOwner_ok_iff, okOr_ok_iff, pure_ok_iff] at h
        obtain ⟨cur, hc, _, _, rfl⟩ := h
        exact .setMint hp h1 hm rfl rfl
      · simp only [bind_ok_iff, okOr_ok_iff] at h
        obtain ⟨⟨c0, exts⟩, hu, h⟩ := h
        dsimp only at h
        simp only [bind_ok_iff, require_ok_iff, validateOwner_ok_iff, okOr_ok_iff, pure_ok_iff] at h
        obtain ⟨cur, rfl, _, _, rfl⟩ := h
        exact .setMint hp h1 hm rfl (feeHeld_updateExtAuthority hu)
  · cases h

theorem flow_freeze {acct mint auth : Pubkey} {signers : List Pubkey} {fr : Bool}
    (hp : isTokenProgram prog = true)
    (h : freezeExec prog signed L acct mint auth signers fr = .ok L') : Flow u L L' := by
  unfold freezeExec at h
  simp only [bind_ok_iff, require_ok_iff, getToken_ok_iff, getMint_ok_iff, okOr_ok_iff, pure_ok_iff,
    validateOwner_ok_iff] at h
  obtain ⟨t, ⟨h1, h2⟩, _, _, _, _, m, _, f, _, _, _, rfl⟩ := h
  exact .setTok hp h1 h2 rfl (fun _ => rfl)

theorem flow_initMintExt {mint : Pubkey} {ext : MintExt} (hp : isTokenProgram prog = true)
    (h : initMintExtExec prog L mint ext = .ok L') : Flow u L L' := by
  have hok : ext.initOk = true := by
    unfold initMintExtExec at h
    simp only [bind_ok_iff, require_ok_iff] at h
    obtain ⟨_, _, _, _, _, h, _⟩ := h; exact h
  obtain ⟨h1, h2, h3⟩ := initMintExtExec_inv h
  have hz := feeHeld_initOk hok
  rcases h3 with ⟨b, hb, _, rfl⟩ | ⟨sp, ex, hb, rfl⟩
  · have o1 : isTokenProgram (L.setData mint (.preMint b.length [ext]) mint).owner = true := by
      simpa [h2] using hp
    refine .one (k := mint) (fun _ h => kept_setData h) ?_ ?_
    · rw [tokensIn_pre o1 (setData_data _ _ _), tokensIn_bytes hb, hz]; simp
    · intro _
      rw [supplyIn_other (by intro m; rw [setData_data]; simp), supplyIn_bytes hb]
  · have o1 : isTokenProgram (L.setData mint (.preMint sp (ex ++ [ext])) mint).owner = true := by
      simpa [h2] using hp
    refine .one (k := mint) (fun _ h => kept_setData h) ?_ ?_
    · rw [tokensIn_pre o1 (setData_data _ _ _), tokensIn_pre (by rw [h2]; exact hp) hb, feeHeld_append hz]
    · intro _
      rw [supplyIn_other (by intro m; rw [setData_data]; simp), supplyIn_other (by intro m; rw [hb]; simp)]

theorem flow_initMint {mint ma : Pubkey} {fa : Option Pubkey} {dec : UInt8}
    (hp : isTokenProgram prog = true)
    (h : initializeMint2Exec env prog L mint ma fa dec = .ok L') : Flow u L L' := by
  obtain ⟨h1, ex, h2, rfl⟩ := initializeMint2Exec_inv h
  have o1 : ∀ m : Mint, isTokenProgram (L.setData mint (.mint m) mint).owner = true := by
    intro m; simpa [h1] using hp
  refine .one (k := mint) (fun _ h => kept_setData h) ?_ ?_
  · rw [tokensIn_mint (o1 _) (setData_data _ _ _)]
    rcases preMintExts_inv h2 with ⟨rfl, b, hb, _⟩ | ⟨sp, hb, _⟩
    · rw [tokensIn_bytes hb]; simp [feeHeld]
    · rw [tokensIn_pre (by rw [h1]; exact hp) hb]
  · intro _
    rw [supplyIn_mint (o1 _) (setData_data _ _ _), supplyIn_other]
    intro m
    rcases preMintExts_inv h2 with ⟨rfl, b, hb, _⟩ | ⟨sp, hb, _⟩ <;> rw [hb] <;> simp

theorem tokensIn_new {k : Pubkey} {rent lam : Nat} {mint owner : Pubkey} {m : Mint} {extra : List AcctExt}
    {a : Account} (hu : u ∉ nativeMints) (ho : isTokenProgram a.owner = true)
    (hd : a.data = .token (newTokenAcct rent prog lam mint m owner extra)) : tokensIn u k a = 0 := by
  rw [tokensIn_token ho hd]
  split
  · rename_i h
    simp only [newTokenAcct] at h ⊢
    subst h
    simp [hu]
  · rfl

theorem flow_initAcct {acct mint owner : Pubkey} {extra : List AcctExt} (hp : isTokenProgram prog = true)
    (hu : u ∉ nativeMints)
    (h : initializeAccount3Exec env prog L acct mint owner extra = .ok L') : Flow u L L' := by
  obtain ⟨h1, b, m, h2, _, _, h3, h4, _, rfl, hr⟩ := initializeAccount3Exec_inv h
  refine .one (k := acct) (fun _ h => kept_setData h) ?_ ?_
  · rw [tokensIn_bytes h2]
    exact tokensIn_new hu (by simpa [h1] using hp) (setData_data _ _ _)
  · intro _; rw [supplyIn_token (setData_data _ _ _), supplyIn_bytes h2]

theorem flow_initMultisig {acct : Pubkey} {signers : List Pubkey} {n : Nat}
    (h : initializeMultisigExec prog L acct signers n = .ok L') : Flow u L L' := by
  unfold initializeMultisigExec at h
  simp only [bind_ok_iff, require_ok_iff, decide_eq_true_eq] at h
  obtain ⟨_, h1, _, _, h⟩ := h
  split at h
  · rename_i b hb
    simp only [bind_ok_iff, require_ok_iff, pure_ok_iff] at h
    obtain ⟨_, _, rfl⟩ := h
    refine .one (k := acct) (fun _ h => kept_setData h) ?_ ?_
    · rw [tokensIn_bytes hb, tokensIn_multisig (setData_data _ _ _)]
    · intro _; rw [supplyIn_other (by intro m; rw [setData_data]; simp), supplyIn_bytes hb]
  · cases h

theorem flow_addAcctExt {acct auth : Pubkey} {signers : List Pubkey} {ext : AcctExt}
    (hp : isTokenProgram prog = true)
    (h : addAcctExtExec prog signed L acct auth signers ext = .ok L') : Flow u L L' := by
  unfold addAcctExtExec at h
  simp only [bind_ok_iff, require_ok_iff, getToken_ok_iff, pure_ok_iff, validateOwner_ok_iff] at h
  obtain ⟨t, ⟨h1, h2⟩, _, _, _, _, rfl⟩ := h
  exact .setTok hp h1 h2 rfl (fun _ => rfl)

theorem flow_syncNative {acct : Pubkey} (hp : isTokenProgram prog = true) (hf : AllFunded L)
    (hu : u ∉ nativeMints) (h : syncNativeExec prog L acct = .ok L') : Flow u L L' := by
  unfold syncNativeExec at h
  simp only [bind_ok_iff, require_ok_iff, getToken_ok_iff, okOr_ok_iff, pure_ok_iff,
    decide_eq_true_eq] at h
  obtain ⟨t, ⟨h1, h2⟩, r, hr, _, h3, _, h4, rfl⟩ := h
  refine .setTok hp h1 h2 rfl (fun hm => ?_)
  have := ((hf acct).tok t (by rw [h1]; exact hp) h2).native.1 (by rw [hr]; simp)
  exact absurd (hm ▸ this) hu

theorem flow_unwrapLamports {src dst auth : Pubkey} {signers : List Pubkey} {amount : Option Nat}
    (hp : isTokenProgram prog = true) (hf : AllFunded L) (hu : u ∉ nativeMints)
    (h : unwrapLamportsExec prog signed L src dst auth signers amount = .ok L') : Flow u L L' := by
  unfold unwrapLamportsExec at h
  simp only [bind_ok_iff, require_ok_iff, getToken_ok_iff] at h
  obtain ⟨t, ⟨h1, h2⟩, _, hn, _, _, _, _, _, _, h⟩ := h
  have hm : t.mint ≠ u := by
    rintro rfl
    exact hu (((hf src).tok t (by rw [h1]; exact hp) h2).native.1 (by
      intro h; rw [h] at hn; cases hn))
  split at h
  · simp only [pure_ok_iff] at h; subst h
    exact .rfl'
  · rename_i hne
    unfold moveLamports at h
    simp only [bind_ok_iff, require_ok_iff, pure_ok_iff] at h
    obtain ⟨_, _, rfl⟩ := h
    generalize amount.getD t.amount = n
    refine .one (k := src) ?_ ?_ ?_
    · intro x hx
      by_cases hd : x = dst
      · subst hd
        refine ⟨?_, ?_, fun _ => ?_⟩ <;>
          simp [Ledger.setLamports_apply, Ledger.setData_apply, hx]
      · refine .of_eq ?_
        simp [Ledger.setLamports_apply, Ledger.setData_apply, hx, hd]
    · rw [tokensIn_token (t := { t with amount := t.amount - n })
        (by simp [Ledger.setLamports_apply, Ledger.setData_apply, hne, h1, hp])
        (by simp [Ledger.setLamports_apply, Ledger.setData_apply, hne]),
        tokensIn_token (by rw [h1]; exact hp) h2, if_neg hm, if_neg hm]
    · rintro rfl
      rw [supplyIn_token (t := { t with amount := t.amount - n })
        (by simp [Ledger.setLamports_apply, Ledger.setData_apply, hne]), supplyIn_token h2]

theorem flow_setTransferFee {mint auth : Pubkey} {signers : List Pubkey} {bps mf : Nat}
    (hp : isTokenProgram prog = true)
    (h : setTransferFeeExec env prog signed L mint auth signers bps mf = .ok L') : Flow u L L' := by
  unfold setTransferFeeExec at h
  simp only [bind_ok_iff, require_ok_iff, getMint_ok_iff, okOr_ok_iff, pure_ok_iff,
    validateOwner_ok_iff] at h
  obtain ⟨m, ⟨h1, h2, _⟩, c, hc, a, ha, _, _, _, _, rfl⟩ := h
  exact .setMint hp h1 h2 rfl (by dsimp only; rw [feeHeld_mapFee _ hc, feeHeld_some hc])

theorem flow_withdraw {mint src dst auth : Pubkey} {signers : List Pubkey}
    (hp : isTokenProgram prog = true)
    (h : withdrawWithheldExec prog signed L mint src dst auth signers = .ok L') : Flow u L L' := by
  unfold withdrawWithheldExec at h
  simp only [bind_ok_iff, require_ok_iff, getMint_ok_iff, getToken_ok_iff, okOr_ok_iff, pure_ok_iff,
    validateOwner_ok_iff, decide_eq_true_eq] at h
  obtain ⟨m, ⟨h1, h2, _⟩, c, hc, a, ha, _, _, s, ⟨s1, s2⟩, _, s3, d, ⟨d1, d2⟩, _, d3, _, _, _, d4,
    rfl⟩ := h
  by_cases hs : dst = src
  · subst hs
    simp only [Ledger.setData_same, Data.token.injEq] at d1 d2
    subst d2
    rw [setData_setData]
    exact .setTok hp s1 s2 rfl (fun _ => by dsimp only; omega)
  · exact flow_two hp hs s1 s2 d1 d2 (s3.trans d3.symm) rfl rfl (by dsimp only; omega)
where
  flow_two {src dst : Pubkey} {s s' d d' : TokenAcct} (hp : isTokenProgram prog = true) (hs : dst ≠ src)
      (s1 : (L src).owner = prog) (s2 : (L src).data = .token s)
      (d1 : (L.setData src (.token s') dst).owner = prog)
      (d2 : (L.setData src (.token s') dst).data = .token d) (hm : s.mint = d.mint)
      (sm : s'.mint = s.mint) (dm : d'.mint = d.mint)
      (bal : s'.amount + s'.confidential + s'.withheld + (d'.amount + d'.confidential + d'.withheld) =
        s.amount + s.confidential + s.withheld + (d.amount + d.confidential + d.withheld)) :
      Flow u L ((L.setData src (.token s')).setData dst (.token d')) := by
    rw [Ledger.setData_ne _ _ hs] at d1 d2
    have hs' : src ≠ dst := fun h => hs h.symm
    have e1 : (((L.setData src (.token s')).setData dst (.token d')) src).data = .token s' := by
      rw [Ledger.setData_ne _ _ hs']; exact setData_data _ _ _
    have o1 : isTokenProgram (((L.setData src (.token s')).setData dst (.token d')) src).owner = true := by
      rw [Ledger.setData_ne _ _ hs']; simpa [s1] using hp
    have e2 : (((L.setData src (.token s')).setData dst (.token d')) dst).data = .token d' :=
      setData_data _ _ _
    have o2 : isTokenProgram (((L.setData src (.token s')).setData dst (.token d')) dst).owner = true := by
      simpa [Ledger.setData_ne _ _ hs, d1] using hp
    have sup : mintSupply u ((L.setData src (.token s')).setData dst (.token d')) = mintSupply u L := by
      unfold mintSupply
      by_cases h1 : u = src
      · subst h1; rw [supplyIn_token e1, supplyIn_token s2]
      · by_cases h2 : u = dst
        · subst h2; rw [supplyIn_token e2, supplyIn_token d2]
        · rw [Ledger.setData_ne _ _ h2, Ledger.setData_ne _ _ h1]
    refine .two hs' (fun x h1 h2 => .of_eq ?_) ?_
    · rw [Ledger.setData_ne _ _ h2, Ledger.setData_ne _ _ h1]
    rw [sup, tokensIn_token o1 e1, tokensIn_token o2 e2, tokensIn_token (by rw [s1]; exact hp) s2,
      tokensIn_token (by rw [d1]; exact hp) d2, sm, dm, hm]
    split <;> omega

theorem flow_harvest {mint src : Pubkey} (hp : isTokenProgram prog = true)
    (h : harvestWithheldExec prog L mint src = .ok L') : Flow u L L' := by
  unfold harvestWithheldExec at h
  simp only [bind_ok_iff, require_ok_iff, getMint_ok_iff, getToken_ok_iff, okOr_ok_iff, pure_ok_iff,
    decide_eq_true_eq] at h
  obtain ⟨m, ⟨h1, h2, _⟩, c, hc, s, ⟨s1, s2⟩, _, s3, rfl⟩ := h
  refine .tokMint hp h1 h2 s1 s2 s3 s3 ?_
  dsimp only
  rw [feeHeld_mapFee _ hc, feeHeld_some hc]
  dsimp only
  omega

theorem flow_withdrawFromMint {mint dst auth : Pubkey} {signers : List Pubkey}
    (hp : isTokenProgram prog = true)
    (h : withdrawWithheldFromMintExec prog signed L mint dst auth signers = .ok L') : Flow u L L' := by
  unfold withdrawWithheldFromMintExec at h
  simp only [bind_ok_iff, require_ok_iff, getMint_ok_iff, getToken_ok_iff, okOr_ok_iff, pure_ok_iff,
    validateOwner_ok_iff, decide_eq_true_eq] at h
  obtain ⟨m, ⟨h1, h2, _⟩, c, hc, a, ha, _, _, d, ⟨d1, d2⟩, _, d3, _, _, _, d4, rfl⟩ := h
  refine .tokMint hp h1 h2 d1 d2 d3 d3 ?_
  dsimp only
  rw [feeHeld_mapFee _ hc, feeHeld_some hc]
  dsimp only
  omega

theorem flow_updateMintExt {mint auth : Pubkey} {signers : List Pubkey} {ext : MintExt}
    (hp : isTokenProgram prog = true)
    (h : updateMintExtExec prog signed L mint auth signers ext = .ok L') : Flow u L L' := by
  unfold updateMintExtExec at h
  simp only [bind_ok_iff, require_ok_iff, getMint_ok_iff, okOr_ok_iff, pure_ok_iff,
    validateOwner_ok_iff] at h
  obtain ⟨_, _, m, ⟨h1, h2, _⟩, ⟨cur, l'⟩, hu, a, ha, _, _, rfl⟩ := h
  exact .setMint hp h1 h2 rfl (feeHeld_updateExtSettings hu)

theorem flow_updatePointer {mint auth : Pubkey} {signers : List Pubkey} {addr : Option Pubkey}
    (hp : isTokenProgram prog = true)
    (h : updateMetadataPointerExec prog signed L mint auth signers addr = .ok L') : Flow u L L' := by
  unfold updateMetadataPointerExec at h
  simp only [bind_ok_iff, require_ok_iff, getMint_ok_iff, okOr_ok_iff, pure_ok_iff,
    validateOwner_ok_iff] at h
  obtain ⟨m, ⟨h1, h2, _⟩, p, _, a, ha, _, _, rfl⟩ := h
  exact .setMint hp h1 h2 rfl (feeHeld_setPointer _ _)

theorem flow_confidential {acct mint auth : Pubkey} {signers : List Pubkey} {amount : Nat}
    {dep : Bool} (hp : isTokenProgram prog = true)
    (h : confidentialExec prog signed L acct mint auth signers amount dep = .ok L') : Flow u L L' := by
  unfold confidentialExec at h
  simp only [bind_ok_iff, require_ok_iff, getToken_ok_iff, validateOwner_ok_iff] at h
  obtain ⟨_, _, t, ⟨h1, h2⟩, _, _, _, _, _, hnn, _, _, h⟩ := h
  split at h
  · simp only [bind_ok_iff, require_ok_iff, pure_ok_iff, decide_eq_true_eq] at h
    obtain ⟨_, h5, rfl⟩ := h
    exact .setTok hp h1 h2 rfl (fun _ => by dsimp only; omega)
  · simp only [bind_ok_iff, require_ok_iff, pure_ok_iff, decide_eq_true_eq] at h
    obtain ⟨_, h5, _, h6, rfl⟩ := h
    exact .setTok hp h1 h2 rfl (fun _ => by dsimp only; omega)

theorem flow_confidentialTransfer {src mint dst auth : Pubkey} {signers : List Pubkey} {amount : Nat}
    (hp : isTokenProgram prog = true)
    (h : confidentialTransferExec prog signed L src mint dst auth signers amount = .ok L') :
    Flow u L L' := by
  unfold confidentialTransferExec at h
  simp only [bind_ok_iff, require_ok_iff, getToken_ok_iff, validateOwner_ok_iff, pure_ok_iff,
    decide_eq_true_eq] at h
  obtain ⟨_, _, s, ⟨s1, s2⟩, _, _, _, s3, _, ⟨s4, s5⟩, _, s6, d, ⟨d1, d2⟩, _, _, _, d3, rfl⟩ := h
  by_cases hs : dst = src
  · subst hs
    simp only [Ledger.setData_same, Data.token.injEq] at d1 d2
    subst d2
    rw [setData_setData]
    exact .setTok hp s1 s2 rfl (fun _ => by dsimp only; omega)
  · exact flow_withdraw.flow_two hp hs s1 s2 d1 d2 (s3.trans d3.symm) rfl rfl (by dsimp only; omega)

theorem flow_initMetadata {mint ua ma : Pubkey} {name symbol uri : String}
    (hp : isTokenProgram prog = true)
    (h : initializeMetadataExec prog signed L mint ua ma name symbol uri = .ok L') : Flow u L L' := by
  obtain ⟨_, m, h1, h2, h3, h4, h5, h6, rfl⟩ := initializeMetadataExec_inv h
  exact .setMint hp h1 h2 rfl (feeHeld_append rfl)

theorem flow_metadataUpdate {mint ua : Pubkey} {f : TokenMetadata → Res TokenMetadata}
    (hp : isTokenProgram prog = true)
    (h : metadataUpdateExec prog signed L mint ua f = .ok L') : Flow u L L' := by
  obtain ⟨_, m, md, md', h1, h2, h3, h4, h5, h6, rfl⟩ := metadataUpdateExec_inv h
  exact .setMint hp h1 h2 rfl (feeHeld_mapMetadata _ _)

/-- Token-program instructions keep the balance of every mint that is not native SOL. -/
theorem tokenExec_flow {ix : TokenIx} (hp : isTokenProgram prog = true) (hf : AllFunded L)
    (hu : u ∉ nativeMints) (h : tokenExec env prog ix signed L = .ok L') : Flow u L L' := by
  have hrej := tokenExec_not_rejected h
  unfold tokenExec at h
  rw [hrej] at h
  cases ix with
  | transfer | transferChecked | transferCheckedWithFee => exact flow_transfer hp h
  | mintTo => exact flow_mintTo hp h
  | burn => exact flow_burn hp h
  | closeAccount => exact flow_close hp hf hu h
  | approve => exact flow_approve hp h
  | revoke => exact flow_revoke hp h
  | setAuthority => exact flow_setAuthority hp h
  | freezeAccount => exact flow_freeze hp h
  | initMintExt => exact flow_initMintExt hp h
  | initializeMint2 => exact flow_initMint hp h
  | initializeAccount3 => exact flow_initAcct hp hu h
  | initializeMultisig => exact flow_initMultisig h
  | addAcctExt => exact flow_addAcctExt hp h
  | syncNative => exact flow_syncNative hp hf hu h
  | setTransferFee => exact flow_setTransferFee hp h
  | withdrawWithheld => exact flow_withdraw hp h
  | harvestWithheld => exact flow_harvest hp h
  | withdrawWithheldFromMint => exact flow_withdrawFromMint hp h
  | updateMintExt => exact flow_updateMintExt hp h
  | withdrawExcessLamports => exact .of_kept (excessLamports_kept h).1
  | unwrapLamports => exact flow_unwrapLamports hp hf hu h
  | updateMetadataPointer => exact flow_updatePointer hp h
  | confidentialDeposit | confidentialWithdraw => exact flow_confidential hp h
  | confidentialTransfer => exact flow_confidentialTransfer hp h
  | initializeMetadata => exact flow_initMetadata hp h
  | updateField | removeKey | updateMetadataAuthority => exact flow_metadataUpdate hp h

/-! ## Steps and histories -/

/-- Every account outside the named one is kept, and that one records nothing before and after. -/
theorem Flow.blank {k : Pubkey} (hf : ∀ x, x ≠ k → Kept L L' x) (h : tokensIn u k (L k) = 0)
    (h' : tokensIn u k (L' k) = 0) (hs : supplyIn (L k) = 0) (hs' : supplyIn (L' k) = 0) : Flow u L L' :=
  .one hf (h'.trans h.symm) (fun _ => hs'.trans hs.symm)

theorem flow_baseStep {act : Act} (hf : AllFunded L) (hu : u ∉ nativeMints)
    (hs : BaseStep cr act L L') : Flow u L L' := by
  cases hs with
  | token hp _ he => exact tokenExec_flow hp hf hu he
  | allocate _ ha =>
    unfold sysAllocate at ha
    simp only [bind_ok_iff, require_ok_iff, pure_ok_iff, Bool.and_eq_true, decide_eq_true_eq] at ha
    obtain ⟨_, _, _, ⟨h1, _⟩, rfl⟩ := ha
    exact .blank (fun _ h => kept_setData h) (tokensIn_bytes h1) (tokensIn_bytes (setData_data _ _ _))
      (supplyIn_bytes h1) (supplyIn_bytes (setData_data _ _ _))
  | assign _ hz ha =>
    unfold sysAssign at ha
    split at ha
    · cases ha; exact .rfl'
    · simp only [bind_ok_iff, require_ok_iff, pure_ok_iff] at ha
      obtain ⟨_, _, _, _, rfl⟩ := ha
      obtain ⟨b, hb, _⟩ := hz
      refine .blank (fun _ h => .of_eq (Ledger.set_ne _ _ h)) (tokensIn_bytes hb) (tokensIn_bytes (b := b) ?_)
        (supplyIn_bytes hb) (supplyIn_bytes (b := b) ?_) <;> simpa using hb
  | createAta _ _ ha hr =>
    obtain ⟨k, m, hp, _, _, kd, _, _, _, _, rfl⟩ := ataCreate_inv ha
    refine .blank (fun _ h => .of_eq (Ledger.set_ne _ _ h)) (tokensIn_bytes kd) ?_ (supplyIn_bytes kd) ?_
    · rw [Ledger.set_same]
      exact tokensIn_new hu (by simpa [isTokenProgram] using hp) rfl
    · rw [Ledger.set_same]
      exact supplyIn_token rfl
  | gc h0 =>
    rename_i key
    have ht : ∀ t, isTokenProgram (L key).owner = true → (L key).data ≠ .token t := by
      intro t ho hd; have := ((hf key).tok t ho hd).pos; omega
    have hm : ∀ m, isTokenProgram (L key).owner = true → (L key).data ≠ .mint m := by
      intro m ho hd; have := (hf key).mint m ho hd; omega
    have e1 : tokensIn u key (L.set key Account.empty key) = 0 := by
      rw [Ledger.set_same]; exact tokensIn_owner system_not_token
    have e2 : supplyIn (L.set key Account.empty key) = 0 := by
      rw [Ledger.set_same]; exact supplyIn_owner system_not_token
    have e3 : supplyIn (L key) = 0 := by
      cases ho : isTokenProgram (L key).owner with
      | false => exact supplyIn_owner ho
      | true => exact supplyIn_other fun m => hm m ho
    by_cases hk : key = u
    · subst hk
      refine .gone e3 e2 ?_
      intro k
      by_cases hk : k = key
      · subst hk; unfold tokensAt; rw [e1]; exact Nat.zero_le _
      · unfold tokensAt; rw [Ledger.set_ne _ _ hk]
    · refine .one (fun _ h => .of_eq (Ledger.set_ne _ _ h)) ?_ (fun h => absurd h hk)
      rw [e1]
      cases ho : isTokenProgram (L key).owner with
      | false => exact (tokensIn_owner ho).symm
      | true =>
        unfold tokensIn
        rw [if_pos ho]
        cases hd : (L key).data with
        | token t => exact absurd hd (ht t ho)
        | mint m => exact absurd hd (hm m ho)
        | _ => simp [hk]
  | lamports h1 hl => exact .of_kept fun k => kept_lamports (h1 k) (hl k)
  | other hp _ _ hframe hown hlam =>
    rename_i prog _ _
    have hz : ∀ k, (L k).owner = prog → tokensIn u k (L k) = 0 ∧ supplyIn (L k) = 0 ∧
        tokensIn u k (L' k) = 0 ∧ supplyIn (L' k) = 0 := by
      intro k ho
      have h1 : isTokenProgram (L k).owner = false := by rw [ho]; exact hp
      refine ⟨tokensIn_owner h1, supplyIn_owner h1, ?_⟩
      rcases hown k ho with h | ⟨b, hb, _⟩
      · have h2 : isTokenProgram (L' k).owner = false := by rw [h]; exact hp
        exact ⟨tokensIn_owner h2, supplyIn_owner h2⟩
      · exact ⟨tokensIn_bytes hb, supplyIn_bytes hb⟩
    have hk : ∀ k, (L k).owner ≠ prog → Kept L L' k := fun k ho =>
      ⟨(hframe k ho).1, (hframe k ho).2, fun _ => hlam k ho⟩
    refine .even ∅ (fun k _ => ?_) ?_
    · by_cases ho : (L k).owner = prog
      · obtain ⟨a, _, b, _⟩ := hz k ho
        unfold tokensAt; rw [a, b]
      · exact tokensAt_kept (hk k ho)
    · have : mintSupply u L' = mintSupply u L := by
        by_cases ho : (L u).owner = prog
        · obtain ⟨_, a, _, b⟩ := hz u ho
          unfold mintSupply; rw [a, b]
        · exact mintSupply_kept (hk u ho)
      simp [this]

/-- Conserved, with the chain-wide facts. -/
def ConsFunds (u : Pubkey) (L : Ledger) : Prop := Conserved u L ∧ Funds L

theorem ConsFunds.baseStep {act : Act} (hu : u ∉ nativeMints) (h : ConsFunds u L)
    (hs : BaseStep cr act L L') : ConsFunds u L' :=
  ⟨h.1.flow (flow_baseStep h.2.all hu hs), h.2.baseStep hs⟩

theorem ConsFunds.run {ok : Act → Ledger → Prop} (hu : u ∉ nativeMints) (h : ConsFunds u L)
    (hr : Run cr ok L L') : ConsFunds u L' := by
  induction hr with
  | refl => exact h
  | step _ h2 _ ih => exact ih (h.baseStep hu h2)

theorem ConsFunds.cpi {accounts : List Meta} {pdas borrowed : List Pubkey} {ix : TokenIx}
    (hu : u ∉ nativeMints) (h : ConsFunds u L) (hr : ∀ n, 0 < env.rentMin n)
    (hc : invokeToken env accounts pdas borrowed prog ix L = .ok L') : ConsFunds u L' :=
  ⟨h.1.flow (tokenExec_flow (by simpa [isTokenProgram] using (invokeToken_inv hc).1) h.2.all hu
    (invokeToken_inv hc).2.2.2.2), h.2.cpi hr hc⟩

theorem ConsFunds.wrapTransfer {accounts : List Meta} {a : WrapAccounts} {m : Mint}
    {amount fee : Nat} (hu : u ∉ nativeMints) (h : ConsFunds u L) (hr : ∀ n, 0 < env.rentMin n)
    (hw : TokenWrap.wrapTransfer env accounts a m amount fee L = .ok L') : ConsFunds u L' := by
  unfold TokenWrap.wrapTransfer at hw
  dsimp only at hw
  split at hw
  · exact h.cpi hu hr hw
  · exact h.cpi hu hr hw

/-- Token Wrap keeps the balance of every mint. -/
theorem Conserved.instr {accounts : List Meta} {data : Bytes} (hu : u ∉ nativeMints)
    (h : ConsFunds u L) (hid : env.programId = crateId) (hr : ∀ n, 0 < env.rentMin n)
    (hi : processInstruction env accounts data L = .ok L') : Conserved u L' := by
  obtain ⟨ix, rfl, h1⟩ := processInstruction_ok hi
  clear hi
  cases ix with
  | createMint idem =>
    obtain ⟨a, c, h2⟩ := processCreateMint_inv h1
    rcases h2 with ⟨_, rfl, _⟩ | ⟨mb, bb, L1, _, _, _, _, g1, g2⟩
    · exact h.1
    · obtain ⟨m, A, space, _, _, _, d1, d2, _, _, hne, _, hwp, rfl⟩ := createMint_fresh default_spec g1 g2
      have hb1 : (L a.wrappedMint.key).data = .bytes [] := by rw [d1]
      have hb2 : (L a.backpointer.key).data = .bytes [] := by rw [d2]
      have hwp' : isTokenProgram a.wrappedTokenProgram.key = true := by simpa [isTokenProgram] using hwp
      refine (h.1.flow (.blank (k := a.wrappedMint.key) (fun _ h => .of_eq (Ledger.set_ne _ _ h))
        (tokensIn_bytes hb1) ?_ (supplyIn_bytes hb1) ?_)).flow
        (.blank (k := a.backpointer.key) (fun _ h => .of_eq (Ledger.set_ne _ _ h)) ?_ ?_ ?_ ?_)
      · rw [Ledger.set_same, tokensIn_mint hwp' rfl]
        dsimp only
        split
        · split
          · rfl
          · rfl
        · rfl
      · rw [Ledger.set_same, supplyIn_mint hwp' rfl]
      · rw [Ledger.set_ne _ _ hne.symm]; exact tokensIn_bytes hb2
      · rw [Ledger.set_same]; exact tokensIn_bytes rfl
      · rw [Ledger.set_ne _ _ hne.symm]; exact supplyIn_bytes hb2
      · rw [Ledger.set_same]; exact supplyIn_bytes rfl
  | wrap amount =>
    obtain ⟨a, m, L1, pda, c⟩ := processWrapHooked_inv (hook := id)
      (by rw [processWrapHooked_id]; exact h1)
    exact ((h.wrapTransfer hu hr c.transfer).cpi hu hr c.mintTo).1
  | unwrap amount =>
    obtain ⟨a, m, L1, pda, c⟩ := processUnwrap_inv h1
    exact ((h.cpi hu hr c.burn).cpi hu hr c.transfer).1
  | closeStuckEscrow =>
    obtain ⟨a, t, m, pda, c⟩ := processClose_effect h1
    exact (h.cpi hu hr c.cpi).1
  | syncMetadataToToken2022 =>
    obtain ⟨a, src, m, m', e⟩ := processSync22_effect h1
    rw [e.final]
    refine h.1.flow (.setMint (prog := token2022Id) (by decide +kernel) e.wOwner e.wData ?_ ?_)
    · rw [e.same.1]
    · rcases e.shape with ⟨md, _, hm'⟩ | ⟨_, _, _, hm'⟩
      · rw [hm']; exact feeHeld_mapMetadata _ _
      · rw [hm']; exact feeHeld_append rfl
  | syncMetadataToSplToken =>
    obtain ⟨a, src, data, e⟩ := processSyncSpl_effect h1
    rcases e.run with ⟨_, g⟩ | ⟨_, g⟩
    · have hk : ∀ x, x ≠ a.metaplexMetadata.key → Kept L L' x := fun x hx => kept_mplCreate g hx
      obtain ⟨_, _, _, _, hb, _, _, _, _, rfl⟩ := mplCreate_inv g
      refine h.1.flow (.blank (k := a.metaplexMetadata.key) hk (tokensIn_bytes hb) ?_ (supplyIn_bytes hb) ?_)
      · rw [Ledger.set_same]; exact tokensIn_owner metaplex_not_token
      · rw [Ledger.set_same]; exact supplyIn_owner metaplex_not_token
    · obtain ⟨ho, md, hd, _, _, _, _, rfl⟩ := mplUpdate_inv g
      have hn : isTokenProgram (L a.metaplexMetadata.key).owner = false := by rw [ho]; exact metaplex_not_token
      refine h.1.flow (.blank (k := a.metaplexMetadata.key) (fun _ h => kept_setData h) (tokensIn_owner hn) ?_
        (supplyIn_owner hn) ?_)
      · exact tokensIn_owner (by simpa using hn)
      · exact supplyIn_owner (by simpa using hn)
  | setCanonicalPointer q =>
    obtain ⟨a, m, e⟩ := processPointer_effect h1
    have fin : ∀ {x : Account}, isTokenProgram x.owner = false →
        (L a.pointer.key).data = .bytes [] ∨ (L a.pointer.key).owner = crateId →
        Conserved u (L.set a.pointer.key x) := by
      intro x hx hb
      have e0 : tokensIn u a.pointer.key (L a.pointer.key) = 0 ∧ supplyIn (L a.pointer.key) = 0 := by
        rcases hb with hb | hb
        · exact ⟨tokensIn_bytes hb, supplyIn_bytes hb⟩
        · have : isTokenProgram (L a.pointer.key).owner = false := by rw [hb]; exact crate_not_token
          exact ⟨tokensIn_owner this, supplyIn_owner this⟩
      refine h.1.flow (.blank (k := a.pointer.key) (fun _ h => .of_eq (Ledger.set_ne _ _ h)) e0.1 ?_ e0.2 ?_)
      · rw [Ledger.set_same]; exact tokensIn_owner hx
      · rw [Ledger.set_same]; exact supplyIn_owner hx
    rcases e.final with ⟨⟨hb, _⟩, rfl⟩ | ⟨_, ho, rfl⟩ | ⟨_, rfl⟩
    · exact fin (by dsimp only; rw [hid]; exact crate_not_token) (.inl hb)
    · exact fin (by dsimp only; rw [hid]; exact crate_not_token) (.inr (by rw [ho]; exact hid))
    · exact h.1

theorem ConsFunds.step {act : Act} {ok : Act → Ledger → Prop} (hu : u ∉ nativeMints)
    (h : ConsFunds u L) (hs : Step cr ok act L L') : ConsFunds u L' := by
  refine ⟨?_, h.2.step hs⟩
  cases hs with
  | base hb => exact (h.baseStep hu hb).1
  | wrapHooked _ _ _ hhook hw hr =>
    obtain ⟨a, m, L1, pda, c⟩ := processWrapHooked_inv hw
    exact (((h.wrapTransfer hu hr c.transfer).run hu (hhook L1)).cpi hu hr c.mintTo).1
  | tokenWrap _ hid _ hi hr => exact .instr hu h hid hr hi

theorem ConsFunds.history {ok : Act → Ledger → Prop} {L0 : Ledger} {trace : List Act}
    (hu : u ∉ nativeMints) (h0 : ConsFunds u L0) (h : History cr ok L0 trace L) : ConsFunds u L := by
  induction h with
  | start => exact h0
  | step _ _ h2 ih => exact ih.step hu h2

end

end TokenWrap
