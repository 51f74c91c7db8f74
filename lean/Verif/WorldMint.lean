import Verif.WorldWrap
/-!
# Facts that every step keeps: funded token accounts, and the extensions of a mint

`Funds` says that every token account and mint has lamports and that native token accounts cover
their balance; `NoTags T` says that a mint has none of the extensions with tags in `T`.
-/

set_option linter.unusedSimpArgs false

namespace TokenWrap

/-- `u` is a mint of program `p` with `dec` decimals whose extensions include neither a permanent
delegate nor a close authority (always so for SPL Token mints). -/
def PlainMint (p u : Pubkey) (dec : UInt8) (L : Ledger) : Prop :=
  (p = splTokenId ∨ p = token2022Id) ∧ (L u).owner = p ∧ ∃ m, (L u).data = .mint m ∧
    m.decimals = dec ∧ ∀ e ∈ m.exts, ∀ d, e ≠ .permanentDelegate d ∧ e ≠ .mintCloseAuthority d

/-- `u` is a mint of program `p` with `dec` decimals and without the extensions of the tags in `T`,
which include the close authority. -/
structure NoTags (T : List Nat) (p u : Pubkey) (dec : UInt8) (L : Ledger) : Prop where
  closeTag : 3 ∈ T
  mdTag : 19 ∉ T
  prog : p = splTokenId ∨ p = token2022Id
  owner : (L u).owner = p
  mint : ∃ m, (L u).data = .mint m ∧ m.decimals = dec ∧ ∀ e ∈ m.exts, e.tag ∉ T

theorem tag_fee {e : MintExt} : e.tag = 1 ↔ ∃ d, e = .transferFeeConfig d := by
  cases e <;> simp [MintExt.tag]; omega
theorem tag_pd {e : MintExt} : e.tag = 12 ↔ ∃ d, e = .permanentDelegate d := by
  cases e <;> simp [MintExt.tag]; omega
theorem tag_mca {e : MintExt} : e.tag = 3 ↔ ∃ d, e = .mintCloseAuthority d := by
  cases e <;> simp [MintExt.tag]; omega

theorem plainMint_iff {p u : Pubkey} {dec : UInt8} {L : Ledger} :
    PlainMint p u dec L ↔ NoTags [3, 12] p u dec L := by
  constructor
  · rintro ⟨hp, ho, m, hm, hd, he⟩
    refine ⟨by simp, by simp, hp, ho, m, hm, hd, ?_⟩
    intro e h ht
    simp only [List.mem_cons, List.not_mem_nil, or_false] at ht
    rcases ht with ht | ht
    · obtain ⟨d, rfl⟩ := tag_mca.1 ht; exact (he _ h d).2 rfl
    · obtain ⟨d, rfl⟩ := tag_pd.1 ht; exact (he _ h d).1 rfl
  · rintro ⟨_, _, hp, ho, m, hm, hd, he⟩
    refine ⟨hp, ho, m, hm, hd, ?_⟩
    intro e h d
    constructor
    · rintro rfl; exact he _ h (by simp [MintExt.tag])
    · rintro rfl; exact he _ h (by simp [MintExt.tag])

/-- `u` is a mint of program `p` with `dec` decimals and without close authority (always so for SPL
Token mints): it cannot be removed and re-created. -/
def StableMint (p u : Pubkey) (dec : UInt8) (L : Ledger) : Prop :=
  (p = splTokenId ∨ p = token2022Id) ∧ (L u).owner = p ∧ ∃ m, (L u).data = .mint m ∧
    m.decimals = dec ∧ ∀ e ∈ m.exts, ∀ d, e ≠ .mintCloseAuthority d

theorem stableMint_iff {p u : Pubkey} {dec : UInt8} {L : Ledger} :
    StableMint p u dec L ↔ NoTags [3] p u dec L := by
  constructor
  · rintro ⟨hp, ho, m, hm, hd, he⟩
    refine ⟨by simp, by simp, hp, ho, m, hm, hd, ?_⟩
    intro e h ht
    simp only [List.mem_cons, List.not_mem_nil, or_false] at ht
    obtain ⟨d, rfl⟩ := tag_mca.1 ht; exact he _ h d rfl
  · rintro ⟨_, _, hp, ho, m, hm, hd, he⟩
    refine ⟨hp, ho, m, hm, hd, ?_⟩
    rintro e h d rfl
    exact he _ h (by simp [MintExt.tag])

theorem PlainMint.stable {p u : Pubkey} {dec : UInt8} {L : Ledger} (h : PlainMint p u dec L) :
    StableMint p u dec L := by
  obtain ⟨h1, h2, m, h3, h4, h5⟩ := h
  exact ⟨h1, h2, m, h3, h4, fun e he d => (h5 e he d).2⟩

theorem PlainMint.noPD {p u : Pubkey} {dec : UInt8} {L : Ledger} (h : PlainMint p u dec L) :
    NoPD u L := by
  obtain ⟨_, _, m, hm, _, he⟩ := h
  intro m' hm'
  rw [hm] at hm'; cases hm'
  unfold Mint.permanentDelegate?
  rw [(List.findSome?_eq_none_iff).2]
  · rfl
  intro e h
  cases e <;> simp
  exact absurd rfl (he _ h _).1

theorem NoTags.noCA {T : List Nat} {p u : Pubkey} {dec : UInt8} {L : Ledger}
    (h : NoTags T p u dec L) {m : Mint} (hm : (L u).data = .mint m) : m.closeAuthority? = none := by
  obtain ⟨m', hm', _, he⟩ := h.mint
  rw [hm] at hm'; cases hm'
  cases hc : m.closeAuthority? with
  | none => rfl
  | some a => exact absurd h.closeTag (he _ (ca_mem hc))

theorem NoTags.noFee {T : List Nat} {p u : Pubkey} {dec : UInt8} {L : Ledger}
    (h : NoTags T p u dec L) (h1 : 1 ∈ T) {m : Mint} (hm : (L u).data = .mint m) :
    m.transferFee? = none := by
  obtain ⟨m', hm', _, he⟩ := h.mint
  rw [hm] at hm'; cases hm'
  cases hc : m.transferFee? with
  | none => rfl
  | some a => exact absurd h1 (he _ (fee_mem hc))

section
variable {cr : Crypto} {T : List Nat} {p u : Pubkey} {dec : UInt8} {L L' : Ledger}

theorem NoTags.kept (h : NoTags T p u dec L) (k : Kept L L' u) : NoTags T p u dec L' := by
  exact ⟨h.closeTag, h.mdTag, h.prog, k.1.trans h.owner, by rw [k.2]; exact h.mint⟩

theorem NoTags.data_ne_bytes (h : NoTags T p u dec L) (b : Bytes) : (L u).data ≠ .bytes b := by
  obtain ⟨m, hm, _⟩ := h.mint; rw [hm]; simp

theorem NoTags.data_ne_token (h : NoTags T p u dec L) (t : TokenAcct) :
    (L u).data ≠ .token t := by
  obtain ⟨m, hm, _⟩ := h.mint; rw [hm]; simp

/-- Replacing the mint by one whose extension kinds are old ones (or metadata). -/
theorem NoTags.upd (h : NoTags T p u dec L) {m m' : Mint} (hm : (L u).data = .mint m)
    (ho : (L' u).owner = p) (hd : (L' u).data = .mint m') (hdec : m'.decimals = m.decimals)
    (tags : ∀ e ∈ m'.exts, e.tag = 19 ∨ ∃ e0 ∈ m.exts, e0.tag = e.tag) : NoTags T p u dec L' := by
  obtain ⟨m0, hm0, hd0, he⟩ := h.mint
  rw [hm] at hm0; cases hm0
  refine ⟨h.closeTag, h.mdTag, h.prog, ho, m', hd, hdec.trans hd0, ?_⟩
  intro e hem ht
  rcases tags _ hem with h' | ⟨e0, h0, h1⟩
  · exact h.mdTag (h' ▸ ht)
  · exact he _ h0 (h1 ▸ ht)

theorem NoTags.tokEff {rm : Nat → Nat} {prog : Pubkey} {signed : Pubkey → Bool} (h : NoTags T p u dec L)
    (e : TokEff rm prog signed L L') : NoTags T p u dec L' := by
  have hk : Kept L L' u → NoTags T p u dec L' := h.kept
  have nt := h.data_ne_token
  have nb := h.data_ne_bytes
  have ho := h.owner
  cases e with
  | same hf => exact hk (hf u)
  | drain hf => exact hk (hf u)
  | tok k t t' _ hd _ _ hf =>
    exact hk (hf u (by rintro rfl; exact nt _ hd))
  | move src dst s s' d d' ne so sd so' sd' do_ dd do' dd' hf =>
    exact hk (hf u (by rintro rfl; exact nt _ sd) (by rintro rfl; exact nt _ dd))
  | fees mk m mo md fee all =>
    rcases all u with hf | ⟨t, t', _, hd, _⟩ | ⟨rfl, m', h1, h2, _, h4, _, _, h7⟩
    · exact hk hf
    · exact absurd hd (nt _)
    · exact h.upd md (h1.trans (mo.symm.trans ho)) h2 h4 (tags_of_map h7)
  | mintUpd k m m' mo hd ho' hd' hf supply decimals authority freeze exts tags =>
    by_cases hx : u = k
    · subst hx; exact h.upd hd (ho'.trans (mo.symm.trans ho)) hd' decimals tags
    · exact hk (hf u hx)
  | mintTo mk dst m d n a mo md do_ dd dm auth appr fit sfit final =>
    have h2 : u ≠ dst := by rintro rfl; exact nt _ dd
    by_cases hx : u = mk
    · subst hx
      refine h.upd (m' := { m with supply := m.supply + n }) md ?_ (by rw [final]; exact setData_data _ _ _) rfl
        tags_self
      rw [final]
      simp only [Ledger.setData_same, Ledger.setData_ne _ _ h2]; exact ho
    · exact hk (.of_eq (by rw [final, Ledger.setData_ne _ _ hx, Ledger.setData_ne _ _ h2]))
  | burn mk acct m s s' n mo md so sd sm le sle same auth final =>
    have h2 : u ≠ acct := by rintro rfl; exact nt _ sd
    by_cases hx : u = mk
    · subst hx
      refine h.upd (m' := { m with supply := m.supply - n }) md ?_ (by rw [final]; exact setData_data _ _ _) rfl
        tags_self
      rw [final]
      simp only [Ledger.setData_same, Ledger.setData_ne _ _ h2]; exact ho
    · exact hk (.of_eq (by rw [final, Ledger.setData_ne _ _ hx, Ledger.setData_ne _ _ h2]))
  | closeTok k t _ hd _ hf =>
    exact hk (hf u (by rintro rfl; exact nt _ hd))
  | closeMint k m a _ hd ca _ hf =>
    by_cases hx : u = k
    · subst hx; rw [h.noCA hd] at ca; cases ca
    · exact hk (hf u hx)
  | initTok k b t m _ hd _ _ _ _ _ hf =>
    exact hk (hf u (by rintro rfl; exact nb _ hd))
  | initOther k _ hd _ _ hf =>
    refine hk (hf u ?_)
    rintro rfl
    rcases hd with ⟨b, hd⟩ | ⟨n, e, hd⟩
    · exact nb _ hd
    · obtain ⟨m, hm, _⟩ := h.mint; rw [hm] at hd; cases hd

theorem NoTags.cpi {env : Env} {accounts : List Meta} {pdas borrowed : List Pubkey}
    {prog : Pubkey} {ix : TokenIx} (h : NoTags T p u dec L)
    (hc : invokeToken env accounts pdas borrowed prog ix L = .ok L') : NoTags T p u dec L' :=
  h.tokEff (tokenExec_eff (invokeToken_inv hc).2.2.2.2)

theorem NoTags.isTok (h : NoTags T p u dec L) : isTokenProgram (L u).owner = true := by
  rw [h.owner]; simpa [isTokenProgram] using h.prog

theorem NoTags.baseStep {act : Act} (h : NoTags T p u dec L) (hf : AllFunded L)
    (hs : BaseStep cr act L L') :
    NoTags T p u dec L' := by
  cases hs with
  | token _ _ he => exact h.tokEff (tokenExec_eff he)
  | allocate _ ha =>
    unfold sysAllocate at ha
    simp only [bind_ok_iff, require_ok_iff, pure_ok_iff, Bool.and_eq_true, decide_eq_true_eq] at ha
    obtain ⟨_, _, _, ⟨h1, _⟩, rfl⟩ := ha
    exact h.kept (kept_setData (by rintro rfl; exact h.data_ne_bytes _ h1))
  | assign _ hz ha =>
    unfold sysAssign at ha
    split at ha
    · cases ha; exact h
    · simp only [bind_ok_iff, require_ok_iff, pure_ok_iff] at ha
      obtain ⟨_, _, _, _, rfl⟩ := ha
      refine h.kept (.of_eq (Ledger.set_ne _ _ ?_))
      rintro rfl
      obtain ⟨b, hb, _⟩ := hz
      exact h.data_ne_bytes _ hb
  | createAta _ _ ha =>
    obtain ⟨k, m, _, _, _, kd, _, _, _, _, rfl⟩ := ataCreate_inv ha
    exact h.kept (.of_eq (Ledger.set_ne _ _ (by rintro rfl; exact h.data_ne_bytes _ kd)))
  | gc h0 =>
    refine h.kept (.of_eq (Ledger.set_ne _ _ ?_))
    rintro rfl
    obtain ⟨m, hm, _⟩ := h.mint
    have := (hf u).mint m h.isTok hm
    omega
  | lamports h1 hl => exact h.kept (kept_lamports (h1 u) (hl u))
  | other hp _ _ hframe _ hlam =>
    rename_i prog _ _ _
    have hne : (L u).owner ≠ prog := ?_
    · exact h.kept ⟨(hframe u hne).1, (hframe u hne).2, fun _ => hlam u hne⟩
    rintro rfl
    have h1 := h.prog
    rw [← h.owner] at h1
    simp only [isTokenProgram, Bool.or_eq_false_iff, decide_eq_false_iff_not] at hp
    rcases h1 with h1 | h1
    · exact hp.1 h1
    · exact hp.2 h1

theorem NoTags.wrapTransfer {env : Env} {accounts : List Meta} {a : WrapAccounts} {m : Mint}
    {amount fee : Nat} (h : NoTags T p u dec L)
    (hw : TokenWrap.wrapTransfer env accounts a m amount fee L = .ok L') : NoTags T p u dec L' := by
  unfold TokenWrap.wrapTransfer at hw
  dsimp only at hw
  split at hw
  · exact h.cpi hw
  · exact h.cpi hw

/-- Token Wrap leaves the kinds of extensions of such a mint alone. -/
theorem NoTags.instr {env : Env} {accounts : List Meta} {data : Bytes} (h : NoTags T p u dec L)
    (hid : env.programId = crateId) (hi : processInstruction env accounts data L = .ok L') :
    NoTags T p u dec L' := by
  obtain ⟨ix, rfl, h1⟩ := processInstruction_ok hi
  clear hi
  cases ix with
  | createMint idem =>
    obtain ⟨a, c, h2⟩ := processCreateMint_inv h1
    rcases h2 with ⟨_, rfl, _⟩ | ⟨mb, bb, L1, _, _, _, _, g1, g2⟩
    · exact h
    · obtain ⟨m, A, space, _, _, _, d1, d2, _, _, _, _, _, rfl⟩ := createMint_fresh default_spec g1 g2
      refine h.kept (.of_eq ?_)
      rw [Ledger.set_ne, Ledger.set_ne]
      · rintro rfl; exact h.data_ne_bytes [] (by rw [d1])
      · rintro rfl; exact h.data_ne_bytes [] (by rw [d2])
  | wrap amount =>
    obtain ⟨a, m, L1, pda, c⟩ := processWrapHooked_inv (hook := id)
      (by rw [processWrapHooked_id]; exact h1)
    exact (h.wrapTransfer c.transfer).cpi c.mintTo
  | unwrap amount =>
    obtain ⟨a, m, L1, pda, c⟩ := processUnwrap_inv h1
    exact (h.cpi c.burn).cpi c.transfer
  | closeStuckEscrow =>
    obtain ⟨a, t, m, pda, c⟩ := processClose_effect h1
    exact h.cpi c.cpi
  | syncMetadataToToken2022 =>
    obtain ⟨a, src, m, m', e⟩ := processSync22_effect h1
    have hf := e.final
    by_cases hx : u = a.wrappedMint.key
    · have hd := e.wData
      rw [← hx] at hd hf
      have hdec : m'.decimals = m.decimals := by rw [e.same.1]
      refine h.upd hd (by rw [hf]; simpa using h.owner) (by rw [hf]; exact setData_data _ _ _) hdec ?_
      rcases e.shape with ⟨md, _, hm'⟩ | ⟨_, _, _, hm'⟩
      · rw [hm']; exact tags_of_map (mapMetadata_tags _ _)
      · rw [hm']
        intro x hx
        simp only [List.mem_append, List.mem_singleton] at hx
        rcases hx with hx | rfl
        · exact .inr ⟨x, hx, rfl⟩
        · exact .inl rfl
    · exact h.kept (by rw [hf]; exact kept_setData hx)
  | syncMetadataToSplToken =>
    obtain ⟨a, src, data, e⟩ := processSyncSpl_effect h1
    rcases e.run with ⟨_, g⟩ | ⟨_, g⟩
    · have g0 := g
      obtain ⟨_, _, _, _, hb, _, _, _, _, rfl⟩ := mplCreate_inv g
      refine h.kept ?_
      have hx : u ≠ a.metaplexMetadata.key := by rintro rfl; exact h.data_ne_bytes _ hb
      exact kept_mplCreate g0 hx
    · obtain ⟨_, md, hd, _, _, _, _, rfl⟩ := mplUpdate_inv g
      refine h.kept (kept_setData ?_)
      rintro rfl
      obtain ⟨m, hm, _⟩ := h.mint
      rw [hm] at hd; cases hd
  | setCanonicalPointer q =>
    obtain ⟨a, m, e⟩ := processPointer_effect h1
    have hne : (L a.pointer.key).data = .bytes [] ∨ (L a.pointer.key).owner = crateId →
        u ≠ a.pointer.key := by
      rintro (hb | ho) rfl
      · exact h.data_ne_bytes _ hb
      · have h1 := h.prog
        rw [← h.owner, ho] at h1
        rcases h1 with h1 | h1
        · exact crate_ne_spl h1
        · exact crate_ne_t22 h1
    rcases e.final with ⟨⟨hb, _⟩, rfl⟩ | ⟨_, ho, rfl⟩ | ⟨_, rfl⟩
    · exact h.kept (.of_eq (Ledger.set_ne _ _ (hne (.inl hb))))
    · refine h.kept (.of_eq (Ledger.set_ne _ _ (hne (.inr ?_))))
      rw [ho]; exact hid
    · exact h


/-! ## Funded accounts -/

theorem AcctFunds.of_owner {a : Account} (h : isTokenProgram a.owner = false) : AcctFunds a :=
  ⟨fun _ h' => (Bool.false_ne_true (h.symm.trans h')).elim,
    fun _ h' => (Bool.false_ne_true (h.symm.trans h')).elim⟩

theorem AcctFunds.of_data {a : Account} (h : ∀ t, a.data ≠ .token t) (h' : ∀ m, a.data ≠ .mint m) :
    AcctFunds a := ⟨fun t _ hd => absurd hd (h t), fun m _ hd => absurd hd (h' m)⟩

theorem AcctFunds.of_tok {a : Account} {t : TokenAcct} (hd : a.data = .token t)
    (h : TokFunds t a.lamports) : AcctFunds a := by
  refine ⟨fun t' _ hd' => ?_, fun m _ hd' => ?_⟩
  · rw [hd] at hd'; cases hd'; exact h
  · rw [hd] at hd'; cases hd'

theorem AcctFunds.of_mint {a : Account} {m : Mint} (hd : a.data = .mint m) (h : 0 < a.lamports) :
    AcctFunds a := by
  refine ⟨fun t _ hd' => ?_, fun m _ hd' => h⟩
  rw [hd] at hd'; cases hd'

theorem TokFunds.mono {t : TokenAcct} {x y : Nat} (h : TokFunds t x) (hxy : x ≤ y) :
    TokFunds t y :=
  ⟨Nat.lt_of_lt_of_le h.pos hxy, fun r hr => ⟨(h.reserve r hr).1, (h.reserve r hr).2.trans hxy⟩,
    h.native⟩

theorem AcctFunds.kept {x : Pubkey} (h : AcctFunds (L x)) (k : Kept L L' x)
    (hl : isTokenProgram (L x).owner = true → (L x).lamports ≤ (L' x).lamports) :
    AcctFunds (L' x) := by
  refine ⟨fun t ho hd => ?_, fun m ho hd => ?_⟩
  · rw [k.1] at ho; rw [k.2] at hd
    exact (h.tok t ho hd).mono (hl ho)
  · rw [k.1] at ho; rw [k.2] at hd
    exact Nat.lt_of_lt_of_le (h.mint m ho hd) (hl ho)

/-- Token programs debit only their own accounts. -/
theorem TokEff.lam_mono {rm : Nat → Nat} {prog : Pubkey} {signed : Pubkey → Bool}
    (e : TokEff rm prog signed L L') {x : Pubkey} (hx : (L x).owner ≠ prog) :
    (L x).lamports ≤ (L' x).lamports := by
  have ne : ∀ {k : Pubkey}, (L k).owner = prog → x ≠ k := by rintro k hk rfl; exact hx hk
  cases e with
  | same hf lam => exact Nat.le_of_eq (lam x).symm
  | drain hf src _ ho lam => exact lam x (ne ho)
  | tok k t t' ho hd ho' hd' hf mint native claim fits auth lamO lam reserve =>
    exact lamO x (ne ho)
  | move src dst s s' d d' ne' so sd so' sd' do_ dd do' dd' hf mints smint dmint snative dnative claim
      sfits dfits dkeeps auth lamO lam lamN =>
    exact Nat.le_of_eq (lamO x (ne so) (ne do_)).symm
  | fees mk m mo md fee all lam => exact Nat.le_of_eq (lam x).symm
  | mintUpd k m m' ho hd ho' hd' hf supply decimals authority freeze exts tags lam =>
    exact Nat.le_of_eq (lam x).symm
  | mintTo mk dst m d n a mo md do_ dd dm auth appr fit sfit final dn =>
    rw [final]; exact Nat.le_of_eq ((setData_lam.trans setData_lam) x).symm
  | burn mk acct m s s' n mo md so sd sm le sle same auth final =>
    rw [final]; exact Nat.le_of_eq ((setData_lam.trans setData_lam) x).symm
  | closeTok k t ho hd he hf auth lam => exact lam x (ne ho)
  | closeMint k m a ho hd ca he hf lam => exact lam x (ne ho)
  | initTok k b t m ho hd ho' hd' mo md plain hf lam nat rent => exact Nat.le_of_eq (lam x).symm
  | initOther k ho hd ho' hd' hf lam rent => exact Nat.le_of_eq (lam x).symm

/-- The mint of every fee-bearing token account: not a native mint. -/
def NativeMintsPlain (L : Ledger) : Prop :=
  ∀ nm ∈ nativeMints, ∃ p dec, NoTags [1, 3] p nm dec L

theorem system_not_token : isTokenProgram systemId = false := by decide +kernel
theorem metaplex_not_token : isTokenProgram metaplexId = false := by decide +kernel
theorem crate_not_token : isTokenProgram crateId = false := by decide +kernel

theorem AllFunded.tokEff {rm : Nat → Nat} {prog : Pubkey} {signed : Pubkey → Bool}
    (h : AllFunded L) (hn : NativeMintsPlain L) (hp : isTokenProgram prog = true)
    (hr : ∀ n, 0 < rm n) (e : TokEff rm prog signed L L') : AllFunded L' := by
  have keep : ∀ {x}, Kept L L' x → (L x).lamports ≤ (L' x).lamports → AcctFunds (L' x) :=
    fun k hl => (h _).kept k (fun _ => hl)
  have oldT : ∀ {k t}, (L k).owner = prog → (L k).data = .token t → TokFunds t (L k).lamports :=
    fun ho hd => (h _).tok _ (by rw [ho]; exact hp) hd
  have oldM : ∀ {k m}, (L k).owner = prog → (L k).data = .mint m → 0 < (L k).lamports :=
    fun ho hd => (h _).mint _ (by rw [ho]; exact hp) hd
  intro x
  cases e with
  | same hf lam => exact keep (hf x) (Nat.le_of_eq (lam x).symm)
  | drain hf src _ ho lam rent nn =>
    by_cases hx : x = src
    · subst hx
      obtain ⟨n, hn⟩ := rent
      have hpos := Nat.lt_of_lt_of_le (hr n) hn
      refine ⟨fun t _ hd => ?_, fun m _ hd => hpos⟩
      rw [(hf x).2] at hd
      refine ⟨hpos, fun r hr' => ?_, (oldT ho hd).native⟩
      rw [nn t hd] at hr'; cases hr'
    · exact keep (hf x) (lam x hx)
  | tok k t t' ho hd ho' hd' hf mint native claim fits auth lamO lam reserve =>
    by_cases hx : x = k
    · subst hx
      have f := oldT ho hd
      refine .of_tok hd' ?_
      refine ⟨?_, fun r hr' => ?_, by rw [native, mint]; exact f.native⟩
      · rcases lam with h | h
        · rw [h]; exact f.pos
        · cases hn : t.isNative with
          | none => exact absurd hn h
          | some r =>
            have h1 := f.reserve r hn
            have h2 := reserve r hn h1.2
            omega
      · rw [native] at hr'
        exact ⟨(f.reserve r hr').1, reserve r hr' (f.reserve r hr').2⟩
    · exact keep (hf x hx) (lamO x hx)
  | move src dst s s' d d' ne' so sd so' sd' do_ dd do' dd' hf mints smint dmint snative dnative claim
      sfits dfits dkeeps auth lamO lam lamN =>
    have fs := oldT so sd
    have fd := oldT do_ dd
    have iff : s.isNative ≠ none ↔ d.isNative ≠ none := by rw [fs.native, fd.native, mints]
    by_cases hx : x = src
    · subst hx
      refine .of_tok sd' ?_
      by_cases hs : s.isNative = none
      · rw [(lam hs).1]
        refine ⟨fs.pos, fun r hr' => ?_, by rw [snative, smint]; exact fs.native⟩
        rw [snative, hs] at hr'; cases hr'
      · obtain ⟨n, n1, n2, n3, n4⟩ := lamN hs
        cases hs' : s.isNative with
        | none => exact absurd hs' hs
        | some r =>
          have := fs.reserve r hs'
          refine ⟨by omega, fun r' hr' => ?_, by rw [snative, smint]; exact fs.native⟩
          rw [snative, hs'] at hr'; cases hr'
          omega
    · by_cases hx' : x = dst
      · subst hx'
        refine .of_tok dd' ?_
        by_cases hs : s.isNative = none
        · rw [(lam hs).2]
          refine ⟨fd.pos, fun r hr' => ?_, by rw [dnative, dmint]; exact fd.native⟩
          have : d.isNative = none := by
            by_contra hd0
            exact (iff.2 hd0) hs
          rw [dnative, this] at hr'; cases hr'
        · obtain ⟨n, n1, n2, n3, n4⟩ := lamN hs
          rw [n4]
          refine ⟨by have := fd.pos; omega, fun r hr' => ?_, by rw [dnative, dmint]; exact fd.native⟩
          rw [dnative] at hr'
          have := fd.reserve r hr'
          omega
      · exact keep (hf x hx hx') (Nat.le_of_eq (lamO x hx hx').symm)
  | fees mk m mo md fee all lam =>
    rcases all x with hk | ⟨t, t', ho, hd, ho', hd', tm, tm', tn, _⟩ | ⟨rfl, m', ho', hd', _⟩
    · exact keep hk (Nat.le_of_eq (lam x).symm)
    · have f := oldT ho hd
      have hnn : t.isNative = none := by
        by_contra hx
        obtain ⟨p, dec, hnt⟩ := hn mk (tm ▸ f.native.1 hx)
        rw [hnt.noFee (by simp) md] at fee
        cases fee
      refine .of_tok hd' ?_
      rw [lam x]
      refine ⟨f.pos, fun r hr' => ?_, by rw [tn, tm', ← tm]; exact f.native⟩
      rw [tn, hnn] at hr'; cases hr'
    · exact .of_mint hd' (by rw [lam x]; exact oldM mo md)
  | mintUpd k m m' ho hd ho' hd' hf supply decimals authority freeze exts tags lam =>
    by_cases hx : x = k
    · subst hx; exact .of_mint hd' (by rw [lam x]; exact oldM ho hd)
    · exact keep (hf x hx) (Nat.le_of_eq (lam x).symm)
  | mintTo mk dst m d n a mo md do_ dd dm auth appr fit sfit final dn =>
    have hlam : SameLamports L L' := by rw [final]; exact setData_lam.trans setData_lam
    by_cases hx : x = mk
    · subst hx
      exact .of_mint (by rw [final]; exact setData_data _ _ _) (by rw [hlam x]; exact oldM mo md)
    · by_cases hx' : x = dst
      · subst hx'
        have f := oldT do_ dd
        refine .of_tok (t := { d with amount := d.amount + n })
          (by rw [final, Ledger.setData_ne _ _ hx]; exact setData_data _ _ _) ?_
        rw [hlam x]
        refine ⟨f.pos, fun r hr' => ?_, f.native⟩
        dsimp only at hr'
        rw [dn] at hr'; cases hr'
      · exact keep (.of_eq (by rw [final, Ledger.setData_ne _ _ hx, Ledger.setData_ne _ _ hx']))
          (Nat.le_of_eq (hlam x).symm)
  | burn mk acct m s s' n mo md so sd sm le sle same auth final =>
    have hlam : SameLamports L L' := by rw [final]; exact setData_lam.trans setData_lam
    by_cases hx : x = mk
    · subst hx
      exact .of_mint (by rw [final]; exact setData_data _ _ _) (by rw [hlam x]; exact oldM mo md)
    · by_cases hx' : x = acct
      · subst hx'
        have f := oldT so sd
        refine .of_tok (t := { s' with amount := s.amount - n })
          (by rw [final, Ledger.setData_ne _ _ hx]; exact setData_data _ _ _) ?_
        rw [hlam x]
        refine ⟨f.pos, fun r hr' => ?_, ?_⟩
        · dsimp only at hr' ⊢
          rw [same.isNative] at hr'
          have := f.reserve r hr'
          omega
        · dsimp only
          rw [same.isNative, same.mint]; exact f.native
      · exact keep (.of_eq (by rw [final, Ledger.setData_ne _ _ hx, Ledger.setData_ne _ _ hx']))
          (Nat.le_of_eq (hlam x).symm)
  | closeTok k t ho hd he hf auth lam =>
    by_cases hx : x = k
    · subst hx; exact .of_owner (by rw [he.1]; exact system_not_token)
    · exact keep (hf x hx) (lam x hx)
  | closeMint k m a ho hd ca he hf lam =>
    by_cases hx : x = k
    · subst hx; exact .of_owner (by rw [he.1]; exact system_not_token)
    · exact keep (hf x hx) (lam x hx)
  | initTok k b t m ho hd ho' hd' mo md plain hf lam nat rent =>
    by_cases hx : x = k
    · subst hx
      obtain ⟨n, r1, r2⟩ := rent
      have := hr n
      refine .of_tok hd' ?_
      rw [lam x]
      refine ⟨by omega, fun r hr' => ?_, nat⟩
      obtain ⟨r3, r4⟩ := r2 r hr'
      exact ⟨by omega, r4⟩
    · exact keep (hf x hx) (Nat.le_of_eq (lam x).symm)
  | initOther k ho hd ho' hd' hf lam rent =>
    by_cases hx : x = k
    · subst hx
      rcases hd' with ⟨n, e, hd'⟩ | ⟨ms, hd'⟩ | ⟨m, hd', _⟩
      · exact .of_data (by rw [hd']; simp) (by rw [hd']; simp)
      · exact .of_data (by rw [hd']; simp) (by rw [hd']; simp)
      · obtain ⟨n, r1⟩ := rent m hd'
        have := hr n
        exact .of_mint hd' (by rw [lam x]; omega)
    · exact keep (hf x hx) (Nat.le_of_eq (lam x).symm)

/-- The chain-wide facts about lamports: every token account and mint is funded, and the two native
mints have neither transfer fees nor a close authority. -/
structure Funds (L : Ledger) : Prop where
  all : AllFunded L
  native : NativeMintsPlain L

theorem Funds.tokEff {rm : Nat → Nat} {prog : Pubkey} {signed : Pubkey → Bool} (h : Funds L)
    (hp : isTokenProgram prog = true) (hr : ∀ n, 0 < rm n) (e : TokEff rm prog signed L L') :
    Funds L' :=
  ⟨h.all.tokEff h.native hp hr e, fun nm hnm => by
    obtain ⟨p, dec, hx⟩ := h.native nm hnm
    exact ⟨p, dec, hx.tokEff e⟩⟩

theorem Funds.cpi {env : Env} {accounts : List Meta} {pdas borrowed : List Pubkey}
    {prog : Pubkey} {ix : TokenIx} (h : Funds L) (hr : ∀ n, 0 < env.rentMin n)
    (hc : invokeToken env accounts pdas borrowed prog ix L = .ok L') : Funds L' :=
  h.tokEff (by simpa [isTokenProgram] using (invokeToken_inv hc).1) hr
    (tokenExec_eff (invokeToken_inv hc).2.2.2.2)

/-- Setting one account. -/
theorem AllFunded.set {k : Pubkey} {a : Account} (h : AllFunded L) (ha : AcctFunds a) :
    AllFunded (L.set k a) := by
  intro x
  by_cases hx : x = k
  · subst hx; rw [Ledger.set_same]; exact ha
  · rw [Ledger.set_ne _ _ hx]; exact h x

theorem AllFunded.setData {k : Pubkey} {d : Data} (h : AllFunded L)
    (ha : AcctFunds { (L k) with data := d }) : AllFunded (L.setData k d) := by
  intro x
  by_cases hx : x = k
  · subst hx; rw [Ledger.setData_same]; exact ha
  · rw [Ledger.setData_ne _ _ hx]; exact h x

theorem AllFunded.baseStep {act : Act} (h : Funds L) (hs : BaseStep cr act L L') :
    AllFunded L' := by
  cases hs with
  | token hp _ he hr => exact h.all.tokEff h.native hp hr (tokenExec_eff he)
  | allocate _ ha =>
    unfold sysAllocate at ha
    simp only [bind_ok_iff, require_ok_iff, pure_ok_iff, Bool.and_eq_true, decide_eq_true_eq] at ha
    obtain ⟨_, _, _, ⟨h1, _⟩, rfl⟩ := ha
    exact h.all.setData (.of_data (by simp) (by simp))
  | assign _ hz ha =>
    unfold sysAssign at ha
    split at ha
    · cases ha; exact h.all
    · simp only [bind_ok_iff, require_ok_iff, pure_ok_iff] at ha
      obtain ⟨_, _, _, _, rfl⟩ := ha
      obtain ⟨b, hb, _⟩ := hz
      exact h.all.set (.of_data (by dsimp only; rw [hb]; simp) (by dsimp only; rw [hb]; simp))
  | createAta _ _ ha hr =>
    rename_i env wallet mint prog _ _
    obtain ⟨k, m, _, _, _, kd, _, _, _, _, rfl⟩ := ataCreate_inv ha
    refine h.all.set (.of_tok rfl ?_)
    have := hr (ataLen prog mint L)
    dsimp only
    refine ⟨by omega, ?_, ?_⟩
    · intro r hr'
      simp only [newTokenAcct] at hr' ⊢
      split at hr' <;> cases hr'
      rename_i hn
      rw [if_pos hn]
      omega
    · by_cases hn : mint ∈ nativeMints <;> simp [newTokenAcct, hn]
  | gc h0 => exact h.all.set (.of_owner system_not_token)
  | lamports h1 hl =>
    intro x
    refine (h.all x).kept (kept_lamports (h1 x) (hl x)) (fun ht => ?_)
    by_cases hx : (L' x).lamports < (L x).lamports
    · rw [(hl x hx).1, system_not_token] at ht; cases ht
    · omega
  | other hp _ _ hframe hown hlam =>
    rename_i prog _ _
    intro x
    by_cases hx : (L x).owner = prog
    · rcases hown x hx with ho | ⟨b, hb, _⟩
      · exact .of_owner (by rw [ho]; exact hp)
      · exact .of_data (by rw [hb]; simp) (by rw [hb]; simp)
    · exact (h.all x).kept ⟨(hframe x hx).1, (hframe x hx).2, fun _ => hlam x hx⟩
        (fun _ => hlam x hx)

theorem Funds.baseStep {act : Act} (h : Funds L) (hs : BaseStep cr act L L') : Funds L' :=
  ⟨.baseStep h hs, fun nm hnm => by
    obtain ⟨p, dec, hx⟩ := h.native nm hnm
    exact ⟨p, dec, hx.baseStep h.all hs⟩⟩

theorem Funds.run {ok : Act → Ledger → Prop} (h : Funds L) (hr : Run cr ok L L') : Funds L' := by
  induction hr with
  | refl => exact h
  | step _ h2 _ ih => exact ih (h.baseStep h2)

theorem Funds.wrapTransfer {env : Env} {accounts : List Meta} {a : WrapAccounts} {m : Mint}
    {amount fee : Nat} (h : Funds L) (hr : ∀ n, 0 < env.rentMin n)
    (hw : TokenWrap.wrapTransfer env accounts a m amount fee L = .ok L') : Funds L' := by
  unfold TokenWrap.wrapTransfer at hw
  dsimp only at hw
  split at hw
  · exact h.cpi hr hw
  · exact h.cpi hr hw

theorem AllFunded.instr {env : Env} {accounts : List Meta} {data : Bytes} (h : Funds L)
    (hid : env.programId = crateId) (hr : ∀ n, 0 < env.rentMin n)
    (hi : processInstruction env accounts data L = .ok L') : AllFunded L' := by
  obtain ⟨ix, rfl, h1⟩ := processInstruction_ok hi
  clear hi
  cases ix with
  | createMint idem =>
    obtain ⟨a, c, h2⟩ := processCreateMint_inv h1
    rcases h2 with ⟨_, rfl, _⟩ | ⟨mb, bb, L1, _, _, _, _, g1, g2⟩
    · exact h.all
    · obtain ⟨m, A, space, _, rw1, _, d1, d2, _, _, _, _, _, rfl⟩ :=
        createMint_fresh default_spec g1 g2
      refine (h.all.set (.of_mint rfl ?_)).set (.of_owner (by dsimp only; rw [hid]; exact crate_not_token))
      exact Nat.lt_of_lt_of_le (hr space) rw1
  | wrap amount =>
    obtain ⟨a, m, L1, pda, c⟩ := processWrapHooked_inv (hook := id)
      (by rw [processWrapHooked_id]; exact h1)
    exact ((h.wrapTransfer hr c.transfer).cpi hr c.mintTo).all
  | unwrap amount =>
    obtain ⟨a, m, L1, pda, c⟩ := processUnwrap_inv h1
    exact ((h.cpi hr c.burn).cpi hr c.transfer).all
  | closeStuckEscrow =>
    obtain ⟨a, t, m, pda, c⟩ := processClose_effect h1
    exact (h.cpi hr c.cpi).all
  | syncMetadataToToken2022 =>
    obtain ⟨a, src, m, m', e⟩ := processSync22_effect h1
    rw [e.final]
    refine h.all.setData (.of_mint rfl ?_)
    exact (h.all _).mint _ (by rw [e.wOwner]; rfl) e.wData
  | syncMetadataToSplToken =>
    obtain ⟨a, src, data, e⟩ := processSyncSpl_effect h1
    rcases e.run with ⟨_, g⟩ | ⟨_, g⟩
    · intro x
      by_cases hx : x = a.metaplexMetadata.key
      · obtain ⟨_, _, _, _, hb, _, _, _, _, rfl⟩ := mplCreate_inv g
        subst hx
        rw [Ledger.set_same]
        exact .of_owner metaplex_not_token
      · refine (h.all x).kept (kept_mplCreate g hx) (fun ht => ?_)
        obtain ⟨_, _, _, _, hb, _, _, _, ⟨hp, _⟩, rfl⟩ := mplCreate_inv g
        rw [Ledger.set_ne _ _ hx]
        simp only [Ledger.setLamports_apply]
        split
        · rename_i hx'; subst hx'; rw [hp, system_not_token] at ht; cases ht
        · exact Nat.le_refl _
    · obtain ⟨ho, md, hd, _, _, _, _, rfl⟩ := mplUpdate_inv g
      exact h.all.setData (.of_owner (by dsimp only; rw [ho]; exact metaplex_not_token))
  | setCanonicalPointer q =>
    obtain ⟨a, m, e⟩ := processPointer_effect h1
    rcases e.final with ⟨_, rfl⟩ | ⟨_, _, rfl⟩ | ⟨_, rfl⟩
    · exact h.all.set (.of_owner (by dsimp only; rw [hid]; exact crate_not_token))
    · exact h.all.set (.of_owner (by dsimp only; rw [hid]; exact crate_not_token))
    · exact h.all

/-- Every step keeps the chain-wide facts. -/
theorem Funds.step {act : Act} {ok : Act → Ledger → Prop} (h : Funds L) (hs : Step cr ok act L L') :
    Funds L' := by
  cases hs with
  | base hb => exact h.baseStep hb
  | wrapHooked _ _ _ hhook hw hr =>
    obtain ⟨a, m, L1, pda, c⟩ := processWrapHooked_inv hw
    exact ((h.wrapTransfer hr c.transfer).run (hhook L1)).cpi hr c.mintTo
  | tokenWrap _ hid _ hi hr =>
    exact ⟨.instr h hid hr hi, fun nm hnm => by
      obtain ⟨p, dec, hx⟩ := h.native nm hnm
      exact ⟨p, dec, hx.instr hid hi⟩⟩

/-! ## A plain mint stays one -/

theorem NoTags.run {ok : Act → Ledger → Prop} (h : NoTags T p u dec L) (hf : Funds L)
    (hr : Run cr ok L L') : NoTags T p u dec L' := by
  induction hr with
  | refl => exact h
  | step _ h2 _ ih => exact ih (h.baseStep hf.all h2) (hf.baseStep h2)

theorem NoTags.step {act : Act} {ok : Act → Ledger → Prop} (h : NoTags T p u dec L) (hf : Funds L)
    (hs : Step cr ok act L L') : NoTags T p u dec L' := by
  cases hs with
  | base hb => exact h.baseStep hf.all hb
  | wrapHooked _ _ _ hhook hw hr =>
    obtain ⟨a, m, L1, pda, c⟩ := processWrapHooked_inv hw
    exact ((h.wrapTransfer c.transfer).run (hf.wrapTransfer hr c.transfer) (hhook L1)).cpi c.mintTo
  | tokenWrap _ hid _ hi hr => exact h.instr hid hi

/-- A plain mint, with the chain-wide facts. -/
def PlainFunds (p u : Pubkey) (dec : UInt8) (L : Ledger) : Prop := PlainMint p u dec L ∧ Funds L

theorem PlainFunds.baseStep {act : Act} (h : PlainFunds p u dec L) (hs : BaseStep cr act L L') :
    PlainFunds p u dec L' :=
  ⟨plainMint_iff.2 ((plainMint_iff.1 h.1).baseStep h.2.all hs), h.2.baseStep hs⟩

theorem PlainFunds.wrapTransfer {env : Env} {accounts : List Meta} {a : WrapAccounts} {m : Mint}
    {amount fee : Nat} (h : PlainFunds p u dec L) (hr : ∀ n, 0 < env.rentMin n)
    (hw : TokenWrap.wrapTransfer env accounts a m amount fee L = .ok L') : PlainFunds p u dec L' :=
  ⟨plainMint_iff.2 ((plainMint_iff.1 h.1).wrapTransfer hw), h.2.wrapTransfer hr hw⟩

/-- A plain mint stays one. -/
theorem PlainFunds.step {act : Act} {ok : Act → Ledger → Prop} (h : PlainFunds p u dec L)
    (hs : Step cr ok act L L') : PlainFunds p u dec L' :=
  ⟨plainMint_iff.2 ((plainMint_iff.1 h.1).step h.2 hs), h.2.step hs⟩

/-- A stable mint, with the chain-wide facts. -/
def StableFunds (p u : Pubkey) (dec : UInt8) (L : Ledger) : Prop := StableMint p u dec L ∧ Funds L

theorem StableFunds.baseStep {act : Act} (h : StableFunds p u dec L) (hs : BaseStep cr act L L') :
    StableFunds p u dec L' :=
  ⟨stableMint_iff.2 ((stableMint_iff.1 h.1).baseStep h.2.all hs), h.2.baseStep hs⟩

theorem StableFunds.wrapTransfer {env : Env} {accounts : List Meta} {a : WrapAccounts} {m : Mint}
    {amount fee : Nat} (h : StableFunds p u dec L) (hr : ∀ n, 0 < env.rentMin n)
    (hw : TokenWrap.wrapTransfer env accounts a m amount fee L = .ok L') : StableFunds p u dec L' :=
  ⟨stableMint_iff.2 ((stableMint_iff.1 h.1).wrapTransfer hw), h.2.wrapTransfer hr hw⟩

/-- A stable mint stays one. -/
theorem StableFunds.step {act : Act} {ok : Act → Ledger → Prop} (h : StableFunds p u dec L)
    (hs : Step cr ok act L L') : StableFunds p u dec L' :=
  ⟨stableMint_iff.2 ((stableMint_iff.1 h.1).step h.2 hs), h.2.step hs⟩

/-! ## A stronger condition on runs and histories -/

theorem Run.mono_inv {ok ok' : Act → Ledger → Prop} {P : Ledger → Prop} (hP : ∀ {act L L'}, P L → BaseStep cr act L L' → P L')
    (hok : ∀ act L, ok act L → P L → ok' act L) (h0 : P L) (h : Run cr ok L L') : Run cr ok' L L' := by
  induction h with
  | refl => exact .refl
  | step h1 h2 _ ih => exact .step (hok _ _ h1 h0) h2 (ih (hP h0 h2))

end

end TokenWrap
