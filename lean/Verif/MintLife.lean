import Verif.Conserve
/-!
# How long a mint lives

A mint with tokens cannot be closed; Token Wrap closes no mint and changes no mint's decimals and
authorities.
-/

set_option linter.unusedSimpArgs false

namespace TokenWrap

/-- `u` is a mint of token program `p` with `dec` decimals. -/
def IsMint (p u : Pubkey) (dec : UInt8) (L : Ledger) : Prop :=
  isTokenProgram p = true ∧ (L u).owner = p ∧ ∃ m, (L u).data = .mint m ∧ m.decimals = dec

/-- `k` holds the same mint, up to supply and token metadata. -/
def MintUpTo (L L' : Ledger) (k : Pubkey) (m : Mint) : Prop :=
  (L' k).owner = (L k).owner ∧ ∃ m', (L' k).data = .mint m' ∧ m'.decimals = m.decimals ∧
    m'.mintAuthority = m.mintAuthority ∧ m'.freezeAuthority = m.freezeAuthority ∧
    otherExts m'.exts = otherExts m.exts

section
variable {cr : Crypto} {p u k : Pubkey} {dec : UInt8} {m : Mint} {L L' : Ledger}

theorem MintUpTo.of_kept (hm : (L k).data = .mint m) (h : Kept L L' k) : MintUpTo L L' k m :=
  ⟨h.1, m, h.2.trans hm, rfl, rfl, rfl, rfl⟩

theorem MintUpTo.isMint (hm : (L u).data = .mint m) (hs : MintUpTo L L' u m) (h : IsMint p u dec L) :
    IsMint p u dec L' := by
  obtain ⟨h1, h2, m0, h3, h4⟩ := h
  rw [hm] at h3; cases h3
  obtain ⟨s1, m', s2, s3, _⟩ := hs
  exact ⟨h1, s1.trans h2, m', s2, s3.trans h4⟩

/-- An account holding a mint is not touched by a transfer. -/
theorem Transferred.mint {src dst : Pubkey} {s d s0 d0 : TokenAcct} {amount fee : Nat}
    (h : Transferred L L' src dst s d amount fee) (hs : (L src).data = .token s0)
    (hd : (L dst).data = .token d0) (hm : (L k).data = .mint m) : L' k = L k :=
  h.other (by rintro rfl; rw [hm] at hs; cases hs) (by rintro rfl; rw [hm] at hd; cases hd)

theorem MintedTo.mint {prog mk dst auth : Pubkey} {n : Nat} {m0 : Mint} {d : TokenAcct}
    (h : MintedTo prog mk dst auth n L L' m0 d) (hm : (L k).data = .mint m) : MintUpTo L L' k m := by
  by_cases h1 : k = mk
  · subst h1
    have := h.md
    rw [hm] at this; cases this
    exact ⟨h.mkOwner.trans h.mo.symm, _, h.mkData, rfl, rfl, rfl, rfl⟩
  · refine .of_kept hm (.of_eq (h.other k h1 ?_))
    rintro rfl
    have := h.dd
    rw [hm] at this; cases this

/-- Token Wrap closes no mint and changes nobody's decimals or authorities. -/
theorem instr_mintUpTo {env : Env} {accounts : List Meta} {data : Bytes}
    (hid : env.programId = crateId) (ho : isTokenProgram (L k).owner = true)
    (hm : (L k).data = .mint m) (hi : processInstruction env accounts data L = .ok L') :
    MintUpTo L L' k m := by
  have nb : ∀ b, (L k).data ≠ .bytes b := by intro b; rw [hm]; simp
  obtain ⟨ix, rfl, h1⟩ := processInstruction_ok hi
  clear hi
  cases ix with
  | createMint idem =>
    obtain ⟨a, c, h2⟩ := processCreateMint_inv h1
    rcases h2 with ⟨_, rfl, _⟩ | ⟨mb, bb, L1, _, _, _, _, g1, g2⟩
    · exact .of_kept hm .rfl'
    · obtain ⟨m, A, space, _, _, _, d1, d2, _, _, _, _, _, rfl⟩ := createMint_fresh default_spec g1 g2
      refine .of_kept hm (.of_eq ?_)
      rw [Ledger.set_ne, Ledger.set_ne]
      · rintro rfl; exact nb [] (by rw [d1])
      · rintro rfl; exact nb [] (by rw [d2])
  | wrap amount =>
    obtain ⟨a, m0, L1, pda, c⟩ := processWrapHooked_inv (hook := id)
      (by rw [processWrapHooked_id]; exact h1)
    obtain ⟨t, d, t', tr⟩ := wrapTransfer_inv c.uMint c.transfer
    have h2 := tr.moved.mint tr.srcData tr.escData hm
    obtain ⟨w, r, mt⟩ := mintTo_cpi c.mintTo
    have hm1 : (L1 k).data = .mint m := by rw [h2]; exact hm
    obtain ⟨s1, m', s2⟩ := mt.mint hm1
    exact ⟨s1.trans (by rw [id_eq, h2]), m', s2⟩
  | unwrap amount =>
    obtain ⟨a, m0, w, hh, h', e, e', d, fee, L1, f⟩ := processUnwrap_effect h1
    have s1 : MintUpTo L L1 k m := by
      rw [f.mid]
      have h2 : k ≠ a.wrappedTokenAccount.key := by
        rintro rfl; have := f.hData; rw [hm] at this; cases this
      by_cases h3 : k = a.wrappedMint.key
      · subst h3
        have := f.wData
        rw [hm] at this; cases this
        refine ⟨?_, _, setData_data _ _ _, rfl, rfl, rfl, rfl⟩
        simp only [Ledger.setData_same, Ledger.setData_ne _ _ h2]
      · exact .of_kept hm (.of_eq (by rw [Ledger.setData_ne _ _ h3, Ledger.setData_ne _ _ h2]))
    obtain ⟨s1, m', s2, s3⟩ := s1
    have h2 := f.moved.mint f.eData f.dData s2
    exact ⟨by rw [h2]; exact s1, m', by rw [h2]; exact s2, s3⟩
  | closeStuckEscrow =>
    obtain ⟨a, t, m0, pda, c⟩ := processClose_effect h1
    rw [c.final]
    have h2 : k ≠ a.escrow.key := by rintro rfl; have := c.eData; rw [hm] at this; cases this
    exact .of_kept hm (kept_closeOut c.ne h2)
  | syncMetadataToToken2022 =>
    obtain ⟨a, src, m0, m', e⟩ := processSync22_effect h1
    rw [e.final]
    by_cases hx : k = a.wrappedMint.key
    · subst hx
      have := e.wData
      rw [hm] at this; cases this
      refine ⟨by simp, m', setData_data _ _ _, ?_, ?_, ?_, e.same.2⟩ <;> rw [e.same.1]
    · exact .of_kept hm (kept_setData hx)
  | syncMetadataToSplToken =>
    obtain ⟨a, src, data, e⟩ := processSyncSpl_effect h1
    rcases e.run with ⟨_, g⟩ | ⟨_, g⟩
    · have g0 := g
      obtain ⟨_, _, _, _, hb, _, _, _, _, rfl⟩ := mplCreate_inv g
      have hx : k ≠ a.metaplexMetadata.key := by rintro rfl; exact nb _ hb
      exact .of_kept hm (kept_mplCreate g0 hx)
    · obtain ⟨_, md, hd, _, _, _, _, rfl⟩ := mplUpdate_inv g
      refine .of_kept hm (kept_setData ?_)
      rintro rfl
      rw [hm] at hd; cases hd
  | setCanonicalPointer q =>
    obtain ⟨a, m0, e⟩ := processPointer_effect h1
    have hne : (L a.pointer.key).data = .bytes [] ∨ (L a.pointer.key).owner = crateId →
        k ≠ a.pointer.key := by
      rintro (hb | ho') rfl
      · exact nb _ hb
      · rw [ho', crate_not_token] at ho; cases ho
    rcases e.final with ⟨⟨hb, _⟩, rfl⟩ | ⟨_, ho, rfl⟩ | ⟨_, rfl⟩
    · exact .of_kept hm (.of_eq (Ledger.set_ne _ _ (hne (.inl hb))))
    · refine .of_kept hm (.of_eq (Ledger.set_ne _ _ (hne (.inr ?_))))
      rw [ho]; exact hid
    · exact .of_kept hm .rfl'

/-- Token Wrap does not touch any mint but wrapped mints. -/
theorem instr_mintKept {env : Env} {accounts : List Meta} {data : Bytes}
    (hid : env.programId = crateId) (ho : isTokenProgram (L k).owner = true)
    (hm : (L k).data = .mint m) (hk : ∀ u p, wrappedMintAddress env.cr u p ≠ some k)
    (hi : processInstruction env accounts data L = .ok L') : Kept L L' k := by
  have nb : ∀ b, (L k).data ≠ .bytes b := by intro b; rw [hm]; simp
  obtain ⟨ix, rfl, h1⟩ := processInstruction_ok hi
  clear hi
  cases ix with
  | createMint idem =>
    obtain ⟨a, c, h2⟩ := processCreateMint_inv h1
    rcases h2 with ⟨_, rfl, _⟩ | ⟨mb, bb, L1, _, _, _, _, g1, g2⟩
    · exact .rfl'
    · obtain ⟨m, A, space, _, _, _, d1, d2, _, _, _, _, _, rfl⟩ := createMint_fresh default_spec g1 g2
      refine .of_eq ?_
      rw [Ledger.set_ne, Ledger.set_ne]
      · rintro rfl; exact nb [] (by rw [d1])
      · rintro rfl; exact nb [] (by rw [d2])
  | wrap amount =>
    obtain ⟨a, m0, L1, pda, c⟩ := processWrapHooked_inv (hook := id)
      (by rw [processWrapHooked_id]; exact h1)
    obtain ⟨t, d, t', tr⟩ := wrapTransfer_inv c.uMint c.transfer
    have h2 := tr.moved.mint tr.srcData tr.escData hm
    obtain ⟨w, r, mt⟩ := mintTo_cpi c.mintTo
    have hm1 : (L1 k).data = .mint m := by rw [h2]; exact hm
    have h3 : k ≠ a.wrappedMint.key := by rintro rfl; exact hk _ _ c.mint
    have h4 : k ≠ a.recipient.key := by
      rintro rfl
      have := mt.dd
      rw [id_eq, hm1] at this; cases this
    exact .of_eq ((mt.other k h3 h4).trans h2)
  | unwrap amount =>
    obtain ⟨a, m0, w, hh, h', e, e', d, fee, L1, f⟩ := processUnwrap_effect h1
    obtain ⟨pda, c⟩ := f.ctx
    have h2 : k ≠ a.wrappedTokenAccount.key := by
      rintro rfl; have := f.hData; rw [hm] at this; cases this
    have h3 : k ≠ a.wrappedMint.key := by rintro rfl; exact hk _ _ c.mint
    have h4 : L1 k = L k := by rw [f.mid, Ledger.setData_ne _ _ h3, Ledger.setData_ne _ _ h2]
    have h5 := f.moved.mint f.eData f.dData (by rw [h4]; exact hm)
    exact .of_eq (h5.trans h4)
  | closeStuckEscrow =>
    obtain ⟨a, t, m0, pda, c⟩ := processClose_effect h1
    rw [c.final]
    have h2 : k ≠ a.escrow.key := by rintro rfl; have := c.eData; rw [hm] at this; cases this
    exact kept_closeOut c.ne h2
  | syncMetadataToToken2022 =>
    obtain ⟨a, src, m0, m', e⟩ := processSync22_effect h1
    rw [e.final]
    exact kept_setData (by rintro rfl; exact hk _ _ e.mint)
  | syncMetadataToSplToken =>
    obtain ⟨a, src, data, e⟩ := processSyncSpl_effect h1
    rcases e.run with ⟨_, g⟩ | ⟨_, g⟩
    · have g0 := g
      obtain ⟨_, _, _, _, hb, _, _, _, _, rfl⟩ := mplCreate_inv g
      have hx : k ≠ a.metaplexMetadata.key := by rintro rfl; exact nb _ hb
      exact kept_mplCreate g0 hx
    · obtain ⟨_, md, hd, _, _, _, _, rfl⟩ := mplUpdate_inv g
      refine kept_setData ?_
      rintro rfl
      rw [hm] at hd; cases hd
  | setCanonicalPointer q =>
    obtain ⟨a, m0, e⟩ := processPointer_effect h1
    have hne : (L a.pointer.key).data = .bytes [] ∨ (L a.pointer.key).owner = crateId →
        k ≠ a.pointer.key := by
      rintro (hb | ho') rfl
      · exact nb _ hb
      · rw [ho', crate_not_token] at ho; cases ho
    rcases e.final with ⟨⟨hb, _⟩, rfl⟩ | ⟨_, ho, rfl⟩ | ⟨_, rfl⟩
    · exact .of_eq (Ledger.set_ne _ _ (hne (.inl hb)))
    · refine .of_eq (Ledger.set_ne _ _ (hne (.inr ?_)))
      rw [ho]; exact hid
    · exact .rfl'

theorem IsMint.kept (h : IsMint p u dec L) (k : Kept L L' u) : IsMint p u dec L' :=
  ⟨h.1, k.1.trans h.2.1, by rw [k.2]; exact h.2.2⟩

theorem IsMint.upd (h : IsMint p u dec L) {m m' : Mint} (hm : (L u).data = .mint m)
    (ho : (L' u).owner = p) (hd : (L' u).data = .mint m') (hdec : m'.decimals = m.decimals) :
    IsMint p u dec L' := by
  obtain ⟨h1, _, m0, hm0, hd0⟩ := h
  rw [hm] at hm0; cases hm0
  exact ⟨h1, ho, m', hd, hdec.trans hd0⟩

theorem IsMint.supply (h : IsMint p u dec L) (hm : (L u).data = .mint m) :
    mintSupply u L = m.supply := supplyIn_mint (by rw [h.2.1]; exact h.1) hm

/-- A token instruction leaves a mint with tokens in place. -/
theorem IsMint.tokEff {rm : Nat → Nat} {prog : Pubkey} {signed : Pubkey → Bool} (h : IsMint p u dec L)
    (pos : 0 < mintSupply u L) (e : TokEff rm prog signed L L') : IsMint p u dec L' := by
  have hk : Kept L L' u → IsMint p u dec L' := h.kept
  obtain ⟨m1, hm1⟩ : ∃ m, (L u).data = .mint m := by obtain ⟨_, _, m, hm, _⟩ := h; exact ⟨m, hm⟩
  have nt : ∀ t, (L u).data ≠ .token t := by intro t; rw [hm1]; simp
  have nb : ∀ b, (L u).data ≠ .bytes b := by intro b; rw [hm1]; simp
  have ho := h.2.1
  cases e with
  | same hf => exact hk (hf u)
  | drain hf => exact hk (hf u)
  | tok k t t' _ hd _ _ hf =>
    exact hk (hf u (by rintro rfl; exact nt _ hd))
  | move src dst s s' d d' ne so sd so' sd' do_ dd do' dd' hf =>
    exact hk (hf u (by rintro rfl; exact nt _ sd) (by rintro rfl; exact nt _ dd))
  | fees mk m mo md fee all =>
    rcases all u with hf | ⟨t, t', _, hd, _⟩ | ⟨rfl, m', h1, h2, _, h4, _, _, h7⟩
    · exact hk hf
    · exact absurd hd (nt _)
    · exact h.upd md (h1.trans (mo.symm.trans ho)) h2 h4
  | mintUpd k m m' mo hd ho' hd' hf supply decimals authority freeze exts tags =>
    by_cases hx : u = k
    · subst hx; exact h.upd hd (ho'.trans (mo.symm.trans ho)) hd' decimals
    · exact hk (hf u hx)
  | mintTo mk dst m d n a mo md do_ dd dm auth appr fit sfit final =>
    have h2 : u ≠ dst := by rintro rfl; exact nt _ dd
    by_cases hx : u = mk
    · subst hx
      refine h.upd (m' := { m with supply := m.supply + n }) md ?_ (by rw [final]; exact setData_data _ _ _) rfl
      rw [final]
      simp only [Ledger.setData_same, Ledger.setData_ne _ _ h2]; exact ho
    · exact hk (.of_eq (by rw [final, Ledger.setData_ne _ _ hx, Ledger.setData_ne _ _ h2]))
  | burn mk acct m s s' n mo md so sd sm le sle same auth final =>
    have h2 : u ≠ acct := by rintro rfl; exact nt _ sd
    by_cases hx : u = mk
    · subst hx
      refine h.upd (m' := { m with supply := m.supply - n }) md ?_ (by rw [final]; exact setData_data _ _ _) rfl
      rw [final]
      simp only [Ledger.setData_same, Ledger.setData_ne _ _ h2]; exact ho
    · exact hk (.of_eq (by rw [final, Ledger.setData_ne _ _ hx, Ledger.setData_ne _ _ h2]))
  | closeTok k t _ hd _ hf =>
    exact hk (hf u (by rintro rfl; exact nt _ hd))
  | closeMint k m a _ hd ca _ hf lam empty =>
    by_cases hx : u = k
    · subst hx; rw [h.supply hd, empty] at pos; cases pos
    · exact hk (hf u hx)
  | initTok k b t m _ hd _ _ _ _ _ hf =>
    exact hk (hf u (by rintro rfl; exact nb _ hd))
  | initOther k _ hd _ _ hf =>
    refine hk (hf u ?_)
    rintro rfl
    rcases hd with ⟨b, hd⟩ | ⟨n, e, hd⟩
    · exact nb _ hd
    · rw [hm1] at hd; cases hd

/-- Any step of another program leaves a mint with tokens in place. -/
theorem IsMint.baseStep {act : Act} (h : IsMint p u dec L) (pos : 0 < mintSupply u L)
    (hf : AllFunded L) (hs : BaseStep cr act L L') : IsMint p u dec L' := by
  obtain ⟨m1, hm1⟩ : ∃ m, (L u).data = .mint m := by obtain ⟨_, _, m, hm, _⟩ := h; exact ⟨m, hm⟩
  have nb : ∀ b, (L u).data ≠ .bytes b := by intro b; rw [hm1]; simp
  have hto : isTokenProgram (L u).owner = true := by rw [h.2.1]; exact h.1
  cases hs with
  | token _ _ he => exact h.tokEff pos (tokenExec_eff he)
  | allocate _ ha =>
    unfold sysAllocate at ha
    simp only [bind_ok_iff, require_ok_iff, pure_ok_iff, Bool.and_eq_true, decide_eq_true_eq] at ha
    obtain ⟨_, _, _, ⟨h1, _⟩, rfl⟩ := ha
    exact h.kept (kept_setData (by rintro rfl; exact nb _ h1))
  | assign _ hz ha =>
    unfold sysAssign at ha
    split at ha
    · cases ha; exact h
    · simp only [bind_ok_iff, require_ok_iff, pure_ok_iff] at ha
      obtain ⟨_, _, _, _, rfl⟩ := ha
      refine h.kept (.of_eq (Ledger.set_ne _ _ ?_))
      rintro rfl
      obtain ⟨b, hb, _⟩ := hz
      exact nb _ hb
  | createAta _ _ ha =>
    obtain ⟨k, m, _, _, _, kd, _, _, _, _, rfl⟩ := ataCreate_inv ha
    exact h.kept (.of_eq (Ledger.set_ne _ _ (by rintro rfl; exact nb _ kd)))
  | gc h0 =>
    refine h.kept (.of_eq (Ledger.set_ne _ _ ?_))
    rintro rfl
    have := (hf u).mint m1 hto hm1
    omega
  | lamports h1 hl => exact h.kept (kept_lamports (h1 u) (hl u))
  | other hp _ _ hframe _ hlam =>
    rename_i prog _ _ _
    have hne : (L u).owner ≠ prog := by
      rintro rfl
      rw [hto] at hp; cases hp
    exact h.kept ⟨(hframe u hne).1, (hframe u hne).2, fun _ => hlam u hne⟩

end

end TokenWrap
