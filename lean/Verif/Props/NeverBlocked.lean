import Verif.Props.Redeem
import Verif.Props.Isolation
import Verif.Props.CreateMint
import Verif.Props.Clients
import Verif.Props.Close
import Verif.Props.Sync22
import Verif.Props.SyncSpl
/-!
# Nobody can block a pair; where its metadata comes from (C66, C67)

Whatever anybody did before, the instructions built by the clients go through for whoever meets the
token programs' own conditions.
-/

set_option linter.unusedSimpArgs false

namespace TokenWrap

section
variable {cr : Crypto} {s : Setting cr} {ok : Act → Ledger → Prop} {L0 L L' : Ledger} {trace : List Act}
  {act : Act} {env : Env}

theorem CanSign.ne_W {k : Pubkey} (h : CanSign cr k) : k ≠ s.W := by
  rintro rfl; exact s.W_noSign h
theorem CanSign.ne_B {k : Pubkey} (h : CanSign cr k) : k ≠ s.B := by
  rintro rfl; exact s.B_noSign h

/-! ## C66 -/

/-- **C66** Creation: in every history, as long as the wrapped mint has not been created, the
transaction the CLI builds creates it, for every payer with enough lamports.  (Nobody can occupy the
addresses or otherwise spoil the creation in advance.) -/
theorem creation_never_blocked {payer : Pubkey} (idem : Bool) {um : Mint}
    (h0 : Fresh s L0) (h : History cr ok L0 trace L) (hcr : env.cr = cr)
    (hid : env.programId = crateId) (hrej : ∀ ix s' L, env.reject s.wp ix s' L = none)
    (hnew : ∀ m, (L s.W).data ≠ .mint m)
    (uo : (L s.u).owner = splTokenId ∨ (L s.u).owner = token2022Id) (ud : (L s.u).data = .mint um)
    (hp : CanSign cr payer) (po : (L payer).owner = systemId ∧ (L payer).data = .bytes [])
    (hl : (env.rentMin (specMintSize s.wp) - (L s.W).lamports) +
      (env.rentMin 32 - (L s.B).lamports) ≤ (L payer).lamports) :
    ∃ ixs L', cliCreateMint env payer s.u s.wp idem L = .ok ixs ∧ runClient env ixs L = .ok L' := by
  have hb : Blank L s.W ∧ Blank L s.B := by
    rcases (h.inv' h0).w with hb | hw
    · exact hb
    · obtain ⟨m, hm, _⟩ := hw.mint; exact absurd hm (hnew m)
  subst hcr
  have hc := cliCreateMint_ok (payer := payer) (idem := idem) (L := L) s.rW.address s.rB.address
  obtain ⟨L', hL'⟩ := createMint_transaction_succeeds hid hrej s.wpOk s.rW.address s.rB.address
    s.rA.address s.W_ne_B uo ud hb.1 hb.2 po hp.ne_W hp.ne_B hl hc
  exact ⟨_, L', hc, hL'⟩

/-- **C66** Idempotent creation of an existing wrapped mint always succeeds and changes nothing. -/
theorem creation_idempotent_always {m : Mint} (h0 : Fresh s L0) (h : History cr ok L0 trace L)
    (hcr : env.cr = cr) (hid : env.programId = crateId) (hm : (L s.W).data = .mint m)
    (uo : (L s.u).owner = splTokenId ∨ (L s.u).owner = token2022Id) :
    processInstruction env (Build.createMint crateId s.W s.B s.u s.wp true).accounts
      (Build.createMint crateId s.W s.B s.u s.wp true).data L = .ok L := by
  have hw : WrappedOk s L := by
    rcases (h.inv' h0).w with ⟨hb, _⟩ | hw
    · rw [hb.2] at hm; cases hm
    · exact hw
  obtain ⟨mb, hmb⟩ := wrappedMintAddress_some.1 s.rW.address
  obtain ⟨bb, hbb⟩ := backpointerAddress_some.1 s.rB.address
  have ho' : (decide ((L s.u).owner = splTokenId) || decide ((L s.u).owner = token2022Id)) = true := by
    simpa using uo
  have hlen : 0 < (L s.W).data.len ∨ 0 < (L s.B).data.len := by
    left; rw [hm]; exact mint_len_pos m
  simp only [Build.createMint]
  rw [processInstruction_pack]
  simp only [dispatch, processCreateMint, parseCreateMint, ok_bind, Meta.rw, Meta.ro, hcr, hmb, hbb,
    okOr_some, decide_true, require_true, ho', if_pos hlen, hw.owner, hw.bOwner, hid]
  rfl

/-- The escrow address of the token program `p`. -/
theorem Setting.escrowFor_address {p : Pubkey} (hp : p = splTokenId ∨ p = token2022Id) :
    associatedTokenAddress cr s.A s.u p = some (s.escrowFor p) := by
  unfold Setting.escrowFor
  rcases hp with rfl | rfl
  · rw [if_pos rfl]; exact s.rEs.address
  · rw [if_neg (Ne.symm spl_ne_2022)]; exact s.rEt.address

theorem Inv.escrowFor {bk : Bk} {p : Pubkey} (hi : Inv bk s L)
    (hp : p = splTokenId ∨ p = token2022Id) : EscrowOk s.u s.A p (s.escrowFor p) L := by
  unfold Setting.escrowFor
  rcases hp with rfl | rfl
  · rw [if_pos rfl]; exact hi.es
  · rw [if_neg (Ne.symm spl_ne_2022)]; exact hi.et

/-- **C66** Escrow: in every history the escrow address is either empty, and then anybody who can pay what
it lacks of the rent can create the escrow there (whatever lamports somebody has sent there), or holds the
escrow: a token account of the unwrapped mint owned by the authority PDA, without delegate and close
authority.  Nobody can put anything else there. -/
theorem escrow_never_blocked {um : Mint} {p : Pubkey} (h0 : Fresh s L0)
    (h : History cr ok L0 trace L) (hcr : env.cr = cr) (hp : p = splTokenId ∨ p = token2022Id)
    (uo : (L s.u).owner = p) (ud : (L s.u).data = .mint um) (spl : p = splTokenId → um.exts = []) :
    (Blank L (s.escrowFor p) ∧ ∀ payer, CanSign cr payer → Blank L payer →
      env.rentMin (ataLen p s.u L) - (L (s.escrowFor p)).lamports ≤ (L payer).lamports →
      ∃ L' t, runClient env [.createAta payer s.A s.u p] L = .ok L' ∧
        OnlyChanged [payer, s.escrowFor p] L L' ∧
        (L' payer).lamports + (env.rentMin (ataLen p s.u L) - (L (s.escrowFor p)).lamports) =
          (L payer).lamports ∧
        (L' (s.escrowFor p)).owner = p ∧ (L' (s.escrowFor p)).data = .token t ∧ t.mint = s.u ∧
        t.owner = s.A ∧ t.delegate = none ∧ t.closeAuthority = none) ∨
    ((L (s.escrowFor p)).owner = p ∧ ∃ t, (L (s.escrowFor p)).data = .token t ∧ t.mint = s.u ∧
      t.owner = s.A ∧ t.delegate = none ∧ t.closeAuthority = none) := by
  rcases (h.inv' h0).escrowFor hp with hb | ⟨ho, t, ht, h1, h2, h3, h4, _⟩
  · refine .inl ⟨hb, fun payer hc pb pl => ?_⟩
    have hne : payer ≠ s.escrowFor p := by
      rintro rfl
      unfold Setting.escrowFor at hc
      split at hc
      · exact s.Es_noSign hc
      · exact s.Et_noSign hc
    have hr := ataCreatePaid_ok (env := env) hp (by rw [hcr]; exact s.escrowFor_address hp) hb.1 hb.2 uo ud
      spl pb.1 pb.2 hne pl
    refine ⟨_, newTokenAcct (env.rentMin (ataLen p s.u L)) p (max (L (s.escrowFor p)).lamports
      (env.rentMin (ataLen p s.u L))) s.u um s.A [.immutableOwner], by simpa only [runClient, runClientIx, bind_ok_iff, Except.ok.injEq, exists_eq_right]
      using hr, ?_, ?_, ?_, ?_, rfl, rfl, rfl, rfl⟩
    · intro k hk
      simp only [List.mem_cons, List.not_mem_nil, or_false, not_or] at hk
      rw [Ledger.set_ne _ _ hk.2, Ledger.setLamports_ne _ _ hk.1]
    · rw [Ledger.set_ne _ _ hne, Ledger.setLamports_same]
      dsimp only
      omega
    · rw [Ledger.set_same]
    · rw [Ledger.set_same]
  · exact .inr ⟨ho, t, ht, h1, h2, h3, h4⟩

/-- **C66** Wrapping: in every history in which no permanent delegate of the unwrapped mint acts, for an
unwrapped mint without close authority, whoever may spend unfrozen tokens of the unwrapped mint can wrap
them into any unfrozen account of the wrapped mint, provided the escrow exists, is not frozen by
the unwrapped mint's authority, has room and can hold withheld fees if the mint charges any.  The
wrapped mint, its supply and its authority never stand in the way. -/
theorem wrap_never_blocked {p : Pubkey} {dec : UInt8} {src rcp tauth : Pubkey}
    {members : List Pubkey} {t e r : TokenAcct} {amount : UInt64} {m w : Mint}
    (h0 : Fresh s L0) (hm : StableMint p s.u dec L0) (h : History cr (PDIdle cr s.u) L0 trace L)
    (hcr : env.cr = cr) (hid : env.programId = crateId)
    (hrej : ∀ p ix sg L, env.reject p ix sg L = none)
    (created : (L s.W).data = .mint w) (pos : amount ≠ 0)
    (srcOwner : (L src).owner = p) (srcData : (L src).data = .token t) (srcMint : t.mint = s.u)
    (thawed : t.frozen = false) (enough : amount.toNat ≤ t.amount)
    (spend : CanSpend t m.permanentDelegate? tauth amount.toNat)
    (approval : BuiltApproval p L tauth members)
    (umint : (L s.u).data = .mint m) (spl : p = splTokenId → m.exts = []) (fees : FeesValid m)
    (escData : (L (s.escrowFor p)).data = .token e) (escThawed : e.frozen = false)
    (escFee : m.transferFee? = none ∨ AcctExt.transferFeeAmount ∈ e.exts)
    (escRoom : e.amount + amount.toNat ≤ u64Max)
    (recv : HoldsWrapped s L rcp r) (rThawed : r.frozen = false) :
    ∃ L', processInstruction env
      (Build.wrap crateId rcp s.W s.A p s.wp src s.u (s.escrowFor p) tauth members amount).accounts
      (Build.wrap crateId rcp s.W s.A p s.wp src s.u (s.escrowFor p) tauth members amount).data L =
        .ok L' := by
  have hi := h.invB h0
  have hpl := (h.stable h0.funds hm).2
  have hp := hpl.1
  have hback := always_backed_stable h0 hm h
  have hle := hi.holder_le recv
  rw [balanceOf_token escData] at hback
  have hw : WrappedOk s L := by
    rcases hi.w with ⟨h1, _⟩ | h1
    · rw [h1.2] at created; cases created
    · exact h1
  obtain ⟨w', hwd, hwa, _, hwe⟩ := hw.mint
  rw [created] at hwd; cases hwd
  have hsup := supplyOf_mint created
  obtain ⟨fee, hfee, hfl, hf0⟩ := feeOf_valid (prog := p) (epoch := env.epoch) fees
    (show amount.toNat ≤ u64Max by have := amount.toNat_lt; unfold u64Max; omega)
  have hpd : pdOf p m = m.permanentDelegate? := by
    unfold pdOf
    rcases hp with rfl | rfl
    · rw [if_neg spl_ne_2022]; unfold Mint.permanentDelegate?; rw [spl rfl]; rfl
    · rw [if_pos rfl]
  obtain ⟨eo, e', he', em, eow, _⟩ : (L (s.escrowFor p)).owner = p ∧ ∃ t,
      (L (s.escrowFor p)).data = .token t ∧ t.mint = s.u ∧ t.owner = s.A ∧ True := by
    rcases hi.escrowFor hp with hb | ⟨ho, t, ht, h1, h2, _⟩
    · rw [hb.2] at escData; cases escData
    · exact ⟨ho, t, ht, h1, h2, trivial⟩
  rw [escData] at he'; cases he'
  refine wrap_succeeds (fee := fee) (s := t) (d := e) (r := r) (m := m) (w := w) hid pos hrej
    ⟨{ uprogOk := hp, wprogOk := s.wpOk, addrW := by rw [hcr]; exact s.rW.address
       addrA := by rw [hcr]; exact s.rA.address
       addrE := by rw [hcr]; exact s.escrowFor_address hp
       wNeU := fun h => s.uFree.1 h.symm, srcOwner := srcOwner, srcData := srcData
       srcMint := srcMint, srcThawed := thawed, enough := enough, native := ?_
       spend := by rw [hpd]; exact spend, approval := approval, mintOwner := hpl.2.1
       mintData := umint, splExts := spl, feeEq := hfee, feeLe := hfl, wOwner := hw.owner
       wData := created, wExts := ?_, wAuth := hwa, aData := hi.a.2, rOwner := recv.1
       rData := recv.2.1, rMint := recv.2.2, rThawed := rThawed
       rNative := hi.noNative _ _ recv.1 recv.2.1 recv.2.2
       rRoom := by omega, supRoom := by omega },
     eo, escData, em, eow, escThawed, ?_, by omega⟩
  · have f := ((h.funds h0.funds).all src).tok t
      (by rw [srcOwner]; rcases hp with rfl | rfl <;> rfl) srcData
    cases hn : t.isNative with
    | none => exact .inl rfl
    | some r => have := (f.reserve r hn).2; exact .inr (by omega)
  · intro hs
    rcases hwe with ⟨_, h⟩ | ⟨h, _⟩
    · exact h
    · rw [hs] at h; exact absurd h spl_ne_2022
  · rcases escFee with h | h
    · exact .inl (hf0 h)
    · exact .inr h

/-- **C66** Repair: in every history, an empty, unfrozen escrow without withheld or confidential
amounts whose extensions differ from what the mint now requires can be closed by anybody. -/
theorem repair_never_blocked {dest : Pubkey} {t : TokenAcct} {m w : Mint} (h0 : Fresh s L0)
    (h : History cr ok L0 trace L) (hcr : env.cr = cr) (hid : env.programId = crateId)
    (hrej : ∀ p ix sg L, env.reject p ix sg L = none)
    (created : (L s.W).data = .mint w)
    (uo : (L s.u).owner = token2022Id) (ud : (L s.u).data = .mint m)
    (ed : (L s.Et).data = .token t) (empty : t.amount = 0) (thawed : t.frozen = false)
    (withheld : t.withheld = 0) (confidential : t.confidential = 0)
    (noDup : NoDupExts t m) (differs : ¬ HasRequiredExts t m) (hd1 : dest ≠ s.Et) (hd2 : dest ≠ s.u) :
    processInstruction env (Build.closeStuckEscrow crateId s.Et dest s.u s.W s.A).accounts
      (Build.closeStuckEscrow crateId s.Et dest s.u s.W s.A).data L = .ok (closeOut L s.Et dest) := by
  have hi := h.inv' h0
  have hw : WrappedOk s L := by
    rcases hi.w with ⟨h1, _⟩ | h1
    · rw [h1.2] at created; cases created
    · exact h1
  rcases hi.et with hb | ⟨ho, t', ht, h1, h2, h3, h4, _⟩
  · rw [hb.2] at ed; cases ed
  rw [ed] at ht; cases ht
  subst hcr
  exact close_succeeds hid hrej
    { addrW := s.rW.address, addrA := s.rA.address, addrE := s.rEt.address, wOwner := hw.owner
      uOwner := uo, uData := ud, eOwner := ho, eData := ed, tOwner := h2, tClose := h4
      empty, thawed, withheld, confidential, aData := hi.a.2, aOk := s.aFree
      noDup, differs } hd1 hd2

/-- **C66** Canonical pointer: in every history the mint authority of any mint can set its pointer,
first time (if the address holds rent) and again. -/
theorem pointer_never_blocked {u P k p : Pubkey} {m : Mint} (r : Reserved cr (.canonicalPointer u) P)
    (h0 : Blank L0 P) (h : History cr ok L0 trace L) (hcr : env.cr = cr)
    (hid : env.programId = crateId)
    (ho : (L u).owner = splTokenId ∨ (L u).owner = token2022Id) (hm : (L u).data = .mint m)
    (hk : m.mintAuthority = some k)
    (rent : Blank L P → env.rentMin 32 ≤ (L P).lamports) :
    ∃ L', processInstruction env (Build.setCanonicalPointer crateId k P u p).accounts
      (Build.setCanonicalPointer crateId k P u p).data L = .ok L' ∧
      (L' P).owner = crateId ∧ (L' P).data = .bytes p.bytes := by
  have hp := pointer_holds_last_write' r h0 h
  refine ⟨_, pointer_succeeds hid ho hm hk (by rw [hcr]; exact r.address) ?_, ?_, ?_⟩
  · cases hl : lastPointer P trace with
    | none => rw [hl] at hp; exact .inl ⟨hp.2, hp.1, rent hp⟩
    | some q => rw [hl] at hp; exact .inr ⟨hp.1, q, hp.2.1⟩
  · rw [Ledger.set_same]
  · rw [Ledger.set_same]

/-- **C66** Metadata sync to Token-2022: in every history, once the wrapped Token-2022 mint exists,
anybody can sync whenever the source can be read. -/
theorem sync22_never_blocked {sk op : Option Pubkey} {src : TokenMetadata} {w : Mint}
    (h0 : Fresh s L0) (h : History cr ok L0 trace L) (h22 : s.wp = token2022Id) (hcr : env.cr = cr)
    (hid : env.programId = crateId) (hord : FairOrder env) (hacc : AcceptsMetadata env)
    (created : (L s.W).data = .mint w) (hso : op.isSome → sk.isSome)
    (hsrc : MetadataSource env L s.u sk op src) :
    ∃ L', processInstruction env (Build.syncMetadataToToken2022 crateId s.W s.A s.u sk op).accounts
      (Build.syncMetadataToToken2022 crateId s.W s.A s.u sk op).data L = .ok L' := by
  have hi := h.inv' h0
  have hw : WrappedOk s L := by
    rcases hi.w with ⟨h1, _⟩ | h1
    · rw [h1.2] at created; cases created
    · exact h1
  obtain ⟨w', hwd, hwa, _, hwe⟩ := hw.mint
  rw [created] at hwd; cases hwd
  subst hcr
  have hwe' : w.exts = defaultExts s.A s.W ∨ ∃ md, w.exts = defaultExts s.A s.W ++
      [.tokenMetadata md] ∧ md.updateAuthority = some s.A ∧ md.mint = s.W ∧
      (md.additional.map (·.1)).Nodup := by
    rcases hwe with ⟨h, _⟩ | ⟨_, h⟩
    · rw [h22] at h; exact absurd h.symm spl_ne_2022
    · exact h
  have addr : wrappedMintAddress env.cr s.u token2022Id = some s.W := h22 ▸ s.rW.address
  refine sync22_succeeds hid hord hacc hso addr s.rA.address hsrc (hw.owner.trans h22) created
    hwa ?_ ?_
  · rcases hwe' with h | ⟨md, h, _⟩ <;> simp [Mint.metadataPointer?, h, defaultExts]
  · intro md hmd
    rcases hwe' with h | ⟨md', h, h1, _, h2⟩
    · simp [Mint.tokenMetadata?, h, defaultExts] at hmd
    · simp [Mint.tokenMetadata?, h, defaultExts] at hmd
      subst hmd; exact ⟨h1, h2⟩

/-- **C66** Metadata sync to Metaplex: in every history, once the wrapped SPL Token mint exists,
anybody can sync whenever the source is readable and convertible, Metaplex accepts, and the metadata
account is absent (and the authority PDA has been given the lamports) or controlled by the PDA. -/
theorem syncSpl_never_blocked {X : Pubkey} {sk op : Option Pubkey} {src : TokenMetadata} {d : DataV2}
    {w : Mint} (h0 : Fresh s L0) (h : History cr ok L0 trace L) (hspl : s.wp = splTokenId)
    (hcr : env.cr = cr) (hid : env.programId = crateId) (created : (L s.W).data = .mint w)
    (hso : op.isSome → sk.isSome) (hX : metaplexPda cr s.W = some X)
    (hsrc : MetadataSource env L s.u sk op src) (hap : AllParse env src.additional)
    (hc : IsConverted env src d) (hrej : ∀ sg, env.mplReject sg X d L = none)
    (hX' : ((L X).data = .bytes [] ∧ (L X).owner = systemId ∧
        env.mplCost (L X).lamports ≤ (L s.A).lamports) ∨
      ∃ md, (L X).data = .metaplex md ∧ (L X).owner = metaplexId ∧ md.updateAuthority = s.A ∧
        md.isMutable = true) :
    ∃ L', processInstruction env (Build.syncMetadataToSplToken crateId X s.A s.W s.u sk op).accounts
      (Build.syncMetadataToSplToken crateId X s.A s.W s.u sk op).data L = .ok L' := by
  have hi := h.inv' h0
  have hw : WrappedOk s L := by
    rcases hi.w with ⟨h1, _⟩ | h1
    · rw [h1.2] at created; cases created
    · exact h1
  obtain ⟨w', hwd, hwa, _, hwe⟩ := hw.mint
  rw [created] at hwd; cases hwd
  subst hcr
  have addr : wrappedMintAddress env.cr s.u splTokenId = some s.W := hspl ▸ s.rW.address
  refine syncSpl_succeeds hid hso addr s.rA.address hX hsrc hap hc hrej (hw.owner.trans hspl) created
    hwa ?_
  rcases hX' with ⟨h1, h2, h3⟩ | h1
  · exact .inl ⟨h1, h2, hi.a.1, h3⟩
  · exact .inr h1

/-! ## C67: where the wrapped mint's metadata comes from -/

/-- **C67** In every history, a step that changes the extensions of the wrapped mint, in particular
its metadata, is a SyncMetadataToToken2022 naming this wrapped mint. -/
theorem metadata_changes_only_by_sync {m m' : Mint} (h0 : Fresh s L0) (h : History cr ok L0 trace L)
    (hk : ok act L) (hs : Step cr ok act L L') (hm : (L s.W).data = .mint m)
    (hm' : (L' s.W).data = .mint m') (hne : m'.exts ≠ m.exts) : IsSyncOf s.W act := by
  have key : ¬ MintKept s.W L L' := by
    intro hk
    obtain ⟨x, hx, _, _, he⟩ := hk m hm
    rw [hm'] at hx; cases hx
    exact hne he
  cases h.eff' h0 hk hs with
  | quiet h => exact absurd h.kept key
  | sync h => exact h
  | wrap _ _ _ _ _ k => exact absurd k key
  | unwrap _ _ _ k => exact absurd k key

/-- The wrapped mint shows `md`, written by the sync `(env, accounts)` executed in ledger `L1`: the
source at that moment was `src`, and `md` shows exactly `src`. -/
structure SyncWrote {cr : Crypto} (s : Setting cr) (env : Env) (accounts : List Meta) (L1 : Ledger)
    (md src : TokenMetadata) : Prop where
  source : MetadataSource env L1 s.u (accounts[4]?.map (·.key)) (accounts[5]?.map (·.key)) src
  same : FairOrder env → SameMetadata md src

theorem sync22_wrote {accounts : List Meta} {W u : Pubkey}
    (ub : Reserved cr (.wrappedMint u token2022Id) W) (hcr : env.cr = cr)
    (hx : processInstruction env accounts TokenWrapInstruction.syncMetadataToToken2022.pack L = .ok L')
    (hW : (accounts[0]?).map Meta.key = some W) (hu : UniqueKeys L W) :
    ∃ src m' md', MetadataSource env L u (accounts[4]?.map (·.key)) (accounts[5]?.map (·.key)) src ∧
      (L' W).data = .mint m' ∧ m'.tokenMetadata? = some md' ∧
      (FairOrder env → SameMetadata md' src) := by
  rw [processInstruction_pack] at hx
  obtain ⟨a, src, m, m', e⟩ := processSync22_effect hx
  obtain ⟨rest, hacc, hs, ho⟩ := parseSync22_ok_iff.1 e.parsed
  have hWk : a.wrappedMint.key = W := by
    rw [hacc] at hW; simpa using hW
  have hmint := e.mint
  rw [hcr, hWk] at hmint
  have hinj := ub.unique (j := .wrappedMint _ _) hmint
  injection hinj with hu' _
  refine ⟨src, m', _, ?_, by rw [← hWk, e.final]; simp, e.stored, ?_⟩
  · have h1 : accounts[4]? = rest[0]? := by rw [hacc]; rfl
    have h2 : accounts[5]? = rest[1]? := by rw [hacc]; rfl
    rw [h1, h2, ← hs, ← ho, ← hu']; exact source_sound e.source
  · intro hord
    exact syncedMd_same hord fun w hw => hu m w (hWk ▸ e.wData) hw

theorem Inv.uniqueKeys {bk : Bk} (hi : Inv bk s L) : UniqueKeys L s.W := by
  intro m md hm hmd
  rcases hi.w with ⟨h1, _⟩ | hw
  · rw [h1.2] at hm; cases hm
  obtain ⟨x, hx, _, _, he⟩ := hw.mint
  rw [hm] at hx; cases hx
  rcases he with ⟨_, h⟩ | ⟨_, h | ⟨md', h, _, _, h2⟩⟩
  · simp [Mint.tokenMetadata?, h] at hmd
  · simp [Mint.tokenMetadata?, h, defaultExts] at hmd
  · simp [Mint.tokenMetadata?, h, defaultExts] at hmd
    subst hmd; exact h2

/-- **C35** In every history, a successful sync of the wrapped mint leaves exactly the source's
metadata there; nothing has to be assumed about the metadata before. -/
theorem sync22_equals_source_always {accounts : List Meta} (h0 : Fresh s L0)
    (h : History cr ok L0 trace L) (h22 : s.wp = token2022Id) (hcr : env.cr = cr)
    (hord : FairOrder env)
    (hx : processInstruction env accounts TokenWrapInstruction.syncMetadataToToken2022.pack L = .ok L')
    (hW : (accounts[0]?).map Meta.key = some s.W) :
    ∃ src m' md', MetadataSource env L s.u (accounts[4]?.map (·.key)) (accounts[5]?.map (·.key)) src ∧
      (L' s.W).data = .mint m' ∧ m'.tokenMetadata? = some md' ∧ SameMetadata md' src := by
  obtain ⟨src, m', md', h1, h2, h3, h4⟩ := sync22_wrote (W := s.W) (u := s.u) (h22 ▸ s.rW) hcr
    hx hW (h.inv' h0).uniqueKeys
  exact ⟨src, m', md', h1, h2, h3, h4 hord⟩

/-- **C67** In every history, if the wrapped mint carries metadata, then it was written by the latest
SyncMetadataToToken2022 naming this mint: the history splits into what came before, that sync, and a
rest without any sync of this mint; and the metadata shows exactly the source of that moment. -/
theorem metadata_has_a_source {m : Mint} {md : TokenMetadata} (h0 : Fresh s L0)
    (h : History cr ok L0 trace L) (hm : (L s.W).data = .mint m) (hmd : m.tokenMetadata? = some md) :
    ∃ before after env accounts L1 L2 src,
      trace = after ++ .tokenWrap env accounts TokenWrapInstruction.syncMetadataToToken2022.pack ::
        before ∧
      History cr ok L0 before L1 ∧
      Step cr ok (.tokenWrap env accounts TokenWrapInstruction.syncMetadataToToken2022.pack) L1 L2 ∧
      (accounts[0]?).map Meta.key = some s.W ∧ (∀ act ∈ after, ¬ IsSyncOf s.W act) ∧
      SyncWrote s env accounts L1 md src := by
  induction h generalizing m md with
  | start => rw [h0.W.2] at hm; cases hm
  | step hp hk hs ih =>
    rename_i trace act L L'
    by_cases hsy : IsSyncOf s.W act
    · obtain ⟨env, accounts, rfl, hW⟩ := hsy
      have h22 : s.wp = token2022Id := by
        rcases s.wpOk with h | h
        · exfalso
          have hi := (History.step hp hk hs).inv' h0
          rcases hi.w with ⟨hb, _⟩ | hw
          · rw [hb.2] at hm; cases hm
          obtain ⟨x, hx, _, _, he⟩ := hw.mint
          rw [hm] at hx; cases hx
          rcases he with ⟨_, he⟩ | ⟨he, _⟩
          · simp [Mint.tokenMetadata?, he] at hmd
          · rw [h] at he; exact spl_ne_2022 he
        · exact h
      have hx : env.cr = cr ∧ processInstruction env accounts
          TokenWrapInstruction.syncMetadataToToken2022.pack L = .ok L' := by
        generalize hd : TokenWrapInstruction.syncMetadataToToken2022.pack = d at hs
        cases hs with
        | tokenWrap hcr _ _ hx _ => exact ⟨hcr, hx⟩
        | wrapHooked => exact absurd (pack_injective hd) (by simp)
        | base hb => cases hb
      obtain ⟨src, m', md', h1, h2, h3, h4⟩ := sync22_wrote (W := s.W) (u := s.u)
        (h22 ▸ s.rW) hx.1 hx.2 hW (hp.inv' h0).uniqueKeys
      rw [hm] at h2; cases h2
      rw [hmd] at h3; cases h3
      exact ⟨trace, [], env, accounts, L, L', src, rfl, hp, hs, hW, by simp, h1, h4⟩
    · have hold : ∃ m0, (L s.W).data = .mint m0 ∧ m0.tokenMetadata? = some md := by
        rcases (hp.inv' h0).w with ⟨hb, _⟩ | hw
        · exfalso
          have hold : Held L s.W := .inl hb
          have hke := hold.step s.W_noSign (Q := fun _ => True) (fun _ _ => trivial)
            (fun _ _ _ => trivial) (fun L _ wallet mint prog ha _ => by
              have := s.rW.unique (j := .ata wallet mint prog) ha; cases this) trivial hs
          cases hke with
          | kept hk => rw [hk.2, hb.2] at hm; cases hm
          | mint u' p' ha m0 w0 um wd _ _ _ hn =>
            rw [hm] at wd; cases wd
            rw [hn] at hmd; cases hmd
          | backpointer w' ha => have := s.rW.unique (j := .backpointer w') ha; cases this
          | metaplex w' ha => have := s.rW.unique (j := .metaplex w') ha; cases this
          | pointer env accounts p' a m' hcr _ _ _ e hk =>
            have := e.pointer
            rw [hcr, hk] at this
            have := s.rW.unique (j := .canonicalPointer _) this
            cases this
        · obtain ⟨m0, hm0, _⟩ := hw.mint
          refine ⟨m0, hm0, ?_⟩
          have : m.exts = m0.exts := by
            by_contra hne
            exact hsy (metadata_changes_only_by_sync h0 hp hk hs hm0 hm hne)
          unfold Mint.tokenMetadata? at hmd ⊢
          rw [← this]; exact hmd
      obtain ⟨m0, hm0, hmd0⟩ := hold
      obtain ⟨before, after, env, accounts, L1, L2, src, rfl, h1, h2, h3, h4, h5⟩ := ih hm0 hmd0
      refine ⟨before, act :: after, env, accounts, L1, L2, src, rfl, h1, h2, h3, ?_, h5⟩
      intro a ha
      rcases List.mem_cons.1 ha with rfl | ha
      · exact hsy
      · exact h4 a ha

end

end TokenWrap
