import Verif.CloseLemmas
import Verif.CreateMintLemmas
import Verif.Sync22Lemmas
/-!
# A normal form for the effects of token-program instructions

Used to reason about arbitrary third-party token instructions in histories (World.lean).  Every
successful `tokenExec` is one of a handful of effects (`tokenExec_eff`).
-/

set_option linter.unusedSimpArgs false

namespace TokenWrap

/-- Owner program and data of an account are unchanged.  Its lamports may change, except that an
account of Token Wrap loses none. -/
structure Kept (L L' : Ledger) (k : Pubkey) : Prop where
  owner : (L' k).owner = (L k).owner
  data : (L' k).data = (L k).data
  lam : (L k).owner = crateId → (L k).lamports ≤ (L' k).lamports

theorem Kept.of_eq {L L' : Ledger} {k : Pubkey} (h : L' k = L k) : Kept L L' k := by
  constructor <;> rw [h]
  exact fun _ => Nat.le_refl _

theorem Kept.rfl' {L : Ledger} {k : Pubkey} : Kept L L k := .of_eq rfl

theorem Kept.trans {L L1 L2 : Ledger} {k : Pubkey} (h1 : Kept L L1 k) (h2 : Kept L1 L2 k) :
    Kept L L2 k := ⟨h2.1.trans h1.1, h2.2.trans h1.2, fun h =>
      Nat.le_trans (h1.lam h) (h2.lam (h1.1.trans h))⟩

theorem Kept.congr {L L' L'' : Ledger} {k : Pubkey} (h : L' k = L'' k) :
    Kept L L' k ↔ Kept L L'' k := by
  constructor <;> rintro ⟨h1, h2, h3⟩
  · rw [h] at h1 h2 h3; exact ⟨h1, h2, h3⟩
  · rw [← h] at h1 h2 h3; exact ⟨h1, h2, h3⟩

/-- Only lamports changed, in an account not owned by Token Wrap. -/
theorem Kept.of_lamports {L L' : Ledger} {k : Pubkey} (h1 : (L' k).owner = (L k).owner)
    (h2 : (L' k).data = (L k).data) (h3 : (L k).owner ≠ crateId) : Kept L L' k :=
  ⟨h1, h2, fun h => absurd h h3⟩

/-- `a` authorises in the eyes of token program `prog`. -/
def Appr (prog : Pubkey) (L : Ledger) (signed : Pubkey → Bool) (a : Pubkey) : Prop :=
  signed a = true ∨ ∃ signers, AuthOk prog L a signers signed

/-- Nothing that matters to the owner of a token account got worse. -/
structure KeepsAcct (t t' : TokenAcct) : Prop where
  owner : t'.owner = t.owner
  delegate : t'.delegate = t.delegate
  closeAuthority : t'.closeAuthority = t.closeAuthority
  amount : t.amount ≤ t'.amount
  confidential : t.confidential ≤ t'.confidential

/-- Someone with authority over the token account. -/
def HasPower (t : TokenAcct) (a : Pubkey) : Prop :=
  t.owner = a ∨ t.delegate = some a ∨ t.closeAuthority = some a

/-- The freeze authority of the mint `mk` approves. -/
def FrzAppr (prog : Pubkey) (L : Ledger) (signed : Pubkey → Bool) (mk : Pubkey) : Prop :=
  ∃ m f, (L mk).owner = prog ∧ (L mk).data = .mint m ∧ m.freezeAuthority = some f ∧
    Appr prog L signed f

/-- The authorities named in a mint extension. -/
def MintExt.authorities : MintExt → List (Option Pubkey)
  | .transferFeeConfig c => [c.authority, c.withdrawAuthority]
  | .mintCloseAuthority a => [a]
  | .confidentialTransferMint a _ _ => [a]
  | .permanentDelegate d => [d]
  | .transferHook a _ => [a]
  | .metadataPointer a _ => [a]
  | .tokenMetadata md => [md.updateAuthority]
  | .pausable a _ => [a]
  | _ => []

/-- Someone with authority over the extensions of a mint. -/
def ExtPower (m : Mint) (a : Pubkey) : Prop :=
  m.mintAuthority = some a ∨ (∃ e ∈ m.exts, some a ∈ e.authorities) ∨
    (m.freezeAuthority = some a ∧ ∃ e ∈ m.exts, e.tag = 6)

/-- No account's lamports change. -/
def SameLamports (L L' : Ledger) : Prop := ∀ x, (L' x).lamports = (L x).lamports

/-- The effects token instructions can have; `rm` is the rent schedule. -/
inductive TokEff (rm : Nat → Nat) (prog : Pubkey) (signed : Pubkey → Bool) (L L' : Ledger) : Prop
  /-- nothing changes -/
  | same (hf : ∀ x, Kept L L' x) (lam : SameLamports L L')
  /-- excess lamports are taken from a (non-native) account of the token program -/
  | drain (hf : ∀ x, Kept L L' x) (src : Pubkey) (hp : isTokenProgram prog = true)
      (ho : (L src).owner = prog) (lam : ∀ x, x ≠ src → (L x).lamports ≤ (L' x).lamports)
      (rent : ∃ n, rm n ≤ (L' src).lamports)
      (nn : ∀ t, (L src).data = .token t → t.isNative = none)
  /-- one token account changes; only wrapped SOL can lose lamports then, as much as it loses tokens -/
  | tok (k : Pubkey) (t t' : TokenAcct)
      (ho : (L k).owner = prog) (hd : (L k).data = .token t)
      (ho' : (L' k).owner = prog) (hd' : (L' k).data = .token t')
      (hf : ∀ x, x ≠ k → Kept L L' x)
      (mint : t'.mint = t.mint) (native : t'.isNative = t.isNative)
      (claim : t.isNative = none → t'.amount + t'.confidential = t.amount + t.confidential)
      (fits : t.amount ≤ u64Max → t'.amount ≤ u64Max)
      (auth : KeepsAcct t t' ∨ ∃ a, HasPower t a ∧ Appr prog L signed a)
      (lamO : ∀ x, x ≠ k → (L x).lamports ≤ (L' x).lamports)
      (lam : (L' k).lamports = (L k).lamports ∨ t.isNative ≠ none)
      (reserve : ∀ r, t.isNative = some r → r + t.amount ≤ (L k).lamports →
        r + t'.amount ≤ (L' k).lamports)
      (frz : t'.frozen = t.frozen ∨ FrzAppr prog L signed t.mint)
      (nf : t.frozen = true → KeepsAcct t t')
  /-- tokens move between two accounts of one mint -/
  | move (src dst : Pubkey) (s s' d d' : TokenAcct) (ne : src ≠ dst)
      (so : (L src).owner = prog) (sd : (L src).data = .token s)
      (so' : (L' src).owner = prog) (sd' : (L' src).data = .token s')
      (do_ : (L dst).owner = prog) (dd : (L dst).data = .token d)
      (do' : (L' dst).owner = prog) (dd' : (L' dst).data = .token d')
      (hf : ∀ x, x ≠ src → x ≠ dst → Kept L L' x)
      (mints : s.mint = d.mint) (smint : s'.mint = s.mint) (dmint : d'.mint = d.mint)
      (snative : s'.isNative = s.isNative) (dnative : d'.isNative = d.isNative)
      (claim : s'.amount + s'.confidential + (d'.amount + d'.confidential) ≤
        s.amount + s.confidential + (d.amount + d.confidential))
      (sfits : s'.amount ≤ s.amount) (dfits : d.amount ≤ u64Max → d'.amount ≤ u64Max)
      (dkeeps : KeepsAcct d d')
      (auth : ∃ a, Appr prog L signed a ∧ (s.owner = a ∨ s.delegate = some a ∨
        ∃ m, (L s.mint).data = .mint m ∧ m.permanentDelegate? = some a))
      (lamO : ∀ x, x ≠ src → x ≠ dst → (L' x).lamports = (L x).lamports)
      (lam : s.isNative = none → (L' src).lamports = (L src).lamports ∧
        (L' dst).lamports = (L dst).lamports)
      (lamN : s.isNative ≠ none → ∃ n, s.amount = s'.amount + n ∧ d'.amount ≤ d.amount + n ∧
        (L' src).lamports + n = (L src).lamports ∧ (L' dst).lamports = (L dst).lamports + n)
      (srest : s'.owner = s.owner ∧ s'.closeAuthority = s.closeAuthority ∧
        (s'.delegate = s.delegate ∨ s'.delegate = none))
      (frz : s'.frozen = s.frozen ∧ d'.frozen = d.frozen)
      (nf : s.frozen = false ∧ d.frozen = false)
  /-- withheld transfer fees are collected -/
  | fees (mk : Pubkey) (m : Mint) (mo : (L mk).owner = prog) (md : (L mk).data = .mint m)
      (fee : m.transferFee?.isSome = true)
      (all : ∀ x, Kept L L' x ∨
        (∃ t t', (L x).owner = prog ∧ (L x).data = .token t ∧ (L' x).owner = prog ∧
          (L' x).data = .token t' ∧ t.mint = mk ∧ t'.mint = mk ∧ t'.isNative = t.isNative ∧
          KeepsAcct t t' ∧ (t.amount ≤ u64Max → t'.amount ≤ u64Max)) ∨
        (x = mk ∧ ∃ m', (L' x).owner = prog ∧ (L' x).data = .mint m' ∧ m'.supply = m.supply ∧
          m'.decimals = m.decimals ∧ m'.mintAuthority = m.mintAuthority ∧
          m'.freezeAuthority = m.freezeAuthority ∧
          m'.exts.map MintExt.tag = m.exts.map MintExt.tag))
      (lam : SameLamports L L')
      (frz : ∀ x t t', (L x).data = .token t → (L' x).data = .token t' → t'.frozen = t.frozen)
  /-- authorities or extensions of a mint change -/
  | mintUpd (k : Pubkey) (m m' : Mint)
      (ho : (L k).owner = prog) (hd : (L k).data = .mint m)
      (ho' : (L' k).owner = prog) (hd' : (L' k).data = .mint m')
      (hf : ∀ x, x ≠ k → Kept L L' x)
      (supply : m'.supply = m.supply) (decimals : m'.decimals = m.decimals)
      (authority : m'.mintAuthority = m.mintAuthority ∨
        ∃ a, m.mintAuthority = some a ∧ Appr prog L signed a)
      (freeze : m'.freezeAuthority = m.freezeAuthority ∨
        ∃ a, m.freezeAuthority = some a ∧ Appr prog L signed a)
      (exts : m'.exts = m.exts ∨ ∃ a, ExtPower m a ∧ Appr prog L signed a)
      (tags : ∀ e ∈ m'.exts, e.tag = 19 ∨ ∃ e0 ∈ m.exts, e0.tag = e.tag)
      (lam : SameLamports L L')
  /-- minting -/
  | mintTo (mk dst : Pubkey) (m : Mint) (d : TokenAcct) (n : Nat) (a : Pubkey)
      (mo : (L mk).owner = prog) (md : (L mk).data = .mint m)
      (do_ : (L dst).owner = prog) (dd : (L dst).data = .token d) (dm : d.mint = mk)
      (auth : m.mintAuthority = some a) (appr : Appr prog L signed a)
      (fit : d.amount + n ≤ u64Max) (sfit : m.supply + n ≤ u64Max)
      (final : L' = (L.setData dst (.token { d with amount := d.amount + n })).setData mk
        (.mint { m with supply := m.supply + n }))
      (dn : d.isNative = none)
      (nf : d.frozen = false)
  /-- burning -/
  | burn (mk acct : Pubkey) (m : Mint) (s s' : TokenAcct) (n : Nat)
      (mo : (L mk).owner = prog) (md : (L mk).data = .mint m)
      (so : (L acct).owner = prog) (sd : (L acct).data = .token s) (sm : s.mint = mk)
      (le : n ≤ s.amount) (sle : n ≤ m.supply) (same : SameButDelegation s s')
      (auth : ownedByNobody s = true ∨ ∃ a, Appr prog L signed a ∧ (s.owner = a ∨
        s.delegate = some a ∨ m.permanentDelegate? = some a))
      (final : L' = (L.setData acct (.token { s' with amount := s.amount - n })).setData mk
        (.mint { m with supply := m.supply - n }))
      (nf : s.frozen = false)
  /-- closing a token account -/
  | closeTok (k : Pubkey) (t : TokenAcct) (ho : (L k).owner = prog) (hd : (L k).data = .token t)
      (he : (L' k).owner = systemId ∧ (L' k).data = .bytes [])
      (hf : ∀ x, x ≠ k → Kept L L' x)
      (auth : ownedByNobody t = true ∨ ∃ a, HasPower t a ∧ Appr prog L signed a)
      (lam : ∀ x, x ≠ k → (L x).lamports ≤ (L' x).lamports)
      (emp : t.isNative = none → t.amount = 0 ∧ t.confidential = 0)
  /-- closing a mint -/
  | closeMint (k : Pubkey) (m : Mint) (a : Pubkey) (ho : (L k).owner = prog)
      (hd : (L k).data = .mint m) (ca : m.closeAuthority? = some a)
      (he : (L' k).owner = systemId ∧ (L' k).data = .bytes [])
      (hf : ∀ x, x ≠ k → Kept L L' x)
      (lam : ∀ x, x ≠ k → (L x).lamports ≤ (L' x).lamports)
      (empty : m.supply = 0)
  /-- a token account is initialised -/
  | initTok (k : Pubkey) (b : Bytes) (t : TokenAcct) (m : Mint) (ho : (L k).owner = prog)
      (hd : (L k).data = .bytes b) (ho' : (L' k).owner = prog) (hd' : (L' k).data = .token t)
      (mo : (L t.mint).owner = prog) (md : (L t.mint).data = .mint m)
      (plain : t.mint ∉ nativeMints → t.amount = 0 ∧ t.confidential = 0 ∧ t.isNative = none)
      (hf : ∀ x, x ≠ k → Kept L L' x)
      (lam : SameLamports L L')
      (nat : t.isNative ≠ none ↔ t.mint ∈ nativeMints)
      (rent : ∃ n, rm n ≤ (L k).lamports ∧ ∀ r, t.isNative = some r → r = rm n ∧
        r + t.amount ≤ (L k).lamports)
      (frz : t.frozen = true → m.defaultFrozen = true)
  /-- a mint or multisig is (partly) initialised -/
  | initOther (k : Pubkey) (ho : (L k).owner = prog)
      (hd : (∃ b, (L k).data = .bytes b) ∨ (∃ n e, (L k).data = .preMint n e))
      (ho' : (L' k).owner = prog)
      (hd' : (∃ n e, (L' k).data = .preMint n e) ∨ (∃ ms, (L' k).data = .multisig ms) ∨
        (∃ m, (L' k).data = .mint m ∧ m.supply = 0))
      (hf : ∀ x, x ≠ k → Kept L L' x)
      (lam : SameLamports L L')
      (rent : ∀ m, (L' k).data = .mint m → ∃ n, rm n ≤ (L k).lamports)

theorem setData_lam {L : Ledger} {k : Pubkey} {d : Data} : SameLamports L (L.setData k d) := by
  intro x; rw [Ledger.setData_apply]; split
  · rename_i h; subst h; rfl
  · rfl

theorem SameLamports.trans {L L1 L2 : Ledger} (h : SameLamports L L1) (h' : SameLamports L1 L2) :
    SameLamports L L2 := fun x => (h' x).trans (h x)

theorem setData_data (L : Ledger) (k : Pubkey) (d : Data) : (L.setData k d k).data = d := by simp

theorem kept_setData {L : Ledger} {k x : Pubkey} {d : Data} (h : x ≠ k) :
    Kept L (L.setData k d) x := Kept.of_eq (Ledger.setData_ne _ _ h)

theorem TokEff.setTok {rm : Nat → Nat} {prog : Pubkey} {signed : Pubkey → Bool} {L : Ledger} {k : Pubkey}
    {t t' : TokenAcct} (ho : (L k).owner = prog) (hd : (L k).data = .token t)
    (mint : t'.mint = t.mint) (native : t'.isNative = t.isNative)
    (claim : t.isNative = none → t'.amount + t'.confidential = t.amount + t.confidential)
    (fits : t.amount ≤ u64Max → t'.amount ≤ u64Max)
    (auth : KeepsAcct t t' ∨ ∃ a, HasPower t a ∧ Appr prog L signed a)
    (reserve : ∀ r, t.isNative = some r → r + t.amount ≤ (L k).lamports →
      r + t'.amount ≤ (L k).lamports := by exact fun _ _ h => h)
    (frz : t'.frozen = t.frozen ∨ FrzAppr prog L signed t.mint := by exact .inl rfl)
    (nf : t.frozen = true → KeepsAcct t t' := by
      exact fun _ => ⟨rfl, rfl, rfl, Nat.le_refl _, Nat.le_refl _⟩) :
    TokEff rm prog signed L (L.setData k (.token t')) :=
  .tok k t t' ho hd (by simpa using ho) (by simp) (fun _ h => kept_setData h) mint native claim fits
    auth (fun x _ => Nat.le_of_eq (setData_lam x).symm) (.inl (setData_lam k))
    (fun r h1 h2 => by rw [setData_lam k]; exact reserve r h1 h2) frz nf

theorem TokEff.setMint {rm : Nat → Nat} {prog : Pubkey} {signed : Pubkey → Bool} {L : Ledger} {k : Pubkey}
    {m m' : Mint} (ho : (L k).owner = prog) (hd : (L k).data = .mint m)
    (supply : m'.supply = m.supply) (decimals : m'.decimals = m.decimals)
    (authority : m'.mintAuthority = m.mintAuthority ∨
      ∃ a, m.mintAuthority = some a ∧ Appr prog L signed a)
    (freeze : m'.freezeAuthority = m.freezeAuthority ∨
      ∃ a, m.freezeAuthority = some a ∧ Appr prog L signed a)
    (exts : m'.exts = m.exts ∨ ∃ a, ExtPower m a ∧ Appr prog L signed a)
    (tags : ∀ e ∈ m'.exts, e.tag = 19 ∨ ∃ e0 ∈ m.exts, e0.tag = e.tag) :
    TokEff rm prog signed L (L.setData k (.mint m')) :=
  .mintUpd k m m' ho hd (by simpa using ho) (by simp) (fun _ h => kept_setData h) supply decimals
    authority freeze exts tags setData_lam

/-! ## Extension lists -/

theorem tags_self {l : List MintExt} : ∀ e ∈ l, e.tag = 19 ∨ ∃ e0 ∈ l, e0.tag = e.tag :=
  fun e he => .inr ⟨e, he, rfl⟩

theorem tags_of_map {l l' : List MintExt} (h : l'.map MintExt.tag = l.map MintExt.tag) :
    ∀ e ∈ l', e.tag = 19 ∨ ∃ e0 ∈ l, e0.tag = e.tag := by
  intro e he
  have : e.tag ∈ l.map MintExt.tag := by rw [← h]; exact List.mem_map.2 ⟨e, he, rfl⟩
  obtain ⟨e0, h0, h1⟩ := List.mem_map.1 this
  exact .inr ⟨e0, h0, h1⟩

theorem mapFee_tags (f : TransferFeeConfig → TransferFeeConfig) (l : List MintExt) :
    (mapFee f l).map MintExt.tag = l.map MintExt.tag := by
  induction l with
  | nil => rfl
  | cons e l ih => cases e <;> simp [mapFee, MintExt.tag, ih]

theorem mapMetadata_tags (f : TokenMetadata → TokenMetadata) (l : List MintExt) :
    (mapMetadata f l).map MintExt.tag = l.map MintExt.tag := by
  induction l with
  | nil => rfl
  | cons e l ih => cases e <;> simp [mapMetadata, MintExt.tag, ih]

theorem setPointer_tags (a : Option Pubkey) (l : List MintExt) :
    (setPointer a l).map MintExt.tag = l.map MintExt.tag := by
  induction l with
  | nil => rfl
  | cons e l ih => cases e <;> simp [setPointer, MintExt.tag, ih]

theorem authorityUpdate_spec {kind : AuthorityType} {new cur : Option Pubkey} {e e' : MintExt}
    (h : e.authorityUpdate kind new = some (cur, e')) :
    cur ∈ e.authorities ∧ e'.tag = e.tag := by
  cases e <;> simp only [MintExt.authorityUpdate] at h <;> (try cases h) <;> (repeat' split at h) <;>
    cases h <;> simp [MintExt.authorities, MintExt.tag]

theorem updateExtAuthority_spec {kind : AuthorityType} {new cur : Option Pubkey}
    {l l' : List MintExt} (h : updateExtAuthority kind new l = some (cur, l')) :
    (∃ e ∈ l, cur ∈ e.authorities) ∧ l'.map MintExt.tag = l.map MintExt.tag := by
  induction l generalizing l' with
  | nil => cases h
  | cons e l ih =>
    unfold updateExtAuthority at h
    split at h
    · rename_i c e' he
      cases h
      have := authorityUpdate_spec he
      exact ⟨⟨e, by simp, this.1⟩, by simp [this.2]⟩
    · cases hr : updateExtAuthority kind new l with
      | none => rw [hr] at h; cases h
      | some p =>
        rw [hr] at h
        cases h
        obtain ⟨⟨x, hx, hx'⟩, ht⟩ := ih hr
        exact ⟨⟨x, by simp [hx], hx'⟩, by simp [ht]⟩

theorem settingsUpdate_spec {freeze cur : Option Pubkey} {new e e' : MintExt}
    (h : MintExt.settingsUpdate freeze new e = some (cur, e')) :
    (cur ∈ e.authorities ∨ (cur = freeze ∧ e.tag = 6)) ∧ e'.tag = e.tag := by
  unfold MintExt.settingsUpdate at h
  split at h <;> simp only [Option.some.injEq, Prod.mk.injEq, reduceCtorEq] at h <;>
    obtain ⟨rfl, rfl⟩ := h <;> simp [MintExt.authorities, MintExt.tag]

theorem updateExtSettings_spec {freeze cur : Option Pubkey} {new : MintExt}
    {l l' : List MintExt} (h : updateExtSettings freeze new l = some (cur, l')) :
    ((∃ e ∈ l, cur ∈ e.authorities) ∨ (cur = freeze ∧ ∃ e ∈ l, e.tag = 6)) ∧
      l'.map MintExt.tag = l.map MintExt.tag := by
  induction l generalizing l' with
  | nil => cases h
  | cons e l ih =>
    unfold updateExtSettings at h
    split at h
    · rename_i c e' he
      cases h
      have := settingsUpdate_spec he
      refine ⟨?_, by simp [this.2]⟩
      rcases this.1 with h1 | ⟨h1, h2⟩
      · exact .inl ⟨e, by simp, h1⟩
      · exact .inr ⟨h1, e, by simp, h2⟩
    · cases hr : updateExtSettings freeze new l with
      | none => rw [hr] at h; cases h
      | some p =>
        rw [hr] at h
        cases h
        obtain ⟨h1, ht⟩ := ih hr
        refine ⟨?_, by simp [ht]⟩
        rcases h1 with ⟨x, hx, hx'⟩ | ⟨h1, x, hx, hx'⟩
        · exact .inl ⟨x, by simp [hx], hx'⟩
        · exact .inr ⟨h1, x, by simp [hx], hx'⟩

theorem findSome_mem {f : MintExt → Option α} {l : List MintExt} {b : α}
    (h : l.findSome? f = some b) : ∃ e ∈ l, f e = some b := by
  induction l with
  | nil => cases h
  | cons e l ih =>
    simp only [List.findSome?_cons] at h
    split at h
    · rename_i hb; cases h; exact ⟨e, by simp, hb⟩
    · obtain ⟨x, hx, h'⟩ := ih h; exact ⟨x, by simp [hx], h'⟩

theorem fee_mem {m : Mint} {c : TransferFeeConfig} (h : m.transferFee? = some c) :
    MintExt.transferFeeConfig c ∈ m.exts := by
  obtain ⟨e, he, h⟩ := findSome_mem h
  cases e <;> simp_all

theorem pointer_mem {m : Mint} {p : Option Pubkey × Option Pubkey}
    (h : m.metadataPointer? = some p) : MintExt.metadataPointer p.1 p.2 ∈ m.exts := by
  obtain ⟨e, he, h⟩ := findSome_mem h
  cases e <;> simp_all
  subst h; exact he

theorem md_mem {m : Mint} {md : TokenMetadata} (h : m.tokenMetadata? = some md) :
    MintExt.tokenMetadata md ∈ m.exts := by
  obtain ⟨e, he, h⟩ := findSome_mem h
  cases e <;> simp_all

theorem pd_mem {m : Mint} {a : Pubkey} (h : m.permanentDelegate? = some a) :
    MintExt.permanentDelegate (some a) ∈ m.exts := by
  unfold Mint.permanentDelegate? at h
  rw [Option.join_eq_some_iff] at h
  obtain ⟨e, he, h'⟩ := findSome_mem h
  cases e <;> simp_all

theorem ca_mem {m : Mint} {a : Pubkey} (h : m.closeAuthority? = some a) :
    MintExt.mintCloseAuthority (some a) ∈ m.exts := by
  unfold Mint.closeAuthority? at h
  rw [Option.join_eq_some_iff] at h
  obtain ⟨e, he, h'⟩ := findSome_mem h
  cases e <;> simp_all

/-! ## The instructions -/

section
variable {env : Env} {prog : Pubkey} {signed : Pubkey → Bool} {L L' : Ledger}

theorem pdOf_some {m : Mint} {a : Pubkey} (h : pdOf prog m = some a) :
    m.permanentDelegate? = some a := by
  unfold pdOf at h; split at h
  · exact h
  · cases h

theorem eff_transferMove {src dst auth : Pubkey} {signers : List Pubkey} {amount fee : Nat}
    {s d s' : TokenAcct} {pd : Option Pubkey}
    (so : (L src).owner = prog) (sd : (L src).data = .token s)
    (do_ : (L dst).owner = prog) (dd : (L dst).data = .token d)
    (ham : amount ≤ s.amount) (hm : s.mint = d.mint)
    (hpd : ∀ a, pd = some a → ∃ m, (L s.mint).data = .mint m ∧ m.permanentDelegate? = some a)
    (hsp : spendAuth prog L s pd auth signers signed amount = .ok s')
    (hfin : (src = dst ∧ L' = L) ∨ (src ≠ dst ∧ transferMove L src dst s' d amount fee = .ok L'))
    (nf : s.frozen = false ∧ d.frozen = false) :
    TokEff env.rentMin prog signed L L' := by
  rcases hfin with ⟨_, rfl⟩ | ⟨hne, hmv⟩
  · exact .same (fun _ => Kept.rfl') (fun _ => rfl)
  · obtain ⟨a1, a2, a3⟩ := spendAuth_inv hsp
    obtain ⟨m1, m2, m3, m4, m5, m6, m7, m8, m9⟩ := transferMove_inv hne hmv
    refine .move src dst s _ d _ hne so sd (by rw [m5, so]) m4 do_ dd (by rw [m7, do_]) m6
      (fun x h1 h2 => .of_eq (m8 x h1 h2)) hm a3.mint rfl a3.isNative rfl ?_ ?_ ?_ ?_ ?_
      (fun x h1 h2 => by rw [m8 x h1 h2]) (fun h => m9 (a3.isNative.trans h)) ?_
      ⟨a3.owner, a3.closeAuthority, a3.delegate⟩ ⟨a3.frozen, rfl⟩ nf
    · simp only [a3.amount, a3.confidential]; omega
    · simp only [a3.amount]; omega
    · intro _; exact m2
    · exact ⟨rfl, rfl, rfl, by simp, Nat.le_refl _⟩
    · refine ⟨auth, (.inr ⟨_, a2⟩), ?_⟩
      cases a1 with
      | permanentDelegate h => exact .inr (.inr (hpd _ h))
      | delegate h _ => exact .inr (.inl h)
      | owner h => exact .inl h
    · intro hn
      obtain ⟨n1, n2, n3⟩ := transferMove_native hne hmv (by rw [a3.isNative]; exact hn)
      refine ⟨amount, ?_, ?_, by omega, n3⟩
      · simp only [a3.amount]; omega
      · dsimp only; omega

theorem eff_transfer {src dst auth : Pubkey} {signers : List Pubkey} {amount : Nat}
    {chk : Option (Pubkey × UInt8)} {ef : Option Nat}
    (h : transferExec env prog signed L src dst auth signers amount chk ef = .ok L') :
    TokEff env.rentMin prog signed L L' := by
  cases chk with
  | none =>
    obtain ⟨s, d, s', e1, e2, e3, e4, e5, e6, e7, e8, e9, e10⟩ := transferExec_inv_unchecked h
    exact eff_transferMove e1 e2 e3 e4 e7 e8 (by intro a h; cases h) e9 e10 ⟨e5, e6⟩
  | some p =>
    obtain ⟨s, d, m, fee, s', e1, e2, e3, e4, e5, e6, e7, e8, e9, e10, e11, e12, _, e13, e14, e15,
      e16⟩ := transferExec_inv (mk := p.1) (dec := p.2) h
    exact eff_transferMove e1 e2 e3 e4 e7 (e8.trans e9.symm)
      (by intro a h; exact ⟨m, by rw [e8]; exact e11, pdOf_some h⟩) e15 e16 ⟨e5, e6⟩

theorem eff_mintTo {mint dst auth : Pubkey} {signers : List Pubkey} {amount : Nat}
    (h : mintToExec prog signed L mint dst auth signers amount = .ok L') :
    TokEff env.rentMin prog signed L L' := by
  obtain ⟨d, m, h1, h2, h3, h4, h5, h6, h7, h8, h9, h10, h11, h12⟩ := mintToExec_inv h
  exact .mintTo mint dst m d amount auth h3 h4 h1 h2 h7 h8 (.inr ⟨_, h9⟩) h10 h11 h12 h6 h5

theorem eff_burn {acct mint auth : Pubkey} {signers : List Pubkey} {amount : Nat}
    (h : burnExec prog signed L acct mint auth signers amount = .ok L') :
    TokEff env.rentMin prog signed L L' := by
  obtain ⟨s, m, s', h1, h2, h3, h4, h5, h6, h7, h8, h9, h10, h11, h12⟩ := burnExec_inv h
  refine .burn mint acct m s s' amount h3 h4 h1 h2 h7 h8 h9 h11 ?_ h12 h5
  rcases h10 with h | ⟨a1, a2⟩
  · exact .inl h.1
  · refine .inr ⟨auth, (.inr ⟨_, a2⟩), ?_⟩
    cases a1 with
    | permanentDelegate h => exact .inr (.inr (pdOf_some h))
    | delegate h _ => exact .inr (.inl h)
    | owner h => exact .inl h

theorem eff_close {acct dst auth : Pubkey} {signers : List Pubkey}
    (h : closeAccountExec prog signed L acct dst auth signers = .ok L') :
    TokEff env.rentMin prog signed L L' := by
  obtain ⟨h1, h2, h3, h4⟩ := closeAccountExec_inv h
  have he : (L' acct).owner = systemId ∧ (L' acct).data = .bytes [] := by
    rw [h3, closeOut_same]; exact ⟨rfl, rfl⟩
  have hf : ∀ x, x ≠ acct → Kept L L' x := by
    intro x hx
    rw [h3]
    by_cases hd : x = dst
    · subst hd; constructor <;> rw [closeOut_dst L h1]; exact fun _ => Nat.le_add_right _ _
    · exact .of_eq (closeOut_other L hx hd)
  have hl : ∀ x, x ≠ acct → (L x).lamports ≤ (L' x).lamports := by
    intro x hx
    rw [h3]
    by_cases hd : x = dst
    · subst hd; rw [closeOut_dst L h1]; exact Nat.le_add_right _ _
    · exact Nat.le_of_eq (by rw [closeOut_other L hx hd])
  rcases h4 with ⟨t, t1, t2, t3, t4, t5⟩ | ⟨m, ca, m1, m2, m3, m4, m5, m6⟩
  · refine .closeTok acct t h2 t1 he hf ?_ hl (fun hn => ⟨?_, t5⟩)
    rotate_left
    · rcases t2 with t2 | t2
      · rw [hn] at t2; cases t2
      · exact t2
    rcases t3 with t3 | ⟨t3, t3'⟩
    · exact .inl t3.1
    · refine .inr ⟨auth, ?_, (.inr ⟨_, t3'⟩)⟩
      cases hc : t.closeAuthority with
      | none => rw [hc] at t3; exact .inl t3
      | some c => rw [hc] at t3; cases t3; exact .inr (.inr hc)
  · exact .closeMint acct m ca h2 m1 m3 he hf hl m6

theorem eff_approve {src delegate auth : Pubkey} {signers : List Pubkey} {amount : Nat}
    (h : approveExec prog signed L src delegate auth signers amount = .ok L') :
    TokEff env.rentMin prog signed L L' := by
  unfold approveExec at h
  simp only [bind_ok_iff, require_ok_iff, getToken_ok_iff, pure_ok_iff, validateOwner_ok_iff] at h
  obtain ⟨t, ⟨h1, h2⟩, _, hf, _, ⟨h3, h4⟩, rfl⟩ := h
  exact .setTok h1 h2 rfl rfl (fun _ => rfl) (fun h => h) (.inr ⟨auth, .inl h3, (.inr ⟨_, h4⟩)⟩)
    (nf := fun h => by rw [h] at hf; cases hf)

theorem eff_revoke {src auth : Pubkey} {signers : List Pubkey}
    (h : revokeExec prog signed L src auth signers = .ok L') :
    TokEff env.rentMin prog signed L L' := by
  unfold revokeExec at h
  simp only [bind_ok_iff, require_ok_iff, getToken_ok_iff, pure_ok_iff, validateOwner_ok_iff] at h
  obtain ⟨t, ⟨h1, h2⟩, _, hf, _, ⟨h3, h4⟩, rfl⟩ := h
  refine .setTok h1 h2 rfl rfl (fun _ => rfl) (fun h => h) (.inr ⟨auth, ?_, (.inr ⟨_, h4⟩)⟩)
    (nf := fun h => by rw [h] at hf; cases hf)
  split at h3
  · rename_i hd; exact .inr (.inl hd)
  · exact .inl h3

theorem eff_setAuthority {acct auth : Pubkey} {kind : AuthorityType} {new : Option Pubkey}
    {signers : List Pubkey}
    (h : setAuthorityExec prog signed L acct kind new auth signers = .ok L') :
    TokEff env.rentMin prog signed L L' := by
  unfold setAuthorityExec at h
  simp only [bind_ok_iff, require_ok_iff, decide_eq_true_eq] at h
  obtain ⟨_, h1, h⟩ := h
  split at h
  · rename_i t ht
    simp only [bind_ok_iff, require_ok_iff, decide_eq_true_eq] at h
    obtain ⟨_, hf, h⟩ := h
    split at h
    · simp only [bind_ok_iff, require_ok_iff, validateOwner_ok_iff, okOr_ok_iff, pure_ok_iff] at h
      obtain ⟨_, _, _, ⟨h3, h4⟩, o, _, rfl⟩ := h
      exact .setTok h1 ht rfl rfl (fun _ => rfl) (fun h => h) (.inr ⟨auth, .inl h3, (.inr ⟨_, h4⟩)⟩)
        (nf := fun h => by rw [h] at hf; cases hf)
    · split at h
      · simp only [bind_ok_iff, require_ok_iff, validateOwner_ok_iff, okOr_ok_iff, pure_ok_iff] at h
        obtain ⟨_, ⟨h3, h4⟩, rfl⟩ := h
        refine .setTok h1 ht rfl rfl (fun _ => rfl) (fun h => h) (.inr ⟨auth, ?_, (.inr ⟨_, h4⟩)⟩)
          (nf := fun h => by rw [h] at hf; cases hf)
        cases hc : t.closeAuthority with
        | none => rw [hc] at h3; exact .inl h3
        | some c => rw [hc] at h3; cases h3; exact .inr (.inr hc)
      · cases h
  · rename_i m hm
    split at h
    · simp only [bind_ok_iff, require_ok_iff, validateOwner_ok_iff, okOr_ok_iff, pure_ok_iff] at h
      obtain ⟨cur, hc, _, ⟨rfl, h4⟩, rfl⟩ := h
      exact .setMint h1 hm rfl rfl (.inr ⟨_, hc, .inr ⟨_, h4⟩⟩) (.inl rfl) (.inl rfl) tags_self
    · split at h
      · simp only [bind_ok_iff, require_ok_iff, validateOwner_ok_iff, okOr_ok_iff, pure_ok_iff] at h
        obtain ⟨cur, hc, _, ⟨rfl, h4⟩, rfl⟩ := h
        exact .setMint h1 hm rfl rfl (.inl rfl) (.inr ⟨_, hc, .inr ⟨_, h4⟩⟩) (.inl rfl) tags_self
      · simp only [bind_ok_iff, okOr_ok_iff] at h
        obtain ⟨⟨c0, exts⟩, hu, h⟩ := h
        dsimp only at h
        simp only [bind_ok_iff, require_ok_iff, validateOwner_ok_iff, okOr_ok_iff, pure_ok_iff] at h
        obtain ⟨cur, rfl, _, ⟨rfl, h4⟩, rfl⟩ := h
        obtain ⟨⟨e, he, hc⟩, ht⟩ := updateExtAuthority_spec hu
        exact .setMint h1 hm rfl rfl (.inl rfl) (.inl rfl) (.inr ⟨_, .inr (.inl ⟨e, he, hc⟩), .inr ⟨_, h4⟩⟩) (tags_of_map ht)
  · cases h

theorem eff_freeze {acct mint auth : Pubkey} {signers : List Pubkey} {fr : Bool}
    (h : freezeExec prog signed L acct mint auth signers fr = .ok L') :
    TokEff env.rentMin prog signed L L' := by
  unfold freezeExec at h
  simp only [bind_ok_iff, require_ok_iff, getToken_ok_iff, getMint_ok_iff, okOr_ok_iff, pure_ok_iff,
    validateOwner_ok_iff] at h
  obtain ⟨t, ⟨h1, h2⟩, _, _, _, hm, m, ⟨hmo, hmd, _⟩, f, hf, _, ⟨hfa, ha⟩, rfl⟩ := h
  simp only [decide_eq_true_eq] at hm
  subst hm; subst hfa
  exact .setTok h1 h2 rfl rfl (fun _ => rfl) (fun h => h)
    (.inl ⟨rfl, rfl, rfl, Nat.le_refl _, Nat.le_refl _⟩) (fun _ _ h => h)
    (.inr ⟨m, _, hmo, hmd, hf, .inr ⟨_, ha⟩⟩)

theorem eff_initMintExt {mint : Pubkey} {ext : MintExt}
    (h : initMintExtExec prog L mint ext = .ok L') : TokEff env.rentMin prog signed L L' := by
  obtain ⟨h1, h2, h3⟩ := initMintExtExec_inv h
  rcases h3 with ⟨b, hb, _, rfl⟩ | ⟨sp, ex, hb, rfl⟩
  · exact .initOther mint h2 (.inl ⟨_, hb⟩) (by simpa using h2) (.inl ⟨_, _, setData_data _ _ _⟩)
      (fun _ h => kept_setData h) setData_lam (by intro m hm; rw [setData_data] at hm; cases hm)
  · exact .initOther mint h2 (.inr ⟨_, _, hb⟩) (by simpa using h2) (.inl ⟨_, _, setData_data _ _ _⟩)
      (fun _ h => kept_setData h) setData_lam (by intro m hm; rw [setData_data] at hm; cases hm)

theorem eff_initMint {mint ma : Pubkey} {fa : Option Pubkey} {dec : UInt8}
    (h : initializeMint2Exec env prog L mint ma fa dec = .ok L') : TokEff env.rentMin prog signed L L' := by
  have hr := initializeMint2Exec_rent h
  obtain ⟨h1, ex, h2, rfl⟩ := initializeMint2Exec_inv h
  refine .initOther mint h1 ?_ (by simpa using h1) (.inr (.inr ⟨_, setData_data _ _ _, rfl⟩))
    (fun _ h => kept_setData h) setData_lam (fun _ _ => ⟨_, hr⟩)
  rcases preMintExts_inv h2 with ⟨_, b, hb, _⟩ | ⟨sp, hb, _⟩
  · exact .inl ⟨b, hb⟩
  · exact .inr ⟨_, _, hb⟩

theorem eff_initAcct {acct mint owner : Pubkey} {extra : List AcctExt}
    (h : initializeAccount3Exec env prog L acct mint owner extra = .ok L') :
    TokEff env.rentMin prog signed L L' := by
  obtain ⟨h1, b, m, h2, _, _, h3, h4, _, rfl, hr⟩ := initializeAccount3Exec_inv h
  refine .initTok acct b _ m h1 h2 (by simpa using h1) (setData_data _ _ _) h3 h4 ?_
    (fun _ h => kept_setData h) setData_lam ?_ ⟨_, hr, ?_⟩ (by simp only [newTokenAcct]; intro h; simp only [Bool.and_eq_true] at h; exact h.2)
  · intro hn
    simp only [newTokenAcct] at hn ⊢
    simp [hn]
  · by_cases hn : mint ∈ nativeMints <;> simp [newTokenAcct, hn]
  · intro r hr'
    simp only [newTokenAcct] at hr' ⊢
    split at hr' <;> cases hr'
    rename_i hn
    rw [if_pos hn]
    exact ⟨rfl, by omega⟩

theorem eff_initMultisig {acct : Pubkey} {signers : List Pubkey} {n : Nat}
    (h : initializeMultisigExec prog L acct signers n = .ok L') : TokEff env.rentMin prog signed L L' := by
  unfold initializeMultisigExec at h
  simp only [bind_ok_iff, require_ok_iff, decide_eq_true_eq] at h
  obtain ⟨_, h1, _, _, h⟩ := h
  split at h
  · rename_i b hb
    simp only [bind_ok_iff, require_ok_iff, pure_ok_iff] at h
    obtain ⟨_, _, rfl⟩ := h
    exact .initOther acct h1 (.inl ⟨_, hb⟩) (by simpa using h1) (.inr (.inl ⟨_, setData_data _ _ _⟩))
      (fun _ h => kept_setData h) setData_lam (by intro m hm; rw [setData_data] at hm; cases hm)
  · cases h

theorem eff_addAcctExt {acct auth : Pubkey} {signers : List Pubkey} {ext : AcctExt}
    (h : addAcctExtExec prog signed L acct auth signers ext = .ok L') :
    TokEff env.rentMin prog signed L L' := by
  unfold addAcctExtExec at h
  simp only [bind_ok_iff, require_ok_iff, getToken_ok_iff, pure_ok_iff, validateOwner_ok_iff] at h
  obtain ⟨t, ⟨h1, h2⟩, _, _, _, _, rfl⟩ := h
  exact .setTok h1 h2 rfl rfl (fun _ => rfl) (fun h => h) (.inl ⟨rfl, rfl, rfl, Nat.le_refl _, Nat.le_refl _⟩)

theorem eff_syncNative {acct : Pubkey} (h : syncNativeExec prog L acct = .ok L') :
    TokEff env.rentMin prog signed L L' := by
  unfold syncNativeExec at h
  simp only [bind_ok_iff, require_ok_iff, getToken_ok_iff, okOr_ok_iff, pure_ok_iff,
    decide_eq_true_eq] at h
  obtain ⟨t, ⟨h1, h2⟩, r, hr, _, h3, _, h4, rfl⟩ := h
  refine .setTok h1 h2 rfl rfl ?_ (fun _ => h4) (.inl ⟨rfl, rfl, rfl, h3, Nat.le_refl _⟩) ?_
    (nf := fun _ => ⟨rfl, rfl, rfl, h3, Nat.le_refl _⟩)
  · intro hn; rw [hn] at hr; cases hr
  · intro r' hr' hle
    rw [hr] at hr'; cases hr'
    dsimp only; omega

/-- No token account is frozen or thawed. -/
def FrzSame (L L' : Ledger) : Prop :=
  ∀ x t t', (L x).data = .token t → (L' x).data = .token t' → t'.frozen = t.frozen

theorem FrzSame.refl : FrzSame L L := by
  intro x t t' h h'; rw [h] at h'; cases h'; rfl

theorem FrzSame.setTok {L1 : Ledger} (H : FrzSame L L1) {k : Pubkey} {d d' : TokenAcct}
    (h : (L1 k).data = .token d) (hf : d'.frozen = d.frozen) :
    FrzSame L (L1.setData k (.token d')) := by
  intro x t t' h1 h2
  by_cases hx : x = k
  · subst hx
    rw [setData_data] at h2; cases h2
    exact hf.trans (H x t d h1 h)
  · rw [Ledger.setData_ne _ _ hx] at h2; exact H x t t' h1 h2

theorem FrzSame.setMint {L1 : Ledger} (H : FrzSame L L1) {k : Pubkey} {m : Mint} :
    FrzSame L (L1.setData k (.mint m)) := by
  intro x t t' h1 h2
  by_cases hx : x = k
  · subst hx
    rw [setData_data] at h2; cases h2
  · rw [Ledger.setData_ne _ _ hx] at h2; exact H x t t' h1 h2

theorem eff_setTransferFee {mint auth : Pubkey} {signers : List Pubkey} {bps mf : Nat}
    (h : setTransferFeeExec env prog signed L mint auth signers bps mf = .ok L') :
    TokEff env.rentMin prog signed L L' := by
  unfold setTransferFeeExec at h
  simp only [bind_ok_iff, require_ok_iff, getMint_ok_iff, okOr_ok_iff, pure_ok_iff,
    validateOwner_ok_iff] at h
  obtain ⟨m, ⟨h1, h2, _⟩, c, hc, a, ha, _, ⟨rfl, h3⟩, _, _, rfl⟩ := h
  exact .setMint h1 h2 rfl rfl (.inl rfl) (.inl rfl)
    (.inr ⟨_, .inr (.inl ⟨_, fee_mem hc, by simp [MintExt.authorities, ha]⟩), .inr ⟨_, h3⟩⟩)
    (tags_of_map (mapFee_tags _ _))

theorem eff_withdraw {mint src dst auth : Pubkey} {signers : List Pubkey}
    (h : withdrawWithheldExec prog signed L mint src dst auth signers = .ok L') :
    TokEff env.rentMin prog signed L L' := by
  unfold withdrawWithheldExec at h
  simp only [bind_ok_iff, require_ok_iff, getMint_ok_iff, getToken_ok_iff, okOr_ok_iff, pure_ok_iff,
    validateOwner_ok_iff, decide_eq_true_eq] at h
  obtain ⟨m, ⟨h1, h2, _⟩, c, hc, a, ha, _, _, s, ⟨s1, s2⟩, _, s3, d, ⟨d1, d2⟩, _, d3, _, _, _, d4,
    rfl⟩ := h
  refine .fees mint m h1 h2 (by rw [hc]; rfl) ?_ (setData_lam.trans setData_lam) ?frz
  case frz => exact FrzSame.setTok (FrzSame.setTok .refl s2 (by rfl)) d2 (by rfl)
  intro x
  by_cases hxd : x = dst
  · subst hxd
    right; left
    by_cases hs : x = src
    · subst hs
      simp only [Ledger.setData_same, Data.token.injEq] at d1 d2
      subst d2
      exact ⟨s, _, s1, s2, by simpa using s1, setData_data _ _ _, s3, s3, rfl, ⟨rfl, rfl, rfl, by simp, Nat.le_refl _⟩,
        fun _ => d4⟩
    · rw [Ledger.setData_ne _ _ hs] at d1 d2
      refine ⟨d, _, d1, d2, ?_, setData_data _ _ _, d3, d3, rfl, ⟨rfl, rfl, rfl, by simp, Nat.le_refl _⟩, fun _ => d4⟩
      simp [Ledger.setData_ne _ _ hs, d1]
  · rw [show Kept L _ x ↔ Kept L (L.setData src (.token { s with withheld := 0 })) x from
      Kept.congr (Ledger.setData_ne _ _ hxd)]
    rw [Ledger.setData_ne _ _ hxd]
    by_cases hs : x = src
    · subst hs
      right; left
      exact ⟨s, _, s1, s2, by simpa using s1, setData_data _ _ _, s3, s3, rfl, ⟨rfl, rfl, rfl, by simp, Nat.le_refl _⟩,
        fun h => h⟩
    · exact .inl (kept_setData hs)

theorem eff_harvest {mint src : Pubkey} (h : harvestWithheldExec prog L mint src = .ok L') :
    TokEff env.rentMin prog signed L L' := by
  unfold harvestWithheldExec at h
  simp only [bind_ok_iff, require_ok_iff, getMint_ok_iff, getToken_ok_iff, okOr_ok_iff, pure_ok_iff,
    decide_eq_true_eq] at h
  obtain ⟨m, ⟨h1, h2, _⟩, c, hc, s, ⟨s1, s2⟩, _, s3, rfl⟩ := h
  refine .fees mint m h1 h2 (by rw [hc]; rfl) ?_ (setData_lam.trans setData_lam) ?frz
  case frz => exact FrzSame.setMint (FrzSame.setTok .refl s2 (by rfl))
  intro x
  by_cases hxd : x = mint
  · subst hxd
    have hne : x ≠ src := by rintro rfl; rw [s2] at h2; cases h2
    right; right
    refine ⟨rfl, _, ?_, setData_data _ _ _, rfl, rfl, rfl, rfl, mapFee_tags _ _⟩
    simp [Ledger.setData_ne _ _ hne, h1]
  · rw [show Kept L _ x ↔ Kept L (L.setData src (.token { s with withheld := 0 })) x from
      Kept.congr (Ledger.setData_ne _ _ hxd)]
    rw [Ledger.setData_ne _ _ hxd]
    by_cases hs : x = src
    · subst hs
      right; left
      exact ⟨s, _, s1, s2, by simpa using s1, setData_data _ _ _, s3, s3, rfl, ⟨rfl, rfl, rfl, by simp, Nat.le_refl _⟩,
        fun h => h⟩
    · exact .inl (kept_setData hs)

theorem eff_withdrawFromMint {mint dst auth : Pubkey} {signers : List Pubkey}
    (h : withdrawWithheldFromMintExec prog signed L mint dst auth signers = .ok L') :
    TokEff env.rentMin prog signed L L' := by
  unfold withdrawWithheldFromMintExec at h
  simp only [bind_ok_iff, require_ok_iff, getMint_ok_iff, getToken_ok_iff, okOr_ok_iff, pure_ok_iff,
    validateOwner_ok_iff, decide_eq_true_eq] at h
  obtain ⟨m, ⟨h1, h2, _⟩, c, hc, a, ha, _, _, d, ⟨d1, d2⟩, _, d3, _, _, _, d4, rfl⟩ := h
  refine .fees mint m h1 h2 (by rw [hc]; rfl) ?_ (setData_lam.trans setData_lam) ?frz
  case frz => exact FrzSame.setMint (FrzSame.setTok .refl d2 (by rfl))
  intro x
  by_cases hxm : x = mint
  · subst hxm
    have hne : x ≠ dst := by rintro rfl; rw [d2] at h2; cases h2
    right; right
    refine ⟨rfl, _, ?_, setData_data _ _ _, rfl, rfl, rfl, rfl, mapFee_tags _ _⟩
    simp [Ledger.setData_ne _ _ hne, h1]
  · by_cases hs : x = dst
    · subst hs
      right; left
      refine ⟨d, { d with amount := d.amount + c.withheld }, d1, d2, ?_, ?_, d3, d3, rfl,
        ⟨rfl, rfl, rfl, by simp, Nat.le_refl _⟩, fun _ => d4⟩
      · rw [Ledger.setData_ne _ _ hxm]; simpa using d1
      · rw [Ledger.setData_ne _ _ hxm]; exact setData_data _ _ _
    · exact .inl (.of_eq (by rw [Ledger.setData_ne _ _ hxm, Ledger.setData_ne _ _ hs]))

theorem eff_updateMintExt {mint auth : Pubkey} {signers : List Pubkey} {ext : MintExt}
    (h : updateMintExtExec prog signed L mint auth signers ext = .ok L') :
    TokEff env.rentMin prog signed L L' := by
  unfold updateMintExtExec at h
  simp only [bind_ok_iff, require_ok_iff, getMint_ok_iff, okOr_ok_iff, pure_ok_iff,
    validateOwner_ok_iff] at h
  obtain ⟨_, _, m, ⟨h1, h2, _⟩, ⟨cur, l'⟩, hu, a, ha, _, ⟨rfl, h3⟩, rfl⟩ := h
  dsimp only at ha
  subst ha
  obtain ⟨hp, ht⟩ := updateExtSettings_spec hu
  refine .setMint h1 h2 rfl rfl (.inl rfl) (.inl rfl) (.inr ⟨_, ?_, .inr ⟨_, h3⟩⟩) (tags_of_map ht)
  rcases hp with hp | ⟨hp, hp'⟩
  · exact .inr (.inl hp)
  · exact .inr (.inr ⟨hp.symm, hp'⟩)

theorem excessLamports_kept {src dst auth : Pubkey} {signers : List Pubkey}
    (h : withdrawExcessLamportsExec env prog signed L src dst auth signers = .ok L') :
    (∀ x, Kept L L' x) ∧ isTokenProgram prog = true ∧ (L src).owner = prog ∧
    (∀ x, x ≠ src → (L x).lamports ≤ (L' x).lamports) ∧
    env.rentMin (L src).data.len ≤ (L' src).lamports ∧
    (∀ t, (L src).data = .token t → t.isNative = none) := by
  unfold withdrawExcessLamportsExec at h
  simp only [bind_ok_iff, require_ok_iff, pure_ok_iff, validateOwner_ok_iff, decide_eq_true_eq] at h
  obtain ⟨_, hp, _, ho, _, hne, a, ha, _, _, _, hr, rfl⟩ := h
  have hl : ∀ x, x ≠ src → (L x).lamports ≤ (((L.setLamports src
      (env.rentMin (L src).data.len)).setLamports dst
      ((L dst).lamports + ((L src).lamports - env.rentMin (L src).data.len))) x).lamports := by
    intro x hx
    simp only [Ledger.setLamports_apply]
    split
    · rename_i h; subst h; simp
    · simp [hx]
  refine ⟨?_, hp, ho, hl, ?_, ?_⟩
  · intro x
    refine ⟨?_, ?_, ?_⟩
    · simp only [Ledger.setLamports_apply]; split
      · rename_i h; subst h; simp [Ledger.setLamports_apply, Ne.symm hne]
      · split
        · rename_i h; subst h; rfl
        · rfl
    · simp only [Ledger.setLamports_apply]; split
      · rename_i h; subst h; simp [Ledger.setLamports_apply, Ne.symm hne]
      · split
        · rename_i h; subst h; rfl
        · rfl
    · intro hc
      refine hl x ?_
      rintro rfl
      rw [ho] at hc; subst hc
      exact absurd hp (by decide +kernel)
  · simp [Ledger.setLamports_apply, hne]
  · intro t ht
    rw [ht] at ha
    simp only [excessAuthority, bind_ok_iff, require_ok_iff] at ha
    obtain ⟨_, h, _⟩ := ha
    exact Option.isNone_iff_eq_none.1 h

theorem eff_excessLamports {src dst auth : Pubkey} {signers : List Pubkey}
    (h : withdrawExcessLamportsExec env prog signed L src dst auth signers = .ok L') :
    TokEff env.rentMin prog signed L L' := by
  obtain ⟨h1, h2, h3, h4, h5, h6⟩ := excessLamports_kept h
  exact .drain h1 src h2 h3 h4 ⟨_, h5⟩ h6

theorem eff_unwrapLamports {src dst auth : Pubkey} {signers : List Pubkey} {amount : Option Nat}
    (h : unwrapLamportsExec prog signed L src dst auth signers amount = .ok L') :
    TokEff env.rentMin prog signed L L' := by
  unfold unwrapLamportsExec at h
  simp only [bind_ok_iff, require_ok_iff, getToken_ok_iff, validateOwner_ok_iff] at h
  obtain ⟨t, ⟨h1, h2⟩, _, hn, _, hf, _, ⟨h3, h4⟩, _, hle, h⟩ := h
  simp only [decide_eq_true_eq] at hle
  simp only [Bool.not_eq_true'] at hf
  split at h
  · simp only [pure_ok_iff] at h; subst h
    exact .same (fun _ => .rfl') (fun _ => rfl)
  · rename_i hne
    unfold moveLamports at h
    simp only [bind_ok_iff, require_ok_iff, pure_ok_iff, decide_eq_true_eq] at h
    obtain ⟨_, hlam, rfl⟩ := h
    generalize amount.getD t.amount = n at *
    have hsome : t.isNative ≠ none := by
      intro h; rw [h] at hn; cases hn
    rw [setData_lam src] at hlam
    refine .tok src t { t with amount := t.amount - n } h1 h2 ?_ ?_ ?_ rfl rfl (fun h => absurd h hsome)
      (fun h => by dsimp only; omega) (.inr ⟨auth, .inl h3, .inr ⟨_, h4⟩⟩) ?_ (.inr hsome) ?_ (.inl rfl)
      (fun h => by rw [h] at hf; cases hf)
    · simp [Ledger.setLamports_apply, Ledger.setData_apply, hne, h1]
    · simp [Ledger.setLamports_apply, Ledger.setData_apply, hne]
    · intro x hx
      by_cases hd : x = dst
      · subst hd
        refine ⟨?_, ?_, fun _ => ?_⟩ <;>
          simp [Ledger.setLamports_apply, Ledger.setData_apply, hx]
      · refine .of_eq ?_
        simp [Ledger.setLamports_apply, Ledger.setData_apply, hx, hd]
    · intro x hx
      by_cases hd : x = dst
      · subst hd; simp [Ledger.setLamports_apply, Ledger.setData_apply, hx]
      · simp [Ledger.setLamports_apply, Ledger.setData_apply, hx, hd]
    · intro r _ hr
      simp only [Ledger.setLamports_apply, Ledger.setData_apply, if_neg hne, if_true]
      omega

theorem eff_updatePointer {mint auth : Pubkey} {signers : List Pubkey} {addr : Option Pubkey}
    (h : updateMetadataPointerExec prog signed L mint auth signers addr = .ok L') :
    TokEff env.rentMin prog signed L L' := by
  unfold updateMetadataPointerExec at h
  simp only [bind_ok_iff, require_ok_iff, getMint_ok_iff, okOr_ok_iff, pure_ok_iff,
    validateOwner_ok_iff] at h
  obtain ⟨m, ⟨h1, h2, _⟩, p, hp, a, ha, _, ⟨rfl, h3⟩, rfl⟩ := h
  exact .setMint h1 h2 rfl rfl (.inl rfl) (.inl rfl)
    (.inr ⟨_, .inr (.inl ⟨_, pointer_mem hp, by simp [MintExt.authorities, ha]⟩), .inr ⟨_, h3⟩⟩)
    (tags_of_map (setPointer_tags _ _))

theorem eff_confidential {acct mint auth : Pubkey} {signers : List Pubkey} {amount : Nat}
    {dep : Bool}
    (h : confidentialExec prog signed L acct mint auth signers amount dep = .ok L') :
    TokEff env.rentMin prog signed L L' := by
  unfold confidentialExec at h
  simp only [bind_ok_iff, require_ok_iff, getToken_ok_iff, validateOwner_ok_iff] at h
  obtain ⟨_, _, t, ⟨h1, h2⟩, _, hf, _, _, _, hnn, _, ⟨h3, h4⟩, h⟩ := h
  rw [Option.isNone_iff_eq_none] at hnn
  split at h
  · simp only [bind_ok_iff, require_ok_iff, pure_ok_iff, decide_eq_true_eq] at h
    obtain ⟨_, h5, rfl⟩ := h
    exact .setTok h1 h2 rfl rfl (fun _ => by dsimp only; omega) (fun h => by dsimp only; omega)
      (.inr ⟨auth, .inl h3, .inr ⟨_, h4⟩⟩) (by intro r hr; rw [hnn] at hr; cases hr)
      (nf := fun h => by rw [h] at hf; cases hf)
  · simp only [bind_ok_iff, require_ok_iff, pure_ok_iff, decide_eq_true_eq] at h
    obtain ⟨_, h5, _, h6, rfl⟩ := h
    exact .setTok h1 h2 rfl rfl (fun _ => by dsimp only; omega) (fun h => h6)
      (.inr ⟨auth, .inl h3, .inr ⟨_, h4⟩⟩) (by intro r hr; rw [hnn] at hr; cases hr)
      (nf := fun h => by rw [h] at hf; cases hf)

theorem eff_confidentialTransfer {src mint dst auth : Pubkey} {signers : List Pubkey} {amount : Nat}
    (h : confidentialTransferExec prog signed L src mint dst auth signers amount = .ok L') :
    TokEff env.rentMin prog signed L L' := by
  unfold confidentialTransferExec at h
  simp only [bind_ok_iff, require_ok_iff, getToken_ok_iff, validateOwner_ok_iff, pure_ok_iff,
    decide_eq_true_eq] at h
  obtain ⟨_, _, s, ⟨s1, s2⟩, _, sf, _, s3, _, ⟨s4, s5⟩, _, s6, d, ⟨d1, d2⟩, _, df, _, d3, rfl⟩ := h
  simp only [Bool.not_eq_true'] at sf df
  by_cases hs : dst = src
  · subst hs
    simp only [Ledger.setData_same, Data.token.injEq] at d1 d2
    subst d2
    rw [setData_setData]
    exact .setTok s1 s2 rfl rfl (fun _ => by dsimp only; omega) (fun h => h)
      (.inr ⟨auth, .inl s4, .inr ⟨_, s5⟩⟩) (nf := fun h => by rw [h] at sf; cases sf)
  · rw [Ledger.setData_ne _ _ hs] at d1 d2
    have hs' : src ≠ dst := fun h => hs h.symm
    refine .move src dst s { s with confidential := s.confidential - amount } d
      { d with confidential := d.confidential + amount } hs' s1 s2 ?_ ?_ d1 d2 ?_ ?_ ?_
      (s3.trans d3.symm) rfl rfl rfl rfl ?_ (Nat.le_refl _) (fun h => h)
      ⟨rfl, rfl, rfl, Nat.le_refl _, Nat.le_add_right _ _⟩ ⟨auth, (.inr ⟨_, s5⟩), .inl s4⟩
      (fun x _ _ => (setData_lam.trans setData_lam) x)
      (fun _ => ⟨(setData_lam.trans setData_lam) _, (setData_lam.trans setData_lam) _⟩)
      (fun _ => ⟨0, rfl, Nat.le_refl _, (setData_lam.trans setData_lam) _,
        (setData_lam.trans setData_lam) _⟩) ⟨rfl, rfl, .inl rfl⟩ ⟨rfl, rfl⟩ ⟨sf, df⟩
    · rw [Ledger.setData_ne _ _ hs']; simpa using s1
    · rw [Ledger.setData_ne _ _ hs']; simp
    · simp [Ledger.setData_ne _ _ hs, d1]
    · simp
    · intro x h1 h2
      refine .of_eq ?_
      rw [Ledger.setData_ne _ _ h2, Ledger.setData_ne _ _ h1]
    · dsimp only; omega

theorem eff_initMetadata {mint ua ma : Pubkey} {name symbol uri : String}
    (h : initializeMetadataExec prog signed L mint ua ma name symbol uri = .ok L') :
    TokEff env.rentMin prog signed L L' := by
  obtain ⟨_, m, h1, h2, h3, h4, h5, h6, rfl⟩ := initializeMetadataExec_inv h
  refine .setMint h1 h2 rfl rfl (.inl rfl) (.inl rfl) (.inr ⟨ma, .inl h4, .inl h3⟩) ?_
  intro e he
  simp only [List.mem_append, List.mem_singleton] at he
  rcases he with he | rfl
  · exact .inr ⟨e, he, rfl⟩
  · exact .inl rfl

theorem eff_metadataUpdate {mint ua : Pubkey} {f : TokenMetadata → Res TokenMetadata}
    (h : metadataUpdateExec prog signed L mint ua f = .ok L') : TokEff env.rentMin prog signed L L' := by
  obtain ⟨_, m, md, md', h1, h2, h3, h4, h5, h6, rfl⟩ := metadataUpdateExec_inv h
  exact .setMint h1 h2 rfl rfl (.inl rfl) (.inl rfl)
    (.inr ⟨ua, .inr (.inl ⟨_, md_mem h3, by simp [MintExt.authorities, h5]⟩), .inl h4⟩)
    (tags_of_map (mapMetadata_tags _ _))

/-- Every successful token-program instruction has one of the effects. -/
theorem tokenExec_eff {ix : TokenIx} (h : tokenExec env prog ix signed L = .ok L') :
    TokEff env.rentMin prog signed L L' := by
  have hrej := tokenExec_not_rejected h
  unfold tokenExec at h
  rw [hrej] at h
  cases ix with
  | transfer | transferChecked | transferCheckedWithFee => exact eff_transfer h
  | mintTo => exact eff_mintTo h
  | burn => exact eff_burn h
  | closeAccount => exact eff_close h
  | approve => exact eff_approve h
  | revoke => exact eff_revoke h
  | setAuthority => exact eff_setAuthority h
  | freezeAccount => exact eff_freeze h
  | initMintExt => exact eff_initMintExt h
  | initializeMint2 => exact eff_initMint h
  | initializeAccount3 => exact eff_initAcct h
  | initializeMultisig => exact eff_initMultisig h
  | addAcctExt => exact eff_addAcctExt h
  | syncNative => exact eff_syncNative h
  | setTransferFee => exact eff_setTransferFee h
  | withdrawWithheld => exact eff_withdraw h
  | harvestWithheld => exact eff_harvest h
  | withdrawWithheldFromMint => exact eff_withdrawFromMint h
  | updateMintExt => exact eff_updateMintExt h
  | withdrawExcessLamports => exact eff_excessLamports h
  | unwrapLamports => exact eff_unwrapLamports h
  | updateMetadataPointer => exact eff_updatePointer h
  | confidentialDeposit | confidentialWithdraw => exact eff_confidential h
  | confidentialTransfer => exact eff_confidentialTransfer h
  | initializeMetadata => exact eff_initMetadata h
  | updateField | removeKey | updateMetadataAuthority => exact eff_metadataUpdate h

end

end TokenWrap
