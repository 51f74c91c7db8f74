import Verif.ProcessorLemmas
import Verif.CpiLemmas
import Verif.CreateMintLemmas
import Verif.Examples
/-!
# C38: where the metadata comes from

`extractTokenMetadata env accounts u source owner L` is what both sync instructions use for the
unwrapped mint `u` and the optional extra accounts `source` and `owner`.
-/

set_option linter.unusedSimpArgs false

namespace TokenWrap

/-- Specification: the mint at `u` is a Token-2022 mint whose metadata pointer is as given (`none`:
no pointer extension; `some none`: pointer not set). -/
def HasPointer (L : Ledger) (u : Pubkey) (p : Option (Option Pubkey)) : Prop :=
  (L u).owner = token2022Id ∧ ∃ m, (L u).data = .mint m ∧ m.metadataPointer?.map (·.2) = p

/-- Specification: the program `q`, asked for the metadata in the account `k`, answers `md`: the return
data was set by `q` itself and starts with the Borsh form of `md`. -/
def EmitsMetadata (env : Env) (L : Ledger) (q k : Pubkey) (md : TokenMetadata) : Prop :=
  md.Writable ∧ ∃ tail, env.emit q k L = .ok (some (q, md.borsh ++ tail))

theorem EmitsMetadata.unique {env : Env} {L : Ledger} {q k : Pubkey} {md md' : TokenMetadata}
    (h : EmitsMetadata env L q k md) (h' : EmitsMetadata env L q k md') : md = md' := by
  obtain ⟨w, t, e⟩ := h
  obtain ⟨w', t', e'⟩ := h'
  rw [e] at e'
  injection e' with e'
  injection e' with e'
  have e' := (Prod.mk.inj e').2
  have h1 := unborshMetadata?_iff.2 ⟨w, t, rfl⟩
  rw [e', unborshMetadata?_iff.2 ⟨w', t', rfl⟩] at h1
  exact (Option.some.inj h1).symm

/-- Specification: the only metadata that may be copied, and from which account it comes.
`src` and `op` are the addresses supplied as source account and owner program. -/
inductive MetadataSource (env : Env) (L : Ledger) (u : Pubkey) :
    (src op : Option Pubkey) → TokenMetadata → Prop
  /-- SPL Token mints, and Token-2022 mints without pointer: the mint's Metaplex PDA -/
  | metaplexPda {k : Pubkey} {op : Option Pubkey} {md : TokenMetadata} :
      (L u).owner = splTokenId ∨ HasPointer L u none →
      metaplexPda env.cr u = some k → (L k).owner = metaplexId →
      metaplexToToken2022 env u (L k).data = .ok md →
      MetadataSource env L u (some k) op md
  /-- pointer to the mint itself: the mint's own metadata, whatever accounts are supplied -/
  | self {src op : Option Pubkey} {m : Mint} {md : TokenMetadata} :
      HasPointer L u (some (some u)) → (L u).data = .mint m → m.tokenMetadata? = some md →
      MetadataSource env L u src op md
  /-- pointer to a Metaplex account -/
  | pointed {k : Pubkey} {op : Option Pubkey} {md : TokenMetadata} :
      HasPointer L u (some (some k)) → k ≠ u → (L k).owner = metaplexId →
      metaplexToToken2022 env u (L k).data = .ok md →
      MetadataSource env L u (some k) op md
  /-- pointer to an account of another program: that program's answer -/
  | external {k q : Pubkey} {md : TokenMetadata} :
      HasPointer L u (some (some k)) → k ≠ u → (L k).owner = q → q ≠ token2022Id →
      q ≠ metaplexId → EmitsMetadata env L q k md →
      MetadataSource env L u (some k) (some q) md

section
variable {env : Env} {accounts : List Meta} {L : Ledger} {u : Pubkey} {source op : Option Meta}
  {md : TokenMetadata}

theorem HasPointer.mint {p : Option (Option Pubkey)} {m : Mint} (h : HasPointer L u p)
    (hm : (L u).data = .mint m) : m.metadataPointer?.map (·.2) = p := by
  obtain ⟨_, m', h1, h2⟩ := h
  rw [hm] at h1; cases h1; exact h2

theorem readMetaplexForMint_ok_iff :
    readMetaplexForMint env u source L = .ok md ↔ ∃ s, source = some s ∧
      (L s.key).owner = metaplexId ∧ metaplexPda env.cr u = some s.key ∧
      metaplexToToken2022 env u (L s.key).data = .ok md := by
  unfold readMetaplexForMint
  simp only [bind_ok_iff, okOr_ok_iff, require_ok_iff, decide_eq_true_eq]
  constructor
  · rintro ⟨s, h1, _, h2, k, h3, _, rfl, h4⟩; exact ⟨s, h1, h2, h3, h4⟩
  · rintro ⟨s, h1, h2, h3, h4⟩; exact ⟨s, h1, (), h2, _, h3, (), rfl, h4⟩

theorem cpiEmitAndDecode_ok_iff {q k : Pubkey} :
    cpiEmitAndDecode env accounts q k L = .ok md ↔
      (∃ c ∈ accounts, c.key = q) ∧ (∃ c ∈ accounts, c.key = k) ∧
      EmitsMetadata env L q k md := by
  unfold cpiEmitAndDecode
  rw [bind_ok_iff]
  constructor
  · rintro ⟨_, h1, h2⟩
    obtain ⟨_, h3, h4⟩ := cpiCheck_inv h1
    have h4 := h4 (.ro k false) (by simp)
    refine ⟨h3, ?_, ?_⟩
    · unfold metaAllowed at h4
      simp only [Bool.and_eq_true, List.any_eq_true, decide_eq_true_eq] at h4
      exact h4.1.1
    · revert h2
      unfold EmitsMetadata
      cases env.emit q k L with
      | error e => intro h; cases h
      | ok o =>
        rcases o with _ | ⟨q', d⟩
        · intro h; cases h
        · dsimp only
          split
          · rename_i he
            subst he
            intro h
            rw [okOr_ok_iff] at h
            obtain ⟨w, t, rfl⟩ := unborshMetadata?_iff.1 h
            exact ⟨w, t, rfl⟩
          · intro h; cases h
  · rintro ⟨h1, ⟨c, hc, hk⟩, h3⟩
    refine ⟨(), cpiCheck_ok (by simp) h1 ?_, ?_⟩
    · intro m hm
      simp only [List.mem_cons, List.not_mem_nil, or_false] at hm
      subst hm
      exact metaAllowed_of_mem hc hk (by simp [Meta.ro]) (by simp [Meta.ro])
    · obtain ⟨w, t, h3⟩ := h3
      rw [h3]
      dsimp only
      rw [if_pos rfl, okOr_ok_iff]
      exact unborshMetadata?_iff.2 ⟨w, t, rfl⟩

/-- **C38** Soundness: whatever accounts are supplied, the metadata comes from where the unwrapped
mint says. -/
theorem source_sound
    (h : extractTokenMetadata env accounts u source op L = .ok md) :
    MetadataSource env L u (source.map (·.key)) (op.map (·.key)) md := by
  unfold extractTokenMetadata at h
  split at h
  · rename_i ho
    unfold resolveToken2022Source at h
    rw [bind_ok_iff] at h
    obtain ⟨m, hm, h⟩ := h
    rw [unpackMint_ok_iff] at hm
    revert h
    cases hp : m.metadataPointer? with
    | none =>
      intro h
      obtain ⟨s, rfl, h1, h2, h3⟩ := readMetaplexForMint_ok_iff.1 h
      exact .metaplexPda (.inr ⟨ho, m, hm, by rw [hp]; rfl⟩) h2 h1 h3
    | some p =>
      obtain ⟨pa, addr⟩ := p
      cases addr with
      | none => intro h; cases h
      | some addr =>
        have hpt : HasPointer L u (some (some addr)) := ⟨ho, m, hm, by rw [hp]; rfl⟩
        intro h
        dsimp only at h
        split at h
        · rename_i ha
          subst ha
          rw [okOr_ok_iff] at h
          exact .self hpt hm h
        · rename_i ha
          simp only [bind_ok_iff, okOr_ok_iff, require_ok_iff, decide_eq_true_eq] at h
          obtain ⟨s, rfl, _, rfl, h⟩ := h
          split at h
          · cases h
          · rename_i h22
            split at h
            · rename_i hmx
              exact .pointed hpt ha hmx h
            · rename_i hmx
              simp only [bind_ok_iff, okOr_ok_iff, require_ok_iff, decide_eq_true_eq] at h
              obtain ⟨o, rfl, _, h1, h2⟩ := h
              obtain ⟨_, _, h3⟩ := cpiEmitAndDecode_ok_iff.1 h2
              exact .external hpt ha h1.symm (fun e => h22 (h1.symm.trans e))
                (fun e => hmx (h1.symm.trans e)) h3
  · split at h
    · rename_i ho
      obtain ⟨s, rfl, h1, h2, h3⟩ := readMetaplexForMint_ok_iff.1 h
      exact .metaplexPda (.inl ho) h2 h1 h3
    · cases h

/-- **C38** Completeness: metadata from the right place is accepted, when the supplied accounts are
among the instruction's accounts (they always are in the sync instructions). -/
theorem source_complete (hs : ∀ s, source = some s → s ∈ accounts)
    (ho : ∀ o, op = some o → o ∈ accounts)
    (h : MetadataSource env L u (source.map (·.key)) (op.map (·.key)) md) :
    extractTokenMetadata env accounts u source op L = .ok md := by
  unfold extractTokenMetadata
  generalize hsk : source.map (·.key) = sk at h
  generalize hok : op.map (·.key) = ok at h
  cases h with
  | metaplexPda h1 h2 h3 h4 =>
    obtain ⟨s, rfl, rfl⟩ := Option.map_eq_some_iff.1 hsk
    have hr : readMetaplexForMint env u (some s) L = .ok md :=
      readMetaplexForMint_ok_iff.2 ⟨s, rfl, h3, h2, h4⟩
    rcases h1 with h1 | ⟨h1, m, hm, hp⟩
    · rw [if_neg (by rw [h1]; exact spl_ne_2022), if_pos h1, hr]
    · rw [if_pos h1]
      unfold resolveToken2022Source
      have : m.metadataPointer? = none := by simpa using hp
      simp only [unpackMint, hm, ok_bind, this]
      exact hr
  | self h1 h2 h3 =>
    have hp := h1.mint h2
    obtain ⟨⟨pa, pb⟩, hq, hq'⟩ := Option.map_eq_some_iff.1 hp
    dsimp only at hq'; subst hq'
    rw [if_pos h1.1]
    unfold resolveToken2022Source
    simp only [unpackMint, h2, ok_bind, hq]
    rw [if_pos trivial, h3]
    rfl
  | pointed h1 h2 h3 h4 =>
    obtain ⟨s, rfl, rfl⟩ := Option.map_eq_some_iff.1 hsk
    obtain ⟨ho', m, hm, hp⟩ := h1
    obtain ⟨⟨pa, pb⟩, hq, hq'⟩ := Option.map_eq_some_iff.1 hp
    dsimp only at hq'; subst hq'
    rw [if_pos ho']
    unfold resolveToken2022Source
    simp only [unpackMint, hm, ok_bind, hq]
    rw [if_neg h2]
    simp only [okOr_some, ok_bind, decide_true, require_true]
    rw [if_neg (by rw [h3]; exact mpl_ne_t22), if_pos h3]
    exact h4
  | external h1 h2 h3 h4 h5 h6 =>
    obtain ⟨s, rfl, rfl⟩ := Option.map_eq_some_iff.1 hsk
    obtain ⟨o, rfl, rfl⟩ := Option.map_eq_some_iff.1 hok
    obtain ⟨ho', m, hm, hp⟩ := h1
    obtain ⟨⟨pa, pb⟩, hq, hq'⟩ := Option.map_eq_some_iff.1 hp
    dsimp only at hq'; subst hq'
    rw [if_pos ho']
    unfold resolveToken2022Source
    simp only [unpackMint, hm, ok_bind, hq]
    rw [if_neg h2]
    simp only [okOr_some, ok_bind, decide_true, require_true]
    rw [if_neg (by rw [h3]; exact h4), if_neg (by rw [h3]; exact h5)]
    simp only [h3, decide_true, require_true, ok_bind]
    exact cpiEmitAndDecode_ok_iff.2 ⟨⟨o, ho o rfl, rfl⟩, ⟨s, hs s rfl, rfl⟩, h6⟩

/-- The source determines the metadata: no choice of extra accounts yields anything else, except
that leaving accounts out (or supplying wrong ones) yields nothing. -/
theorem MetadataSource.unique {s s' o o' : Option Pubkey} {md md' : TokenMetadata}
    (h : MetadataSource env L u s o md) (h' : MetadataSource env L u s' o' md') : md = md' := by
  have noPtr : ∀ {p}, HasPointer L u p → (L u).owner ≠ splTokenId := by
    intro p h; rw [h.1]; exact spl_ne_2022.symm
  have uniq : ∀ {p q}, HasPointer L u p → HasPointer L u q → p = q := by
    intro p q h h'
    obtain ⟨_, m, hm, hp⟩ := h
    rw [← hp]; exact h'.mint hm
  cases h with
  | metaplexPda a b c d =>
    cases h' with
    | metaplexPda a' b' c' d' =>
      rw [b] at b'; cases b'
      rw [d] at d'; cases d'; rfl
    | self a' => rcases a with a | a
                 · exact absurd a (noPtr a')
                 · cases uniq a a'
    | pointed a' => rcases a with a | a
                    · exact absurd a (noPtr a')
                    · cases uniq a a'
    | external a' => rcases a with a | a
                     · exact absurd a (noPtr a')
                     · cases uniq a a'
  | self a b c =>
    cases h' with
    | metaplexPda a' => rcases a' with a' | a'
                        · exact absurd a' (noPtr a)
                        · cases uniq a a'
    | self a' b' c' => rw [b] at b'; cases b'; rw [c] at c'; cases c'; rfl
    | pointed a' b' => cases uniq a a'; exact absurd rfl b'
    | external a' b' => cases uniq a a'; exact absurd rfl b'
  | pointed a b c d =>
    cases h' with
    | metaplexPda a' => rcases a' with a' | a'
                        · exact absurd a' (noPtr a)
                        · cases uniq a a'
    | self a' b' c' => cases uniq a a'; exact absurd rfl b
    | pointed a' b' c' d' => cases uniq a a'; rw [d] at d'; cases d'; rfl
    | external a' b' c' d' e' => cases uniq a a'; rw [c] at c'; subst c'; exact absurd rfl e'
  | external a b c d e f =>
    cases h' with
    | metaplexPda a' => rcases a' with a' | a'
                        · exact absurd a' (noPtr a)
                        · cases uniq a a'
    | self a' b' c' => cases uniq a a'; exact absurd rfl b
    | pointed a' b' c' d' => cases uniq a a'; rw [c] at c'; subst c'; exact absurd rfl e
    | external a' b' c' d' e' f' =>
      cases uniq a a'; subst c; subst c'; exact f.unique f'

/-- **C38** Spoofing: two parties supplying different extra accounts cannot get different
metadata. -/
theorem source_unique {accounts' : List Meta} {source' op' : Option Meta} {md' : TokenMetadata}
    (h : extractTokenMetadata env accounts u source op L = .ok md)
    (h' : extractTokenMetadata env accounts' u source' op' L = .ok md') : md = md' :=
  (source_sound h).unique (source_sound h')

/-- Specification: the errors for a mint read through Metaplex. -/
inductive MetaplexErr (env : Env) (L : Ledger) (u : Pubkey) : Option Pubkey → Err → Prop
  | missing : MetaplexErr env L u none .notEnoughAccountKeys
  | owner {k} : (L k).owner ≠ metaplexId → MetaplexErr env L u (some k) .invalidAccountOwner
  | address {k} : (L k).owner = metaplexId → metaplexPda env.cr u ≠ some k →
      (metaplexPda env.cr u).isSome → MetaplexErr env L u (some k) (wrapErr .metaplexMetadataMismatch)

/-- **C38** The documented rejections: unset pointer, missing or wrong source account, wrong owner
program, silent or impersonating external program, unknown mint owner. -/
theorem source_errors :
    ((L u).owner ≠ splTokenId → (L u).owner ≠ token2022Id →
      extractTokenMetadata env accounts u source op L = .error .incorrectProgramId) ∧
    (HasPointer L u (some none) →
      extractTokenMetadata env accounts u source op L = .error (wrapErr .metadataPointerUnset)) ∧
    ((L u).owner = splTokenId ∨ HasPointer L u none → ∀ e,
      MetaplexErr env L u (source.map (·.key)) e →
      extractTokenMetadata env accounts u source op L = .error e) ∧
    (HasPointer L u (some (some u)) → (∀ m, (L u).data = .mint m → m.tokenMetadata? = none) →
      extractTokenMetadata env accounts u source op L = .error .invalidAccountData) ∧
    (∀ k, HasPointer L u (some (some k)) → k ≠ u →
      (source = none →
        extractTokenMetadata env accounts u source op L = .error .notEnoughAccountKeys) ∧
      (∀ s, source = some s → s.key ≠ k →
        extractTokenMetadata env accounts u source op L =
          .error (wrapErr .metadataPointerMismatch)) ∧
      (∀ s, source = some s → s.key = k → (L k).owner = token2022Id →
        extractTokenMetadata env accounts u source op L = .error .invalidAccountData) ∧
      (∀ s, source = some s → s.key = k → (L k).owner ≠ token2022Id → (L k).owner ≠ metaplexId →
        (op = none →
          extractTokenMetadata env accounts u source op L = .error .notEnoughAccountKeys) ∧
        (∀ o, op = some o → o.key ≠ (L k).owner →
          extractTokenMetadata env accounts u source op L = .error .invalidAccountOwner) ∧
        (∀ o, op = some o → o.key = (L k).owner → o ∈ accounts → s ∈ accounts →
          (env.emit o.key k L = .ok none ∨
            ∃ q d, env.emit o.key k L = .ok (some (q, d)) ∧ q ≠ o.key) →
          extractTokenMetadata env accounts u source op L =
            .error (wrapErr .externalProgramReturnedNoData)) ∧
        (∀ o d, op = some o → o.key = (L k).owner → o ∈ accounts → s ∈ accounts →
          env.emit o.key k L = .ok (some (o.key, d)) →
          (∀ (md : TokenMetadata) tail, md.Writable → d ≠ md.borsh ++ tail) →
          extractTokenMetadata env accounts u source op L = .error .borshIoError))) := by
  refine ⟨?_, ?_, ?_, ?_, ?_⟩
  · intro h1 h2
    simp [extractTokenMetadata, h1, h2]
  · rintro ⟨ho, m, hm, hp⟩
    obtain ⟨⟨pa, pb⟩, hq, hq'⟩ := Option.map_eq_some_iff.1 hp
    dsimp only at hq'; subst hq'
    simp [extractTokenMetadata, ho, resolveToken2022Source, unpackMint, hm, hq]
  · intro h e he
    have hr : readMetaplexForMint env u source L = .error e := by
      unfold readMetaplexForMint
      generalize hsk : source.map (·.key) = sk at he
      cases he with
      | missing => simp at hsk; subst hsk; rfl
      | owner h1 =>
        obtain ⟨s, rfl, rfl⟩ := Option.map_eq_some_iff.1 hsk
        simp [h1]
      | address h1 h2 h3 =>
        obtain ⟨s, rfl, rfl⟩ := Option.map_eq_some_iff.1 hsk
        obtain ⟨k, hk⟩ := Option.isSome_iff_exists.1 h3
        have : ¬ s.key = k := fun h => h2 (by rw [hk, h])
        simp [h1, hk, this]
    rcases h with h | ⟨ho, m, hm, hp⟩
    · simp [extractTokenMetadata, h, spl_ne_2022, hr]
    · have hp : m.metadataPointer? = none := by simpa using hp
      simp [extractTokenMetadata, ho, resolveToken2022Source, unpackMint, hm, hp, hr]
  · rintro ⟨ho, m, hm, hp⟩ h
    obtain ⟨⟨pa, pb⟩, hq, hq'⟩ := Option.map_eq_some_iff.1 hp
    dsimp only at hq'; subst hq'
    simp [extractTokenMetadata, ho, resolveToken2022Source, unpackMint, hm, hq, h m hm]
  · rintro k ⟨ho, m, hm, hp⟩ hk
    obtain ⟨⟨pa, pb⟩, hq, hq'⟩ := Option.map_eq_some_iff.1 hp
    dsimp only at hq'; subst hq'
    have key : extractTokenMetadata env accounts u source op L = (do
        let src ← okOr source .notEnoughAccountKeys
        require (src.key = k) (wrapErr .metadataPointerMismatch)
        if (L src.key).owner = token2022Id then .error .invalidAccountData
        else if (L src.key).owner = metaplexId then
          metaplexToToken2022 env u (L src.key).data
        else do
          let op ← okOr op .notEnoughAccountKeys
          require (op.key = (L src.key).owner) .invalidAccountOwner
          cpiEmitAndDecode env accounts op.key src.key L) := by
      simp [extractTokenMetadata, ho, resolveToken2022Source, unpackMint, hm, hq, hk]
    rw [key]
    refine ⟨?_, ?_, ?_, ?_⟩
    · rintro rfl; rfl
    · rintro s rfl h; simp [h]
    · rintro s rfl rfl h; simp [h]
    · rintro s rfl rfl h1 h2
      refine ⟨?_, ?_, ?_, ?_⟩
      · rintro rfl; simp [h1, h2]
      · rintro o rfl h; simp [h1, h2, h]
      · rintro o rfl h hoa hsa hem
        simp only [okOr_some, ok_bind, decide_true, require_true, h1, h2, if_false, h]
        rw [← h]
        unfold cpiEmitAndDecode
        rw [cpiCheck_ok (by simp) ⟨o, hoa, rfl⟩ (by
          intro m hm
          simp only [List.mem_cons, List.not_mem_nil, or_false] at hm
          subst hm
          exact metaAllowed_of_mem hsa rfl (by simp [Meta.ro]) (by simp [Meta.ro]))]
        rcases hem with hem | ⟨q, d, hem, hne⟩
        · simp [hem]
        · simp [hem, hne]
      · rintro o d rfl h hoa hsa hem hbad
        simp only [okOr_some, ok_bind, decide_true, require_true, h1, h2, if_false, h]
        rw [← h]
        unfold cpiEmitAndDecode
        rw [cpiCheck_ok (by simp) ⟨o, hoa, rfl⟩ (by
          intro m hm
          simp only [List.mem_cons, List.not_mem_nil, or_false] at hm
          subst hm
          exact metaAllowed_of_mem hsa rfl (by simp [Meta.ro]) (by simp [Meta.ro]))]
        have hn : unborshMetadata? d = none := by
          cases hd : unborshMetadata? d with
          | none => rfl
          | some md =>
            obtain ⟨w, t, e⟩ := unborshMetadata?_iff.1 hd
            exact absurd e (hbad md t w)
        simp [hem, hn]

end

namespace Example

def someMd : TokenMetadata :=
  { updateAuthority := some issuer, mint := u, name := "Coin", symbol := "C", uri := "x",
    additional := [("k1", "v1"), ("k2", "v2"), ("k1", "v3")] }

/-- Unwrapped mint with a pointer to itself and its own metadata. -/
def Lself : Ledger := world [.metadataPointer none (some u), .tokenMetadata someMd] 10 goodExts 10
/-- Unwrapped mint with a pointer to an account of a foreign program. -/
def Lext : Ledger :=
  (world [.metadataPointer none (some src)] 10 goodExts 10).set src ⟨100, .lit 77, .bytes [1]⟩
/-- Unwrapped mint with an unset pointer. -/
def Lunset : Ledger := world [.metadataPointer none none] 10 goodExts 10
/-- An environment in which that program answers. -/
def envExt : Env := { env with emit := fun q k _ => if k = src then .ok (some (q, someMd.borsh)) else .error 0 }

example : extractTokenMetadata env [] u none none Lself = .ok someMd := by decide +kernel
example : extractTokenMetadata envExt [.ro src false, .ro (.lit 77) false] u (some (.ro src false))
    (some (.ro (.lit 77) false)) Lext = .ok someMd := by decide +kernel
-- bytes after the value are ignored; a value cut short is an error
example : extractTokenMetadata { envExt with emit := fun q _ _ => .ok (some (q, someMd.borsh ++ [1, 2, 3])) }
    [.ro src false, .ro (.lit 77) false] u (some (.ro src false))
    (some (.ro (.lit 77) false)) Lext = .ok someMd := by decide +kernel
example : extractTokenMetadata { envExt with emit := fun q _ _ => .ok (some (q, someMd.borsh.dropLast)) }
    [.ro src false, .ro (.lit 77) false] u (some (.ro src false))
    (some (.ro (.lit 77) false)) Lext = .error .borshIoError := by decide +kernel
example : extractTokenMetadata env [] u none none Lunset = .error (wrapErr .metadataPointerUnset) := by
  decide +kernel
example : HasPointer Lext u (some (some src)) := ⟨by decide +kernel, uMint [.metadataPointer none (some src)],
  by decide +kernel, by decide +kernel⟩

end Example

end TokenWrap
