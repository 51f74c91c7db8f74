import Mathlib.Data.List.Perm.Basic
import Mathlib.Data.List.Dedup
import Verif.Rent
import Verif.Props.PostState
import Verif.Props.CreateMint
import Verif.Props.Close
import Verif.Props.Pointer
import Verif.Props.Sync22
import Verif.Props.SyncSpl
/-!
# C95–C97: the program and the runtime's rent rule

Which instructions can be refused by the runtime although they succeeded, and how many lamports avoid
it.
-/

set_option linter.unusedSimpArgs false

namespace TokenWrap

open TokenWrapInstruction

variable {env : Env} {L L' : Ledger} {amount : UInt64}

/-! ## Steps that change no size and move no lamports -/

theorem rentOk_of_same (h : ∀ k, (L' k).lamports = (L k).lamports ∧ (L' k).data.len = (L k).data.len) :
    RentOk env L L' := fun k _ => rentOkAt_of_same (h k).1 (h k).2

/-- New contents of the same size. -/
theorem rentOk_setData {k : Pubkey} {d : Data} (h : d.len = (L k).data.len) :
    RentOk env L (L.setData k d) := by
  refine rentOk_of_same fun x => ?_
  rw [Ledger.setData_apply]
  split
  · rename_i e; subst e; exact ⟨rfl, h⟩
  · exact ⟨rfl, rfl⟩

/-- Spec: a token account that is rent exempt on top of the lamports that are its (native) balance. -/
def TokenFunded (env : Env) (L : Ledger) (k : Pubkey) : Prop :=
  ∀ t, (L k).data = .token t → env.rentMin (L k).data.len + nativeLamports t t.amount ≤ (L k).lamports

theorem transferred_rentOk {L1 : Ledger} {src dst : Pubkey} {s s' d : TokenAcct} {n fee : Nat}
    (h : Transferred L L1 src dst s' d n fee) (hs : (L src).data = .token s)
    (hd : (L dst).data = .token d) (hss : SameButDelegation s s') (hle : n ≤ s.amount)
    (hf : s.isNative ≠ none → TokenFunded env L src ∧ TokenFunded env L dst) :
    RentOk env L L1 := by
  rcases h with ⟨_, rfl⟩ | ⟨hne, h⟩
  · exact rentOk_refl _ _
  · obtain ⟨_, _, _, e1, _, e2, _, e3, e4⟩ := transferMove_inv hne h
    have l1 : (L1 src).data.len = (L src).data.len := by
      rw [e1, hs]; show tokenAccountLen s'.exts = tokenAccountLen s.exts; rw [hss.exts]
    have l2 : (L1 dst).data.len = (L dst).data.len := by rw [e2, hd]; rfl
    intro k _
    by_cases hn : s.isNative = none
    · obtain ⟨m1, m2⟩ := e4 (by rw [hss.isNative, hn])
      by_cases k1 : k = src
      · subst k1; exact rentOkAt_of_same m1 l1
      · by_cases k2 : k = dst
        · subst k2; exact rentOkAt_of_same m2 l2
        · unfold RentOkAt; rw [e3 k k1 k2]; exact rentTransition_refl _
    · obtain ⟨f1, f2⟩ := hf hn
      obtain ⟨_, m1, m2⟩ := transferMove_native hne h (by rw [hss.isNative]; exact hn)
      have f1' := f1 s hs
      have f2' := f2 d hd
      have hi : s.isNative.isSome = true := by
        cases hx : s.isNative with
        | none => exact absurd hx hn
        | some _ => rfl
      unfold nativeLamports at f1'
      rw [if_pos hi] at f1'
      by_cases k1 : k = src
      · subst k1
        exact rentOkAt_of_post (.inr (by unfold RentExempt; rw [m1, l1]; omega))
      · by_cases k2 : k = dst
        · subst k2
          exact rentOkAt_of_post (.inr (by unfold RentExempt; rw [m2, l2]; omega))
        · unfold RentOkAt; rw [e3 k k1 k2]; exact rentTransition_refl _

/-! ## Wrap, Unwrap, CreateMint, SetCanonicalPointer: never refused -/

section
variable {recipient wmint auth uprog wprog src umint escrow tauth : Meta} {rest : List Meta}

/-- **C95** The rent rule never refuses a successful Wrap: no account changes its size, and lamports
move only for wrapped SOL, where the reserve stays behind. -/
theorem wrap_rent_ok
    (h : processInstruction env ([recipient, wmint, auth, uprog, wprog, src, umint, escrow, tauth] ++
      rest) (wrap amount).pack L = .ok L')
    (hf : ∀ s, (L src.key).data = .token s → s.isNative ≠ none →
      TokenFunded env L src.key ∧ TokenFunded env L escrow.key) : RentOk env L L' := by
  obtain ⟨m, w, s, d, s', r, L1, e⟩ := wrap_effect h
  have t := e.tr
  have h1 : RentOk env L L1 := transferred_rentOk t.moved t.srcData t.escData t.same t.enough
    (hf s t.srcData)
  have hr1 : L1 recipient.key = L recipient.key := Transferred.other t.moved e.rNeS e.rNeE
  have hw1 : L1 wmint.key = L wmint.key := Transferred.other t.moved e.wNeS e.wNeE
  have hf := e.final
  dsimp only at hf
  rw [hf]
  refine rentOk_trans h1 (rentOk_trans (rentOk_setData ?_) (rentOk_setData ?_))
  · rw [hr1, e.rData]; rfl
  · rw [Ledger.setData_ne _ _ (Ne.symm e.rNeW), hw1, e.wData]; rfl

end

section
variable {escrow recipient auth umint wprog uprog holder wmint tauth : Meta} {rest : List Meta}

/-- **C95** The rent rule never refuses a successful Unwrap. -/
theorem unwrap_rent_ok
    (h : processInstruction env ([escrow, recipient, auth, umint, wprog, uprog, holder, wmint,
      tauth] ++ rest) (unwrap amount).pack L = .ok L') (hwu : wmint.key ≠ umint.key)
    (hf : ∀ e, (L escrow.key).data = .token e → e.isNative ≠ none →
      TokenFunded env L escrow.key ∧ TokenFunded env L recipient.key) : RentOk env L L' := by
  obtain ⟨m, w, t, t', e, e', d, fee, L1, ef⟩ := unwrap_effect h
  obtain ⟨n1, n2, n3, n4, o1, o2, hm⟩ := ef.distinct hwu
  have h1 : RentOk env L L1 := by
    have hmid := ef.mid
    dsimp only at hmid
    rw [hmid]
    refine rentOk_trans (rentOk_setData ?_) (rentOk_setData ?_)
    · rw [ef.hData]
      show tokenAccountLen t'.exts = tokenAccountLen t.exts
      rw [ef.hSame.exts]
    · rw [Ledger.setData_ne _ _ (Ne.symm ef.hNeW), ef.wData]; rfl
  dsimp only at o1 o2
  have eD : (L escrow.key).data = .token e := by rw [← o1]; exact ef.eData
  refine rentOk_trans h1 (transferred_rentOk ef.moved ef.eData ef.dData ef.eSame ef.eEnough ?_)
  intro hn
  obtain ⟨f1, f2⟩ := hf e eD hn
  dsimp only
  unfold TokenFunded
  rw [o1, o2]
  exact ⟨f1, f2⟩

end

section
variable {idem : Bool} {wmint bp umint sys wprog : Meta} {rest : List Meta}

/-- **C95** The rent rule never refuses a successful CreateMint, with any of the shipped customizers:
the program has checked that both new accounts hold the minimum for their final size. -/
theorem createMint_rent_ok (c : Shipped)
    (h : processCreateMint env c.model ([wmint, bp, umint, sys, wprog] ++ rest) idem L = .ok L') :
    RentOk env L L' := by
  obtain ⟨_, ⟨_, rfl, _⟩ | ⟨mb, bb, L1, _, _, h1, h2⟩⟩ := createMint_cases h
  · exact rentOk_refl _ _
  · obtain ⟨m, A, space, i1, i2, i3, i4, i5, _, _, i8, _, i10, i11⟩ := createMint_fresh c.spec h1 h2
    dsimp only at i2 i3 i8 i10 i11
    intro k _
    by_cases k1 : k = bp.key
    · subst k1
      refine rentOkAt_of_post (.inr ?_)
      rw [i11, Ledger.set_same]
      show env.rentMin umint.key.bytes.length ≤ _
      rw [umint.key.len]
      exact i3
    · by_cases k2 : k = wmint.key
      · subst k2
        refine rentOkAt_of_post (.inr ?_)
        rw [i11, Ledger.set_ne _ _ k1, Ledger.set_same]
        refine Nat.le_trans (Nat.le_of_eq ?_) i2
        congr 1
        unfold wrappedMintSpace at i1
        dsimp only at i1 ⊢
        by_cases hp : wprog.key = token2022Id
        · rw [if_pos hp] at i1
          simp only [if_pos hp]
          cases c <;> cases i1 <;> rfl
        · rw [if_neg hp] at i1
          simp only [if_neg hp]
          cases i1
          rfl
      · unfold RentOkAt
        rw [i11, Ledger.set_ne _ _ k1, Ledger.set_ne _ _ k2]
        exact rentTransition_refl _

end

/-- **C95** The rent rule never refuses a successful SetCanonicalPointer. -/
theorem pointer_rent_ok {accounts : List Meta} {p : Pubkey}
    (h : processInstruction env accounts (setCanonicalPointer p).pack L = .ok L') :
    RentOk env L L' := by
  rw [processInstruction_pack] at h
  obtain ⟨a, m, e⟩ := processPointer_effect h
  intro k _
  rcases e.final with ⟨⟨_, _, h3⟩, h4⟩ | ⟨h3, _, h4⟩ | ⟨_, rfl⟩
  · by_cases hk : k = a.pointer.key
    · subst hk
      refine rentOkAt_of_post (.inr ?_)
      rw [h4, Ledger.set_same]
      show env.rentMin p.bytes.length ≤ _
      rw [p.len]
      exact h3
    · unfold RentOkAt; rw [h4, Ledger.set_ne _ _ hk]; exact rentTransition_refl _
  · by_cases hk : k = a.pointer.key
    · subst hk
      refine rentOkAt_of_same ?_ ?_
      · rw [h4, Ledger.set_same]
      · rw [h4, Ledger.set_same, h3]
        exact p.len
    · unfold RentOkAt; rw [h4, Ledger.set_ne _ _ hk]; exact rentTransition_refl _
  · exact rentTransition_refl _

/-! ## CloseStuckEscrow: only the destination matters -/

/-- **C95** The rent rule refuses a successful CloseStuckEscrow only on account of the destination, and
not if the destination is rent exempt, or if it holds no more data than the escrow did and the escrow was
rent exempt. -/
theorem close_rent_ok {escrow dest umint wmint auth prog : Meta} {rest : List Meta}
    (h : processInstruction env ([escrow, dest, umint, wmint, auth, prog] ++ rest)
      closeStuckEscrow.pack L = .ok L') (hmono : ∀ m n, m ≤ n → env.rentMin m ≤ env.rentMin n)
    (hd : RentExempt env (L dest.key) ∨
      RentExempt env (L escrow.key) ∧ (L dest.key).data.len ≤ (L escrow.key).data.len) :
    RentOk env L L' := by
  rw [processInstruction_pack] at h
  obtain ⟨a, t, m, pda, e⟩ := processClose_effect h
  obtain ⟨r, ha⟩ := e.accounts_eq
  have h1 : a.escrow = escrow := by simp at ha; exact ha.1.symm
  have h2 : a.destination = dest := by simp at ha; exact ha.2.1.symm
  have hf := e.final
  have hne := e.ne
  rw [h1, h2] at hf hne
  intro k _
  by_cases k1 : k = escrow.key
  · subst k1
    exact rentOkAt_of_post (.inl (by rw [hf, closeOut_same]; rfl))
  · by_cases k2 : k = dest.key
    · subst k2
      refine rentOkAt_of_post (.inr ?_)
      unfold RentExempt at hd ⊢
      rw [hf, closeOut_dst L hne]
      show env.rentMin (L dest.key).data.len ≤ (L dest.key).lamports + (L escrow.key).lamports
      rcases hd with hd | ⟨hd, hl⟩
      · omega
      · have := hmono _ _ hl
        omega
    · unfold RentOkAt; rw [hf, closeOut_other L k1 k2]; exact rentTransition_refl _

/-! ## SyncMetadataToToken2022: the wrapped mint must be funded for its new size -/

/-- Spec: the size of the mint once it shows the metadata `md`: the 165 bytes and the type byte every
extended mint has, 4 bytes of header per extension, the other extensions, and the Borsh form of the
metadata (`TokenMetadata.packedLen`); two bytes more if that would be the size of a multisig. -/
def Mint.sizeWith (m : Mint) (md : TokenMetadata) : Nat :=
  mintAccountLen (md.packedLen :: m.sansMetadata.exts.map MintExt.valueLen)

theorem mintAccountLen_perm {a b : List Nat} (h : a.Perm b) : mintAccountLen a = mintAccountLen b := by
  unfold mintAccountLen
  have hn : a = [] ↔ b = [] := by
    constructor
    · rintro rfl; exact h.symm.eq_nil
    · rintro rfl; exact h.eq_nil
  have hs : (a.map (· + 4)).sum = (b.map (· + 4)).sum := (h.map _).sum_eq
  simp only [hn, hs]

theorem mintAccountLen_append_lt {l : List Nat} (h : l ≠ []) (x : Nat) :
    mintAccountLen l < mintAccountLen (l ++ [x]) := by
  unfold mintAccountLen
  rw [if_neg h, if_neg (show ¬ l ++ [x] = [] by simp)]
  simp only [List.map_append, List.map_cons, List.map_nil, List.sum_append, List.sum_cons,
    List.sum_nil]
  generalize (l.map (· + 4)).sum = n
  split <;> split <;> omega

/-- Spec: the mint has at most one metadata extension (the token program never adds a second one). -/
def OneMetadata (m : Mint) : Prop :=
  (m.exts.filter fun | .tokenMetadata _ => true | _ => false).length ≤ 1

theorem perm_of_metadata : ∀ {l : List MintExt} {md : TokenMetadata},
    (l.filter fun | .tokenMetadata _ => true | _ => false).length ≤ 1 →
    (l.findSome? fun | .tokenMetadata md => some md | _ => none) = some md →
    l.Perm (.tokenMetadata md :: l.filter fun | .tokenMetadata _ => false | _ => true)
  | [], md, _, h => by cases h
  | e :: l, md, h1, h2 => by
    by_cases he : ∃ x, e = .tokenMetadata x
    · obtain ⟨x, rfl⟩ := he
      simp only [List.findSome?_cons, Option.some.injEq] at h2
      subst h2
      simp only [List.filter_cons, if_true, List.length_cons] at h1
      have hz : (l.filter fun | .tokenMetadata _ => true | _ => false) = [] :=
        List.length_eq_zero_iff.1 (by omega)
      have : (l.filter fun | .tokenMetadata _ => false | _ => true) = l := by
        rw [List.filter_eq_self]
        intro y hy
        have := List.filter_eq_nil_iff.1 hz y hy
        cases y <;> simp_all
      simp only [List.filter_cons, if_neg (by simp : ¬ (false = true)), this]
      exact List.Perm.refl _
    · have hf : (e :: l).filter (fun | .tokenMetadata _ => false | _ => true) =
          e :: l.filter (fun | .tokenMetadata _ => false | _ => true) := by
        cases e <;> first | rfl | exact absurd ⟨_, rfl⟩ he
      have hg : (e :: l).filter (fun | .tokenMetadata _ => true | _ => false) =
          l.filter (fun | .tokenMetadata _ => true | _ => false) := by
        cases e <;> first | rfl | exact absurd ⟨_, rfl⟩ he
      have h2' : (l.findSome? fun | .tokenMetadata md => some md | _ => none) = some md := by
        cases e <;> first | exact h2 | exact absurd ⟨_, rfl⟩ he
      rw [hg] at h1
      rw [hf]
      exact ((perm_of_metadata h1 h2').cons e).trans (List.Perm.swap _ _ _)

/-- A mint that shows `md` has the size `sizeWith` says. -/
theorem len_eq_sizeWith {m : Mint} {md : TokenMetadata} (h1 : OneMetadata m)
    (h2 : m.tokenMetadata? = some md) : (Data.mint m).len = m.sizeWith md := by
  show mintAccountLen _ = mintAccountLen _
  exact mintAccountLen_perm ((perm_of_metadata h1 h2).map MintExt.valueLen)

theorem packedLen_same {st src : TokenMetadata} (h : SameMetadata st src)
    (hn : (src.additional.map (·.1)).Nodup) : st.packedLen = src.packedLen := by
  obtain ⟨h1, h2, h3, h4, h5⟩ := h
  have hp : st.additional.Perm src.additional := by
    refine (List.perm_ext_iff_of_nodup (List.Nodup.of_map _ h5) (List.Nodup.of_map _ hn)).2 ?_
    rintro ⟨k, v⟩
    rw [h4, lastValue_iff, lastValue_of_nodup hn, mem_iff_lookup hn]
  unfold TokenMetadata.packedLen
  rw [h1, h2, h3, (hp.map _).sum_eq]

theorem oneMetadata_synced {m m' : Mint} (h1 : OneMetadata m) {md : TokenMetadata}
    (h : (∃ old, m.tokenMetadata? = some old ∧ m' = withMd m md) ∨
      (m.tokenMetadata? = none ∧ m' = { m with exts := m.exts ++ [.tokenMetadata md] })) :
    OneMetadata m' := by
  rcases h with ⟨_, _, rfl⟩ | ⟨hn, rfl⟩
  · unfold OneMetadata withMd at *
    dsimp only
    have : ∀ l : List MintExt, ((mapMetadata (fun _ => md) l).filter
        fun | .tokenMetadata _ => true | _ => false).length =
        (l.filter fun | .tokenMetadata _ => true | _ => false).length := by
      intro l
      induction l with
      | nil => rfl
      | cons e l ih =>
        cases e <;> simp [mapMetadata, List.filter_cons] <;> exact ih
    rw [this]
    exact h1
  · unfold OneMetadata at *
    dsimp only
    rw [List.filter_append]
    have : (m.exts.filter fun | .tokenMetadata _ => true | _ => false) = [] := by
      rw [List.filter_eq_nil_iff]
      intro e he
      cases e with
      | tokenMetadata x =>
        have := List.findSome?_eq_none_iff.1 hn _ he
        cases this
      | _ => simp
    rw [this]
    simp

/-- **C96** The size of the wrapped mint after a successful sync can be computed in advance from the
source: it is the size of the mint with the source's metadata in place of its own. -/
theorem sync22_size (hord : FairOrder env) {accounts : List Meta}
    (h : processInstruction env accounts syncMetadataToToken2022.pack L = .ok L') :
    ∃ W A u t rest src m, accounts = W :: A :: u :: t :: rest ∧
      MetadataSource env L u.key (rest[0]?.map (·.key)) (rest[1]?.map (·.key)) src ∧
      (L W.key).data = .mint m ∧ OnlyChanged [W.key] L L' ∧
      (L' W.key).lamports = (L W.key).lamports ∧
      (OneMetadata m → UniqueKeys L W.key → (src.additional.map (·.1)).Nodup →
        (L' W.key).data.len = m.sizeWith src) := by
  rw [processInstruction_pack] at h
  obtain ⟨a, src, m, m', e⟩ := processSync22_effect h
  obtain ⟨rest, hacc, hs, ho⟩ := parseSync22_ok_iff.1 e.parsed
  refine ⟨a.wrappedMint, a.authority, a.unwrappedMint, a.tokenProgram, rest, src, m, hacc, ?_,
    e.wData, ?_, by rw [e.final]; simp, ?_⟩
  · rw [← hs, ← ho]; exact source_sound e.source
  · intro k hk
    rw [e.final]
    exact Ledger.setData_ne _ _ (by simpa using hk)
  · intro h1 hu hn
    have hone : OneMetadata m' := by
      rcases e.shape with ⟨md, q1, q2⟩ | ⟨q1, _, _, q2⟩
      · exact oneMetadata_synced h1 (.inl ⟨md, q1, q2⟩)
      · exact oneMetadata_synced h1 (.inr ⟨q1, q2⟩)
    have hsame := syncedMd_same (W := a.wrappedMint.key) (A := a.authority.key) (src := src) hord
      fun w hw => hu m w e.wData hw
    rw [e.final, Ledger.setData_same]
    show (Data.mint m').len = _
    rw [len_eq_sizeWith hone e.stored]
    unfold Mint.sizeWith
    rw [packedLen_same hsame hn]
    have : m'.sansMetadata.exts = m.sansMetadata.exts := e.same.2
    rw [this]

/-- **C96** The rent rule accepts a successful sync to Token-2022 exactly if the wrapped mint already
holds the minimum for its size with the source's metadata.  (The wrapped mint is rent exempt before, as
CreateMint leaves it.) -/
theorem sync22_rent_iff (hord : FairOrder env) (hr : ∀ n, 0 < env.rentMin n) {accounts : List Meta}
    (h : processInstruction env accounts syncMetadataToToken2022.pack L = .ok L') :
    ∃ W A u t rest src m, accounts = W :: A :: u :: t :: rest ∧
      MetadataSource env L u.key (rest[0]?.map (·.key)) (rest[1]?.map (·.key)) src ∧
      (L W.key).data = .mint m ∧
      (W.key ≠ incineratorId → RentExempt env (L W.key) → OneMetadata m → UniqueKeys L W.key →
        (src.additional.map (·.1)).Nodup →
        (RentOk env L L' ↔ env.rentMin (m.sizeWith src) ≤ (L W.key).lamports)) := by
  obtain ⟨W, A, u, t, rest, src, m, h1, h2, h3, h4, h5, h6⟩ := sync22_size hord h
  refine ⟨W, A, u, t, rest, src, m, h1, h2, h3, fun hi he ho hu hn => ?_⟩
  have hpos : (L' W.key).lamports ≠ 0 := by
    have := hr (L W.key).data.len
    unfold RentExempt at he
    omega
  have key : RentOkAt env L L' W.key ↔ env.rentMin (m.sizeWith src) ≤ (L W.key).lamports := by
    rw [rentOkAt_iff_of_exempt he]
    unfold RentExempt
    rw [h6 ho hu hn, h5]
    rw [h5] at hpos
    exact ⟨fun q => q.resolve_left hpos, .inr⟩
  rw [← key]
  refine ⟨fun q => q W.key hi, fun q k _ => ?_⟩
  by_cases hk : k = W.key
  · rw [hk]; exact q
  · unfold RentOkAt
    rw [h4 k (by simpa using hk)]
    exact rentTransition_refl _

/-- **C96** The same for a wrapped mint in any state of rent: a mint that is below the minimum already (and
exists) may also be synced if the sync does not change its size. -/
theorem sync22_rent_any (hord : FairOrder env) {accounts : List Meta}
    (h : processInstruction env accounts syncMetadataToToken2022.pack L = .ok L') :
    ∃ W A u t rest src m, accounts = W :: A :: u :: t :: rest ∧
      MetadataSource env L u.key (rest[0]?.map (·.key)) (rest[1]?.map (·.key)) src ∧
      (L W.key).data = .mint m ∧
      (W.key ≠ incineratorId → 0 < (L W.key).lamports → OneMetadata m → UniqueKeys L W.key →
        (src.additional.map (·.1)).Nodup →
        (RentOk env L L' ↔ env.rentMin (m.sizeWith src) ≤ (L W.key).lamports ∨
          (¬ RentExempt env (L W.key) ∧ m.sizeWith src = (L W.key).data.len))) := by
  obtain ⟨W, A, u, t, rest, src, m, h1, h2, h3, h4, h5, h6⟩ := sync22_size hord h
  refine ⟨W, A, u, t, rest, src, m, h1, h2, h3, fun hi hpos ho hu hn => ?_⟩
  have key : RentOkAt env L L' W.key ↔ env.rentMin (m.sizeWith src) ≤ (L W.key).lamports ∨
      (¬ RentExempt env (L W.key) ∧ m.sizeWith src = (L W.key).data.len) := by
    rw [rentOkAt_iff, h5, h6 ho hu hn]
    have e : RentExempt env (L' W.key) ↔ env.rentMin (m.sizeWith src) ≤ (L W.key).lamports := by
      unfold RentExempt; rw [h6 ho hu hn, h5]
    rw [e]
    constructor
    · rintro (q | q | ⟨_, q1, q2, _⟩)
      · omega
      · exact .inl q
      · exact .inr ⟨q1, q2⟩
    · rintro (q | ⟨q1, q2⟩)
      · exact .inr (.inl q)
      · exact .inr (.inr ⟨by omega, q1, q2, Nat.le_refl _⟩)
  rw [← key]
  refine ⟨fun q => q W.key hi, fun q k _ => ?_⟩
  by_cases hk : k = W.key
  · rw [hk]; exact q
  · unfold RentOkAt
    rw [h4 k (by simpa using hk)]
    exact rentTransition_refl _

/-- **C96** So the transaction with this one instruction has exactly two outcomes: the synced ledger if
the wrapped mint was funded, and the old ledger if it was not. -/
theorem sync22_settle (hord : FairOrder env) (hr : ∀ n, 0 < env.rentMin n) {accounts : List Meta}
    (h : processInstruction env accounts syncMetadataToToken2022.pack L = .ok L') :
    ∃ W A u t rest src m, accounts = W :: A :: u :: t :: rest ∧
      MetadataSource env L u.key (rest[0]?.map (·.key)) (rest[1]?.map (·.key)) src ∧
      (L W.key).data = .mint m ∧
      (W.key ≠ incineratorId → RentExempt env (L W.key) → OneMetadata m → UniqueKeys L W.key →
        (src.additional.map (·.1)).Nodup →
        settle env [⟨accounts, syncMetadataToToken2022.pack⟩] L =
          if env.rentMin (m.sizeWith src) ≤ (L W.key).lamports then L' else L) := by
  obtain ⟨W, A, u, t, rest, src, m, h1, h2, h3, h4⟩ := sync22_rent_iff hord hr h
  refine ⟨W, A, u, t, rest, src, m, h1, h2, h3, fun hi he ho hu hn => ?_⟩
  have hrun : runCalls env [⟨accounts, syncMetadataToToken2022.pack⟩] L = .ok L' := by
    simp only [runCalls]
    rw [h, ok_bind]
  unfold settle
  rw [hrun]
  dsimp only [committed]
  by_cases hq : env.rentMin (m.sizeWith src) ≤ (L W.key).lamports
  · rw [if_pos hq]; exact if_pos ((h4 hi he ho hu hn).2 hq)
  · rw [if_neg hq]; exact if_neg fun q => hq ((h4 hi he ho hu hn).1 q)

/-- **C96** A wrapped mint that holds exactly the minimum for its size and has no metadata yet - this is
how `spl-token-wrap create-mint` and the JS client leave it - cannot be synced in a transaction of its
own: whatever the source is, the instruction succeeds and the runtime refuses the transaction. -/
theorem sync22_right_after_create_refused
    (hmono : ∀ m n, m < n → env.rentMin m < env.rentMin n) {accounts : List Meta}
    (h : processInstruction env accounts syncMetadataToToken2022.pack L = .ok L') :
    ∃ W rest m, accounts = W :: rest ∧ (L W.key).data = .mint m ∧
      (W.key ≠ incineratorId → 0 < (L W.key).lamports →
        (L W.key).lamports = env.rentMin (L W.key).data.len → m.tokenMetadata? = none →
        ¬ RentOk env L L' ∧ settle env [⟨accounts, syncMetadataToToken2022.pack⟩] L = L) := by
  have h' := h
  rw [processInstruction_pack] at h
  obtain ⟨a, src, m, m', e⟩ := processSync22_effect h
  obtain ⟨rest, hacc, hs, ho⟩ := parseSync22_ok_iff.1 e.parsed
  refine ⟨a.wrappedMint, _, m, hacc, e.wData, fun hi hp hl hn => ?_⟩
  have hnot : ¬ RentOk env L L' := by
    intro hr
    have hlen : (L a.wrappedMint.key).data.len < (L' a.wrappedMint.key).data.len := by
      rcases e.shape with ⟨md, q1, _⟩ | ⟨_, _, q2, q3⟩
      · rw [hn] at q1; cases q1
      · have hne : m.exts ≠ [] := by
          intro h0
          unfold Mint.metadataPointer? at q2
          rw [h0] at q2
          cases q2
        rw [e.wData, e.final, Ledger.setData_same, q3]
        show mintAccountLen (m.exts.map MintExt.valueLen) <
          mintAccountLen ((m.exts ++ [_]).map MintExt.valueLen)
        rw [List.map_append]
        exact mintAccountLen_append_lt (by simpa using hne) _
    have hlam : (L' a.wrappedMint.key).lamports = (L a.wrappedMint.key).lamports := by
      rw [e.final, Ledger.setData_same]
    have := (rentOkAt_iff_of_exempt (show RentExempt env (L a.wrappedMint.key) from
      Nat.le_of_eq hl.symm)).1 (hr _ hi)
    unfold RentExempt at this
    have hm := hmono _ _ hlen
    rw [hlam] at this
    omega
  refine ⟨hnot, ?_⟩
  have hrun : runCalls env [⟨accounts, syncMetadataToToken2022.pack⟩] L = .ok L' := by
    simp only [runCalls]
    rw [h', ok_bind]
  unfold settle
  rw [hrun]
  exact if_neg hnot

/-! ## SyncMetadataToSplToken: what is left with the payer -/

/-- **C97** When the sync to SPL Token creates the Metaplex account, the rent rule accepts it exactly if
the authority PDA, which pays, is left with nothing at all or with the minimum for an account of its
size.  (Metaplex leaves the account it creates rent exempt: `hmpl`.) -/
theorem syncSpl_rent_iff {X A W u mp sys rent : Meta} {rest : List Meta}
    (h : processInstruction env ([X, A, W, u, mp, sys, rent] ++ rest) syncMetadataToSplToken.pack L =
      .ok L') (h0 : (L X.key).data = .bytes []) (hAX : A.key ≠ X.key) (hi : A.key ≠ incineratorId)
    (hA : RentExempt env (L A.key))
    (hmpl : ∀ md n, env.rentMin (Data.metaplex md).len ≤ n + env.mplCost n) :
    env.mplCost (L X.key).lamports ≤ (L A.key).lamports ∧
    (RentOk env L L' ↔ (L A.key).lamports = env.mplCost (L X.key).lamports ∨
      env.mplCost (L X.key).lamports + env.rentMin (L A.key).data.len ≤ (L A.key).lamports) := by
  rw [processInstruction_pack] at h
  obtain ⟨a, src, d, e⟩ := processSyncSpl_effect h
  obtain ⟨r, hacc, _, _⟩ := parseSyncSpl_ok_iff.1 e.parsed
  have hx : a.metaplexMetadata = X := by simp at hacc; exact hacc.1.symm
  have ha : a.authority = A := by simp at hacc; exact hacc.2.1.symm
  rcases e.run with ⟨_, hr⟩ | ⟨hl, _⟩
  · obtain ⟨_, _, _, _, _, _, _, _, h9, h10⟩ := mplCreate_inv hr
    rw [hx, ha] at h10
    rw [hx, ha] at h9
    have eX : (L.setLamports A.key ((L A.key).lamports - env.mplCost (L X.key).lamports) X.key) =
        L X.key := Ledger.setLamports_ne _ _ (Ne.symm hAX)
    have eA : L' A.key = { L A.key with
        lamports := (L A.key).lamports - env.mplCost (L X.key).lamports } := by
      rw [h10, Ledger.set_ne _ _ hAX, Ledger.setLamports_same]
    have key : RentOkAt env L L' A.key ↔ (L A.key).lamports = env.mplCost (L X.key).lamports ∨
        env.mplCost (L X.key).lamports + env.rentMin (L A.key).data.len ≤ (L A.key).lamports := by
      rw [rentOkAt_iff_of_exempt hA]
      unfold RentExempt
      rw [eA]
      dsimp only
      have := h9.2
      omega
    refine ⟨h9.2, ?_⟩
    rw [← key]
    refine ⟨fun q => q _ hi, fun q k _ => ?_⟩
    by_cases k1 : k = A.key
    · rw [k1]; exact q
    · by_cases k2 : k = X.key
      · subst k2
        refine rentOkAt_of_post (.inr ?_)
        unfold RentExempt
        rw [h10, Ledger.set_same, eX]
        exact hmpl _ _
      · unfold RentOkAt
        rw [h10, Ledger.set_ne _ _ k2, Ledger.setLamports_ne _ _ k1]
        exact rentTransition_refl _
  · rw [hx, h0] at hl
    exact absurd rfl hl

/-- **C97** A sync to SPL Token that updates an existing Metaplex account is never refused. -/
theorem syncSpl_update_rent_ok {X A W u mp sys rent : Meta} {rest : List Meta}
    (h : processInstruction env ([X, A, W, u, mp, sys, rent] ++ rest) syncMetadataToSplToken.pack L =
      .ok L') (h0 : (L X.key).data ≠ .bytes []) : RentOk env L L' := by
  rw [processInstruction_pack] at h
  obtain ⟨a, src, d, e⟩ := processSyncSpl_effect h
  obtain ⟨r, hacc, _, _⟩ := parseSyncSpl_ok_iff.1 e.parsed
  have hx : a.metaplexMetadata = X := by simp at hacc; exact hacc.1.symm
  rcases e.run with ⟨_, hr⟩ | ⟨_, hr⟩
  · obtain ⟨_, _, _, _, h5, _⟩ := mplCreate_inv hr
    rw [hx] at h5
    exact absurd h5 h0
  · obtain ⟨_, md, h2, _, _, _, _, h7⟩ := mplUpdate_inv hr
    rw [h7]
    exact rentOk_setData (by rw [h2]; rfl)

/-! ## The documented way: fund first, then sync -/

/-- Spec: the ledger after somebody has sent `n` lamports to `k`. -/
def Ledger.credited (L : Ledger) (k : Pubkey) (n : Nat) : Ledger :=
  L.setLamports k ((L k).lamports + n)

/-- **C96** Funding the wrapped mint by what is missing for the new size (or more) makes the sync work: the
built instruction succeeds, the runtime accepts the transaction, and the wrapped mint shows the source's
metadata. -/
theorem sync22_funded_works {u W A : Pubkey} {sk ok : Option Pubkey} {m : Mint} {src : TokenMetadata}
    {n : Nat} (hid : env.programId = crateId) (hord : FairOrder env) (hacc : AcceptsMetadata env)
    (hso : ok.isSome → sk.isSome)
    (hW : wrappedMintAddress env.cr u token2022Id = some W) (hA : authorityAddress env.cr W = some A)
    (hsrc : MetadataSource env (L.credited W n) u sk ok src)
    (hn : (src.additional.map (·.1)).Nodup)
    (ho : (L W).owner = token2022Id) (hd : (L W).data = .mint m) (hone : OneMetadata m)
    (hma : m.mintAuthority = some A) (hptr : m.metadataPointer?.isSome = true)
    (hmd : ∀ md, m.tokenMetadata? = some md →
      md.updateAuthority = some A ∧ (md.additional.map (·.1)).Nodup)
    (hfund : env.rentMin (m.sizeWith src) ≤ (L W).lamports + n) :
    ∃ L' m' md', processInstruction env (Build.syncMetadataToToken2022 crateId W A u sk ok).accounts
        (Build.syncMetadataToToken2022 crateId W A u sk ok).data (L.credited W n) = .ok L' ∧
      RentOk env L L' ∧ (L' W).data = .mint m' ∧ m'.tokenMetadata? = some md' ∧
      SameMetadata md' src := by
  have hcr : L.credited W n W = { L W with lamports := (L W).lamports + n } :=
    Ledger.setLamports_same _ _ _
  have hdc : (L.credited W n W).data = .mint m := by rw [hcr]; exact hd
  have hu : UniqueKeys (L.credited W n) W := by
    intro m1 md h1 h2
    rw [hdc] at h1
    cases h1
    exact (hmd md h2).2
  obtain ⟨L', h⟩ := sync22_succeeds (L := L.credited W n) hid hord hacc hso hW hA hsrc
    (by rw [hcr]; exact ho) hdc hma hptr hmd
  have h' := h
  simp only [Build.syncMetadataToToken2022] at h'
  rw [processInstruction_pack] at h'
  obtain ⟨a, src', m1, m', e⟩ := processSync22_effect h'
  obtain ⟨rest, hl, hs, hop⟩ := parseSync22_ok_iff.1 e.parsed
  have hw : a.wrappedMint.key = W := by
    simp only [List.cons_append, List.nil_append, List.cons.injEq] at hl
    rw [← hl.1]; rfl
  have hrest : rest = (sk.toList ++ ok.toList).map (fun k => Meta.ro k false) := by
    simp only [List.cons_append, List.nil_append, List.cons.injEq] at hl
    exact hl.2.2.2.2.symm
  have hau : a.unwrappedMint.key = u := by
    simp only [List.cons_append, List.nil_append, List.cons.injEq] at hl
    rw [← hl.2.2.1]; rfl
  have hkeys : a.source.map (·.key) = sk ∧ a.ownerProgram.map (·.key) = ok := by
    rw [hs, hop, hrest]
    cases sk with
    | none =>
      cases ok with
      | none => exact ⟨rfl, rfl⟩
      | some o => simp at hso
    | some s => cases ok <;> exact ⟨rfl, rfl⟩
  have hsame : src' = src := by
    have h1 := source_sound e.source
    rw [hkeys.1, hkeys.2, hau] at h1
    exact MetadataSource.unique h1 hsrc
  subst hsame
  have hm1 : m1 = m := by
    have := e.wData
    rw [hw, hdc] at this
    cases this
    rfl
  subst hm1
  have hf := e.final
  rw [hw] at hf
  have hst := syncedMd_same (W := a.wrappedMint.key) (A := a.authority.key) (src := src') hord
    (old := m1.tokenMetadata?) fun w hw => (hmd w hw).2
  refine ⟨L', m', _, h, ?_, by rw [hf, Ledger.setData_same], e.stored, hst⟩
  have hone' : OneMetadata m' := by
    rcases e.shape with ⟨md, q1, q2⟩ | ⟨q1, _, _, q2⟩
    · exact oneMetadata_synced hone (.inl ⟨md, q1, q2⟩)
    · exact oneMetadata_synced hone (.inr ⟨q1, q2⟩)
  have hlen : (Data.mint m').len = m1.sizeWith src' := by
    rw [len_eq_sizeWith hone' e.stored]
    unfold Mint.sizeWith
    rw [packedLen_same hst hn]
    have : m'.sansMetadata.exts = m1.sansMetadata.exts := e.same.2
    rw [this]
  intro k _
  by_cases hk : k = W
  · subst hk
    refine rentOkAt_of_post (.inr ?_)
    unfold RentExempt
    rw [hf, Ledger.setData_same, hcr]
    show env.rentMin (Data.mint m').len ≤ _
    rw [hlen]
    exact hfund
  · unfold RentOkAt
    rw [hf, Ledger.setData_ne _ _ hk]
    unfold Ledger.credited
    rw [Ledger.setLamports_ne _ _ hk]
    exact rentTransition_refl _

/-! ## Examples -/

namespace Example.Rent

open Example

/-- An environment in which rent grows with the size. -/
def renv : Env := { Example.env with rentMin := fun n => n + 1 }

def md0 : TokenMetadata :=
  { updateAuthority := none, mint := u, name := "Coin", symbol := "C", uri := "x",
    additional := [("k1", "v1")] }

/-- An unwrapped mint with metadata and its wrapped Token-2022 mint, which holds `l` lamports. -/
def Lr (l : Nat) : Ledger :=
  (Lself.set u ⟨500, token2022Id, .mint (uMint [.metadataPointer none (some u), .tokenMetadata md0])⟩).set
    Ws ⟨l, token2022Id, .mint (w22Mint [])⟩

def run (l : Nat) : Res Ledger := processInstruction renv syncIx.accounts syncIx.data (Lr l)

-- 303 bytes before, 405 bytes with the metadata
example : (Data.mint (w22Mint [])).len = 303 ∧ (w22Mint []).sizeWith md0 = 405 := by decide +kernel
example : ok (run 304) = true ∧ ok (run 405) = true ∧ ok (run 406) = true := by decide +kernel
example : (get (run 406) Ws).data.len = 405 := by decide +kernel

-- exactly the minimum of the new mint: refused
example : ¬ RentOk renv (Lr 304) (get (run 304)) := by
  obtain ⟨W, rest, m, h1, h2, h3⟩ := sync22_right_after_create_refused
    (env := renv) (fun m n h => Nat.succ_lt_succ h) (get_eq (by decide +kernel) : run 304 = .ok _)
  have hW : W = Meta.rw Ws false := by cases h1; rfl
  subst hW
  have hd : (Lr 304 Ws).data = .mint (w22Mint []) := by decide +kernel
  have hm : m = w22Mint [] := by rw [show (Meta.rw Ws false).key = Ws from rfl, hd] at h2; cases h2; rfl
  subst hm
  exact (h3 (by decide +kernel) (by decide +kernel) (by decide +kernel) (by decide +kernel)).1
-- one lamport short: refused
example : ¬ RentOk renv (Lr 405) (get (run 405)) := fun h =>
  absurd (h Ws (by decide +kernel)) (by unfold RentOkAt; decide +kernel)

-- a mint that was below the minimum before: refused as well, because it grows (`sync22_rent_any`)
example : ¬ RentExempt renv (Lr 100 Ws) ∧ ¬ RentOk renv (Lr 100) (get (run 100)) := by
  obtain ⟨W, A', u', t, rest, src, m, h1, h2, h3, h4⟩ := sync22_rent_any
    (env := renv) (fun l => List.Perm.refl l) (get_eq (by decide +kernel) : run 100 = .ok _)
  refine ⟨by unfold RentExempt; decide +kernel, fun h => ?_⟩
  exact absurd (h Ws (by decide +kernel)) (by unfold RentOkAt; decide +kernel)

/-- 102 lamports sent to the freshly created mint make the sync work. -/
example : ∃ L' m' md', processInstruction renv syncIx.accounts syncIx.data ((Lr 304).credited Ws 102) =
      .ok L' ∧ RentOk renv (Lr 304) L' ∧ (L' Ws).data = .mint m' ∧ m'.tokenMetadata? = some md' ∧
      SameMetadata md' md0 := by
  have hu : ((Lr 304).credited Ws 102 u) = ⟨500, token2022Id, .mint (uMint [.metadataPointer none (some u),
      .tokenMetadata md0])⟩ := by decide +kernel
  refine sync22_funded_works (env := renv) (u := u) (m := w22Mint []) rfl (fun l => List.Perm.refl l)
    (fun _ _ _ _ => rfl) (by simp) (by decide +kernel) (by decide +kernel) ?_ (by decide)
    (by decide +kernel) (by decide +kernel) (by unfold OneMetadata; decide +kernel) (by decide +kernel)
    (by decide +kernel) ?_ (by decide +kernel)
  · exact .self ⟨by rw [hu], _, by rw [hu], by decide +kernel⟩ (by rw [hu]) (by decide +kernel)
  · intro md h
    have : (w22Mint []).tokenMetadata? = none := by decide +kernel
    rw [this] at h
    cases h

-- a Wrap of ordinary tokens
example : RentOk Example.env L0 (get (processInstruction Example.env wrapAccounts
    (TokenWrapInstruction.wrap 1000).pack L0)) := by
  refine wrap_rent_ok (get_eq (by decide +kernel)) (fun s hs hn => ?_)
  have hd : (L0 Example.src).data = .token (acct u user 5000 [.transferFeeAmount]) := by decide +kernel
  exact absurd (by rw [show (Meta.rw Example.src false).key = Example.src from rfl, hd] at hs; cases hs; rfl) hn

/-- An ordinary Token-2022 mint whose accounts are native: source and escrow carry lamports. -/
def Ln : Ledger :=
  ((world [] 10 [.immutableOwner] 10).set Example.src ⟨5166, token2022Id, .token
    { acct u user 5000 [] with isNative := some 166 }⟩).set E ⟨181, token2022Id, .token
    { acct u A 10 [.immutableOwner] with isNative := some 171 }⟩

-- all 5000 lamports above the reserve are wrapped; the reserve stays and the rule is satisfied
example : (get (processInstruction renv wrapAccounts (TokenWrapInstruction.wrap 5000).pack Ln)
    Example.src).lamports = 166 := by decide +kernel
example : RentOk renv Ln (get (processInstruction renv wrapAccounts
    (TokenWrapInstruction.wrap 5000).pack Ln)) := by
  have hs : (Ln Example.src) = ⟨5166, token2022Id, .token
    { acct u user 5000 [] with isNative := some 166 }⟩ := by decide +kernel
  have he : (Ln E) = ⟨181, token2022Id, .token
    { acct u A 10 [.immutableOwner] with isNative := some 171 }⟩ := by decide +kernel
  refine wrap_rent_ok (get_eq (by decide +kernel)) (fun _ _ _ => ⟨?_, ?_⟩)
  · intro t ht
    rw [show (Meta.rw Example.src false).key = Example.src from rfl, hs] at ht ⊢
    cases ht
    decide +kernel
  · intro t ht
    rw [show (Meta.rw E false).key = E from rfl, he] at ht ⊢
    cases ht
    decide +kernel

/-- Creating a Metaplex account costs 700 lamports here, and even an empty account needs 10. -/
def menv : Env := { Example.env with rentMin := fun n => n + 10, mplCost := fun n => 700 - n }

/-- The authority PDA holds `l` lamports. -/
def Lm (l : Nat) : Ledger := Lself.set A ⟨l, systemId, .bytes []⟩

def runSpl (l : Nat) : Res Ledger := processInstruction menv splIx.accounts splIx.data (Lm l)

theorem runSpl_rent {l : Nat} (ho : ok (runSpl l) = true) (hl : 10 ≤ l) :
    RentOk menv (Lm l) (get (runSpl l)) ↔ l = 700 ∨ 710 ≤ l := by
  have hX : Lm l X = ⟨0, systemId, .bytes []⟩ := by
    unfold Lm
    rw [Ledger.set_ne _ _ (by decide +kernel)]
    decide +kernel
  have hA : Lm l A = ⟨l, systemId, .bytes []⟩ := by unfold Lm; rw [Ledger.set_same]
  have := (syncSpl_rent_iff (env := menv) (L := Lm l) (rest := []) (get_eq ho)
    (by show (Lm l X).data = _; rw [hX]) (by decide +kernel) (by decide +kernel)
    (by show RentExempt menv (Lm l A); rw [hA]; exact hl)
    (fun md n => by show 679 + 10 ≤ n + (700 - n); omega)).2
  have e1 : (Lm l (Meta.rw X false).key).lamports = 0 := by show (Lm l X).lamports = 0; rw [hX]
  have e2 : Lm l (Meta.rw A false).key = ⟨l, systemId, .bytes []⟩ := hA
  rw [e1, e2] at this
  refine Iff.trans this ?_
  show l = 700 - 0 ∨ 700 - 0 + (0 + 10) ≤ l ↔ _
  omega

-- exactly the cost, or the cost and the minimum of an empty account: accepted; in between: refused
example : RentOk menv (Lm 700) (get (runSpl 700)) := (runSpl_rent (by decide +kernel) (by decide)).2 (by decide)
example : RentOk menv (Lm 710) (get (runSpl 710)) := (runSpl_rent (by decide +kernel) (by decide)).2 (by decide)
example : ¬ RentOk menv (Lm 705) (get (runSpl 705)) := by
  rw [runSpl_rent (by decide +kernel) (by decide)]; decide

-- Unwrap, CreateMint, SetCanonicalPointer
example : RentOk Example.env L0 (get (processInstruction Example.env unwrapAccounts
    (TokenWrapInstruction.unwrap 7).pack L0)) := by
  refine unwrap_rent_ok (get_eq (by decide +kernel)) (by decide +kernel) (fun e he hn => ?_)
  have hd : (L0 E).data = .token (acct u A 10 goodExts) := by decide +kernel
  exact absurd (by rw [show (Meta.rw E false).key = E from rfl, hd] at he; cases he; rfl) hn

/-- The world before CreateMint, with the new accounts funded. -/
def Lcr : Ledger := ((Lc token2022Id).set W22 ⟨900, systemId, .bytes []⟩).set B22 ⟨33, systemId, .bytes []⟩

example (c : Shipped) : RentOk renv Lcr (get (processCreateMint renv c.model createAccounts false Lcr)) := by
  refine createMint_rent_ok (wmint := .rw W22 false) (bp := .rw B22 false) (umint := .ro u false)
    (sys := .ro systemId false) (wprog := .ro token2022Id false) (rest := []) (idem := false) c
    (get_eq ?_)
  cases c <;> decide +kernel
-- the wrapped mint went from no bytes to 303, the backpointer to 32
example : (get (processInstruction renv createAccounts (TokenWrapInstruction.createMint false).pack Lcr)
    W22).data.len = 303 ∧ (get (processInstruction renv createAccounts
    (TokenWrapInstruction.createMint false).pack Lcr) B22).data.len = 32 := by decide +kernel

example : RentOk Example.env Lptr (get (processInstruction Example.env
    (Build.setCanonicalPointer crateId issuer P u Example.src).accounts
    (Build.setCanonicalPointer crateId issuer P u Example.src).data Lptr)) :=
  pointer_rent_ok (get_eq (by decide +kernel))

/-- A stuck escrow with 171 lamports; the destination, a fresh wallet, has none. -/
def Lst : Ledger := (Lstuck.set E ⟨171, token2022Id, .token (acct u A 0 [.immutableOwner])⟩).set user
  ⟨0, systemId, .bytes []⟩

def closeIx : Instr := Build.closeStuckEscrow crateId E user u W A

example : RentOk renv Lst (get (processInstruction renv closeIx.accounts closeIx.data Lst)) := by
  refine close_rent_ok (escrow := .rw E false) (dest := .rw user false) (rest := [])
    (get_eq (show ok (processInstruction renv closeIx.accounts closeIx.data Lst) = true by decide +kernel))
    (fun m n h => Nat.succ_le_succ h) (.inr ⟨?_, by decide +kernel⟩)
  unfold RentExempt
  decide +kernel
-- a destination that asks for more than it gets is refused
example : ¬ RentOk renv (Lst.set user ⟨100, crateId, .bytes (List.replicate 900 0)⟩)
    (get (processInstruction renv closeIx.accounts closeIx.data
      (Lst.set user ⟨100, crateId, .bytes (List.replicate 900 0)⟩))) := fun h =>
  absurd (h user (by decide +kernel)) (by unfold RentOkAt; decide +kernel)

-- the second sync to SPL Token updates the account the first one created
example : RentOk Example.env Lspl' (get (processInstruction Example.env splIx.accounts splIx.data Lspl')) :=
  syncSpl_update_rent_ok (get_eq (by decide +kernel)) (by decide +kernel)

end Example.Rent

end TokenWrap
