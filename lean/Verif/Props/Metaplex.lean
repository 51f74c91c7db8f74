import Verif.SyncSplLemmas
import Verif.Props.Sync22
import Verif.Serde
import Verif.Examples
/-!
# C39–C41: SyncMetadataToSplToken and the metadata conversions

Account order: Metaplex metadata, authority, wrapped mint, unwrapped mint, Metaplex program, system
program, rent sysvar, then optionally the source metadata account and its owner program.
-/

set_option linter.unusedSimpArgs false

namespace TokenWrap

open TokenWrapInstruction

/-! ## Conversion Token-2022 → Metaplex -/

/-- The key has no value. -/
def NoValue (l : List (String × String)) (k : String) : Prop := ∀ v, ¬ LastValue l k v

/-- Specification: `d` is the Metaplex form of `src`.  Each recognised key is read from its last
occurrence; creators lose their verified flag; a missing fee is 0, the other missing fields are
absent; every other key is irrelevant. -/
structure IsConverted (env : Env) (src : TokenMetadata) (d : DataV2) : Prop where
  name : d.name = src.name
  symbol : d.symbol = src.symbol
  uri : d.uri = src.uri
  fee : (∀ v, LastValue src.additional "seller_fee_basis_points" v →
      parseU16 v = some d.sellerFeeBasisPoints) ∧
    (NoValue src.additional "seller_fee_basis_points" → d.sellerFeeBasisPoints = 0)
  creators : (∀ v, LastValue src.additional "creators" v → ∃ cs, env.parseCreators v = some cs ∧
      d.creators = some (cs.map fun c => { c with verified := false })) ∧
    (NoValue src.additional "creators" → d.creators = none)
  collection : (∀ v, LastValue src.additional "collection" v →
      ∃ c, env.parseCollection v = some c ∧ d.collection = some c) ∧
    (NoValue src.additional "collection" → d.collection = none)
  uses : (∀ v, LastValue src.additional "uses" v →
      ∃ c, env.parseUses v = some c ∧ d.uses = some c) ∧
    (NoValue src.additional "uses" → d.uses = none)

/-- Specification: every occurrence of a recognised key parses. -/
def AllParse (env : Env) (l : List (String × String)) : Prop :=
  ∀ k v, (k, v) ∈ l →
    (k = "creators" → env.parseCreators v ≠ none) ∧
    (k = "seller_fee_basis_points" → parseU16 v ≠ none) ∧
    (k = "collection" → env.parseCollection v ≠ none) ∧
    (k = "uses" → env.parseUses v ≠ none)

/-- The accumulator after the loop. -/
def convResult (env : Env) (l : List (String × String)) (acc : ConvAcc) : ConvAcc :=
  { creators := match lastValue l "creators" with
      | some v => (env.parseCreators v).map unverify
      | none => acc.creators
    sellerFeeBasisPoints := match lastValue l "seller_fee_basis_points" with
      | some v => (parseU16 v).getD 0
      | none => acc.sellerFeeBasisPoints
    collection := match lastValue l "collection" with
      | some v => env.parseCollection v
      | none => acc.collection
    uses := match lastValue l "uses" with
      | some v => env.parseUses v
      | none => acc.uses }

theorem allParse_cons {env : Env} {p : String × String} {l : List (String × String)} :
    AllParse env (p :: l) ↔ AllParse env [p] ∧ AllParse env l := by
  unfold AllParse
  constructor
  · intro h
    exact ⟨fun k v hm => h k v (by
      simp only [List.mem_cons, List.not_mem_nil, or_false] at hm ⊢; exact .inl hm),
      fun k v hm => h k v (List.mem_cons_of_mem _ hm)⟩
  · rintro ⟨h1, h2⟩ k v hm
    rcases List.mem_cons.1 hm with rfl | hm
    · exact h1 k v (by simp)
    · exact h2 k v hm

theorem lastValue_single (k v k' : String) :
    lastValue [(k, v)] k' = if k' = k then some v else none := by
  rw [lastValue_cons]; simp [lastValue]

theorem allParse_single {env : Env} {k v : String} :
    AllParse env [(k, v)] ↔ (k = "creators" → env.parseCreators v ≠ none) ∧
      (k = "seller_fee_basis_points" → parseU16 v ≠ none) ∧
      (k = "collection" → env.parseCollection v ≠ none) ∧
      (k = "uses" → env.parseUses v ≠ none) := by
  unfold AllParse
  constructor
  · intro h; exact h k v (by simp)
  · intro h k' v' hm
    simp only [List.mem_cons, Prod.mk.injEq, List.not_mem_nil, or_false] at hm
    obtain ⟨rfl, rfl⟩ := hm
    exact h

theorem convStep_spec (env : Env) (acc : ConvAcc) (kv : String × String) :
    (AllParse env [kv] → convStep env acc kv = .ok (convResult env [kv] acc)) ∧
    (¬ AllParse env [kv] → convStep env acc kv = .error .invalidAccountData) := by
  obtain ⟨k, v⟩ := kv
  rw [allParse_single]
  unfold convStep convResult
  simp only [lastValue_single]
  by_cases h1 : k = "creators"
  · subst h1
    simp only [if_true, true_implies, String.reduceEq, false_implies, and_true, ne_eq, if_false]
    cases env.parseCreators v with
    | none => simp; try rfl
    | some cs => simp [pure, Except.pure]
  · by_cases h2 : k = "seller_fee_basis_points"
    · subst h2
      simp only [if_true, true_implies, String.reduceEq, false_implies, and_true, true_and, ne_eq,
        if_false]
      cases parseU16 v with
      | none => simp; try rfl
      | some cs => simp [pure, Except.pure]
    · by_cases h3 : k = "collection"
      · subst h3
        simp only [if_true, true_implies, String.reduceEq, false_implies, and_true, true_and,
          ne_eq, if_false]
        cases env.parseCollection v with
        | none => simp; try rfl
        | some cs => simp [pure, Except.pure]
      · by_cases h4 : k = "uses"
        · subst h4
          simp only [if_true, true_implies, String.reduceEq, false_implies, and_true, true_and,
            ne_eq, if_false]
          cases env.parseUses v with
          | none => simp; try rfl
          | some cs => simp [pure, Except.pure]
        · simp [h1, h2, h3, h4, Ne.symm h1, Ne.symm h2, Ne.symm h3, Ne.symm h4, pure, Except.pure]

theorem convResult_cons (env : Env) (p : String × String) (l : List (String × String))
    (acc : ConvAcc) : convResult env l (convResult env [p] acc) = convResult env (p :: l) acc := by
  obtain ⟨k, v⟩ := p
  have h : ∀ k', lastValue ((k, v) :: l) k' = (lastValue l k').or (lastValue [(k, v)] k') := by
    intro k'; rw [lastValue_cons, lastValue_single]
  unfold convResult
  simp only [h, ConvAcc.mk.injEq]
  refine ⟨?_, ?_, ?_, ?_⟩
  · cases lastValue l "creators" <;> simp
  · cases lastValue l "seller_fee_basis_points" <;> simp
  · cases lastValue l "collection" <;> simp
  · cases lastValue l "uses" <;> simp

theorem convLoop_spec (env : Env) (l : List (String × String)) (acc : ConvAcc) :
    (AllParse env l → convLoop env l acc = .ok (convResult env l acc)) ∧
    (¬ AllParse env l → convLoop env l acc = .error .invalidAccountData) := by
  induction l generalizing acc with
  | nil =>
    refine ⟨fun _ => rfl, fun h => absurd ?_ h⟩
    intro k v hm; simp at hm
  | cons p rest ih =>
    rw [allParse_cons]
    simp only [convLoop]
    constructor
    · rintro ⟨h1, h2⟩
      rw [(convStep_spec env acc p).1 h1, ok_bind, (ih _).1 h2, convResult_cons]
    · intro h
      by_cases h1 : AllParse env [p]
      · rw [(convStep_spec env acc p).1 h1, ok_bind]
        exact (ih _).2 fun h2 => h ⟨h1, h2⟩
      · rw [(convStep_spec env acc p).2 h1]
        rfl

theorem LastValue.mem {l : List (String × String)} {k v : String} (h : LastValue l k v) :
    (k, v) ∈ l := by
  induction h with
  | here => simp
  | there _ ih => exact List.mem_cons_of_mem _ ih

theorem noValue_iff {l : List (String × String)} {k : String} :
    NoValue l k ↔ lastValue l k = none := by
  unfold NoValue
  constructor
  · intro h
    cases hv : lastValue l k with
    | none => rfl
    | some v => exact absurd (lastValue_iff.2 hv) (h v)
  · intro h v hv
    rw [lastValue_iff, h] at hv
    cases hv

/-- **C41** The conversion succeeds exactly when every occurrence of a recognised key parses, and
then gives exactly the specified data: unknown keys are ignored, the last occurrence of a repeated
key wins. -/
theorem conversion_ok_iff {env : Env} {src : TokenMetadata} {d : DataV2} :
    token2022ToMetaplex env src = .ok d ↔ AllParse env src.additional ∧ IsConverted env src d := by
  have hrun : AllParse env src.additional → token2022ToMetaplex env src = .ok
      { name := src.name, symbol := src.symbol, uri := src.uri
        sellerFeeBasisPoints :=
          (convResult env src.additional ⟨none, 0, none, none⟩).sellerFeeBasisPoints
        creators := (convResult env src.additional ⟨none, 0, none, none⟩).creators
        collection := (convResult env src.additional ⟨none, 0, none, none⟩).collection
        uses := (convResult env src.additional ⟨none, 0, none, none⟩).uses } := by
    intro h
    unfold token2022ToMetaplex
    rw [(convLoop_spec env _ _).1 h]
    rfl
  constructor
  · intro h
    by_cases hap : AllParse env src.additional
    · refine ⟨hap, ?_⟩
      rw [hrun hap] at h
      cases h
      refine ⟨rfl, rfl, rfl, ⟨?_, ?_⟩, ⟨?_, ?_⟩, ⟨?_, ?_⟩, ⟨?_, ?_⟩⟩
      · intro v hv
        have hp := (hap _ _ hv.mem).2.1 rfl
        rw [lastValue_iff] at hv
        simp only [convResult, hv]
        cases h : parseU16 v with
        | none => exact absurd h hp
        | some n => rfl
      · intro hn; rw [noValue_iff] at hn; simp only [convResult, hn]
      · intro v hv
        have hp := (hap _ _ hv.mem).1 rfl
        rw [lastValue_iff] at hv
        simp only [convResult, hv]
        cases h : env.parseCreators v with
        | none => exact absurd h hp
        | some n => exact ⟨n, rfl, rfl⟩
      · intro hn; rw [noValue_iff] at hn; simp only [convResult, hn]
      · intro v hv
        have hp := (hap _ _ hv.mem).2.2.1 rfl
        rw [lastValue_iff] at hv
        simp only [convResult, hv]
        cases h : env.parseCollection v with
        | none => exact absurd h hp
        | some n => exact ⟨n, rfl, rfl⟩
      · intro hn; rw [noValue_iff] at hn; simp only [convResult, hn]
      · intro v hv
        have hp := (hap _ _ hv.mem).2.2.2 rfl
        rw [lastValue_iff] at hv
        simp only [convResult, hv]
        cases h : env.parseUses v with
        | none => exact absurd h hp
        | some n => exact ⟨n, rfl, rfl⟩
      · intro hn; rw [noValue_iff] at hn; simp only [convResult, hn]
    · unfold token2022ToMetaplex at h
      rw [(convLoop_spec env _ _).2 hap] at h
      cases h
  · rintro ⟨hap, c⟩
    rw [hrun hap]
    cases d
    obtain ⟨c1, c2, c3, ⟨c4, c5⟩, ⟨c6, c7⟩, ⟨c8, c9⟩, ⟨c10, c11⟩⟩ := c
    dsimp only at *
    subst c1; subst c2; subst c3
    simp only [Except.ok.injEq, DataV2.mk.injEq, true_and, convResult]
    refine ⟨?_, ?_, ?_, ?_⟩
    · cases hv : lastValue src.additional "seller_fee_basis_points" with
      | none => exact (c5 (noValue_iff.2 hv)).symm
      | some v => dsimp only; rw [c4 v (lastValue_iff.2 hv)]; rfl
    · cases hv : lastValue src.additional "creators" with
      | none => exact (c7 (noValue_iff.2 hv)).symm
      | some v =>
        obtain ⟨cs, h1, h2⟩ := c6 v (lastValue_iff.2 hv)
        dsimp only; rw [h1, h2]; rfl
    · cases hv : lastValue src.additional "collection" with
      | none => exact (c9 (noValue_iff.2 hv)).symm
      | some v =>
        obtain ⟨cs, h1, h2⟩ := c8 v (lastValue_iff.2 hv)
        dsimp only; rw [h1, h2]
    · cases hv : lastValue src.additional "uses" with
      | none => exact (c11 (noValue_iff.2 hv)).symm
      | some v =>
        obtain ⟨cs, h1, h2⟩ := c10 v (lastValue_iff.2 hv)
        dsimp only; rw [h1, h2]

/-- **C41** Otherwise it fails with `InvalidAccountData`. -/
theorem conversion_rejects {env : Env} {src : TokenMetadata} (h : ¬ AllParse env src.additional) :
    token2022ToMetaplex env src = .error .invalidAccountData := by
  unfold token2022ToMetaplex
  rw [(convLoop_spec env _ _).2 h]
  rfl

/-! ## Conversion Metaplex → Token-2022 → Metaplex -/

theorem digitVal_ofNat {d : Nat} (h : d < 10) : digitVal (Char.ofNat (48 + d)) = some d := by
  have : ∀ d : Fin 10, digitVal (Char.ofNat (48 + d.1)) = some d.1 := by decide
  exact this ⟨d, h⟩

theorem digitsVal_append (acc : Nat) (l : List Char) (c : Char) :
    digitsVal acc (l ++ [c]) = (digitsVal acc l).bind fun v => (digitVal c).map (v * 10 + ·) := by
  induction l generalizing acc with
  | nil => simp only [List.nil_append, digitsVal]; cases digitVal c <;> rfl
  | cons x rest ih =>
    simp only [List.cons_append, digitsVal]
    cases digitVal x with
    | none => rfl
    | some d => exact ih _

theorem digitsVal_decDigits (fuel n : Nat) (h : n < 10 ^ (fuel + 1)) :
    digitsVal 0 (decDigits (fuel + 1) n) = some n := by
  induction fuel generalizing n with
  | zero =>
    have h : n < 10 := by simpa using h
    simp only [decDigits, h, if_true, digitsVal, digitVal_ofNat h]
    simp
  | succ f ih =>
    rw [decDigits]
    split
    · rename_i hn
      simp only [digitsVal, digitVal_ofNat hn]
      simp
    · have h1 : n / 10 < 10 ^ (f + 1) := by
        rw [Nat.pow_succ] at h
        exact Nat.div_lt_of_lt_mul (by rw [Nat.mul_comm]; exact h)
      rw [digitsVal_append, ih _ h1, digitVal_ofNat (Nat.mod_lt _ (by decide))]
      simp only [Option.bind_some, Option.map_some, Option.some.injEq]
      omega

/-- Printing a fee and parsing it back gives the same fee. -/
theorem parseU16_decString (n : UInt16) : parseU16 (decString n.toNat) = some n := by
  have hlt : n.toNat < 65536 := n.toNat_lt
  have hd := digitsVal_decDigits 4 n.toNat (by omega)
  unfold parseU16 decString
  rw [String.toList_ofList]
  have hns : ∀ rest, decDigits 5 n.toNat ≠ '+' :: rest := by
    intro rest he
    rw [he] at hd
    simp [digitsVal, show digitVal '+' = none by decide] at hd
  have hne : decDigits 5 n.toNat ≠ [] := by
    unfold decDigits
    split <;> simp
  have hcs : (match decDigits 5 n.toNat with | '+' :: rest => rest | cs => cs) =
      decDigits 5 n.toNat := by
    split
    · rename_i rest he; exact absurd he (hns rest)
    · rfl
  simp only [hcs, hne, if_false, hd]
  rw [if_pos (by omega)]
  simp

/-- serde_json parses what it prints (assumed of the library). -/
structure JsonRoundTrips (env : Env) : Prop where
  creators : ∀ x, env.parseCreators (env.jsonCreators x) = some x
  collection : ∀ x, env.parseCollection (env.jsonCollection x) = some x
  uses : ∀ x, env.parseUses (env.jsonUses x) = some x

/-- **C40** Metaplex → Token-2022 keeps name, symbol and URI, takes the mint to be the unwrapped
mint, and the creators it stores are the unverified ones. -/
theorem toToken2022_keeps {env : Env} {u : Pubkey} {md : MetaplexMetadata} {t : TokenMetadata}
    (h : metaplexToToken2022 env u (.metaplex md) = .ok t) :
    t.name = md.name ∧ t.symbol = md.symbol ∧ t.uri = md.uri ∧ t.mint = u ∧
    (∀ v, ("creators", v) ∈ t.additional → ∃ cs, md.creators = some cs ∧ cs ≠ [] ∧
      v = env.jsonCreators (cs.map fun c => { c with verified := false })) ∧
    ("seller_fee_basis_points", decString md.sellerFeeBasisPoints.toNat) ∈ t.additional := by
  unfold metaplexToToken2022 at h
  dsimp only at h
  split at h
  · cases h
    refine ⟨rfl, rfl, rfl, rfl, ?_, ?_⟩
    · intro v hv
      dsimp only at hv
      unfold extractAdditional at hv
      simp only [List.mem_append] at hv
      rcases hv with ((((((hv | hv) | hv) | hv) | hv) | hv) | hv) | hv
      · simp at hv
      · split at hv
        · rename_i cs hcs
          split at hv
          · simp at hv
          · rename_i hemp
            simp only [List.mem_cons, Prod.mk.injEq, true_and, List.not_mem_nil, or_false] at hv
            exact ⟨cs, hcs, by simpa using hemp, hv⟩
        · simp at hv
      all_goals
        split at hv <;> simp at hv
    · simp [extractAdditional]
  · cases h

/-- **C40** Token-2022 → Metaplex never yields a verified creator, and keeps name, symbol, URI. -/
theorem toMetaplex_unverified {env : Env} {src : TokenMetadata} {d : DataV2}
    (h : token2022ToMetaplex env src = .ok d) :
    d.name = src.name ∧ d.symbol = src.symbol ∧ d.uri = src.uri ∧
    ∀ cs, d.creators = some cs → ∀ c ∈ cs, c.verified = false := by
  obtain ⟨_, c⟩ := conversion_ok_iff.1 h
  refine ⟨c.name, c.symbol, c.uri, ?_⟩
  intro cs hcs x hx
  cases hv : lastValue src.additional "creators" with
  | none => rw [c.creators.2 (noValue_iff.2 hv)] at hcs; cases hcs
  | some v =>
    obtain ⟨cs', h1, h2⟩ := c.creators.1 v (lastValue_iff.2 hv)
    rw [h2] at hcs
    cases hcs
    obtain ⟨y, _, rfl⟩ := List.mem_map.1 hx
    rfl

theorem lastValue_append (l1 l2 : List (String × String)) (k : String) :
    lastValue (l1 ++ l2) k = (lastValue l2 k).or (lastValue l1 k) := by
  unfold lastValue
  rw [List.reverse_append, lookup_append]

/-- **C40** Round trip: fee, collection and uses survive, creators survive without their verified
flags (an empty creator list becomes "no creators"). -/
theorem metaplex_round_trip {env : Env} (hj : JsonRoundTrips env) {u : Pubkey}
    {md : MetaplexMetadata} {t : TokenMetadata}
    (h : metaplexToToken2022 env u (.metaplex md) = .ok t) :
    token2022ToMetaplex env t = .ok
      { name := md.name, symbol := md.symbol, uri := md.uri
        sellerFeeBasisPoints := md.sellerFeeBasisPoints
        creators := match md.creators with
          | some [] => none
          | some cs => some (cs.map fun c => { c with verified := false })
          | none => none
        collection := md.collection, uses := md.uses } := by
  have ht : t.additional = extractAdditional env md ∧ t.name = md.name ∧ t.symbol = md.symbol ∧
      t.uri = md.uri := by
    unfold metaplexToToken2022 at h
    dsimp only at h
    split at h
    · cases h; exact ⟨rfl, rfl, rfl, rfl⟩
    · cases h
  obtain ⟨hadd, hn, hs, hu⟩ := ht
  have huv : ∀ cs : List Creator, unverify (unverify cs) = unverify cs := by
    intro cs; simp [unverify]
  have hap : AllParse env t.additional := by
    rw [hadd]
    intro k v hv
    unfold extractAdditional at hv
    simp only [List.mem_append] at hv
    rcases hv with ((((((hv | hv) | hv) | hv) | hv) | hv) | hv) | hv
    · simp only [List.mem_cons, Prod.mk.injEq, List.not_mem_nil, or_false] at hv
      rcases hv with ⟨rfl, rfl⟩ | ⟨rfl, rfl⟩ | ⟨rfl, rfl⟩ | ⟨rfl, rfl⟩
      · simp
      · simp [parseU16_decString]
      · simp
      · simp
    all_goals
      split at hv
      · first
        | (split at hv
           · simp at hv
           · simp only [List.mem_cons, Prod.mk.injEq, List.not_mem_nil, or_false] at hv
             obtain ⟨rfl, rfl⟩ := hv
             simp [hj.creators])
        | (simp only [List.mem_cons, Prod.mk.injEq, List.not_mem_nil, or_false] at hv
           obtain ⟨rfl, rfl⟩ := hv
           simp [hj.collection, hj.uses])
      · simp at hv
  unfold token2022ToMetaplex
  rw [(convLoop_spec env _ _).1 hap, ok_bind, hn, hs, hu, hadd]
  show Except.ok _ = Except.ok _
  simp only [Except.ok.injEq, DataV2.mk.injEq, true_and, convResult]
  refine ⟨?_, ?_, ?_, ?_⟩
  · have : lastValue (extractAdditional env md) "seller_fee_basis_points" =
        some (decString md.sellerFeeBasisPoints.toNat) := by
      unfold extractAdditional
      simp only [lastValue_append]
      cases md.creators with
      | none => cases md.editionNonce <;> cases md.tokenStandard <;> cases md.collection <;>
          cases md.uses <;> cases md.collectionDetails <;> cases md.programmableConfig <;>
          simp [lastValue, List.lookup]
      | some cs => cases cs <;> cases md.editionNonce <;> cases md.tokenStandard <;>
          cases md.collection <;>
          cases md.uses <;> cases md.collectionDetails <;> cases md.programmableConfig <;>
          simp [lastValue, List.lookup]
    rw [this]
    simp [parseU16_decString]
  · have : lastValue (extractAdditional env md) "creators" = (match md.creators with
        | some cs => if cs.isEmpty then none else some (env.jsonCreators (unverify cs))
        | none => none) := by
      unfold extractAdditional
      simp only [lastValue_append]
      cases md.creators with
      | none => cases md.editionNonce <;> cases md.tokenStandard <;> cases md.collection <;>
          cases md.uses <;> cases md.collectionDetails <;> cases md.programmableConfig <;>
          simp [lastValue, List.lookup]
      | some cs => cases cs <;> cases md.editionNonce <;> cases md.tokenStandard <;>
          cases md.collection <;>
          cases md.uses <;> cases md.collectionDetails <;> cases md.programmableConfig <;>
          simp [lastValue, List.lookup]
    rw [this]
    cases hc : md.creators with
    | none => rfl
    | some cs =>
      cases cs with
      | nil => rfl
      | cons c cs =>
        simp only [List.isEmpty_cons, Bool.false_eq_true, if_false, hj.creators, Option.map_some,
          huv]
        rfl
  · have : lastValue (extractAdditional env md) "collection" =
        md.collection.map env.jsonCollection := by
      unfold extractAdditional
      simp only [lastValue_append]
      cases md.creators with
      | none => cases md.editionNonce <;> cases md.tokenStandard <;> cases md.collection <;>
          cases md.uses <;> cases md.collectionDetails <;> cases md.programmableConfig <;>
          simp [lastValue, List.lookup]
      | some cs => cases cs <;> cases md.editionNonce <;> cases md.tokenStandard <;>
          cases md.collection <;>
          cases md.uses <;> cases md.collectionDetails <;> cases md.programmableConfig <;>
          simp [lastValue, List.lookup]
    rw [this]
    cases md.collection with
    | none => rfl
    | some c => exact hj.collection c
  · have : lastValue (extractAdditional env md) "uses" = md.uses.map env.jsonUses := by
      unfold extractAdditional
      simp only [lastValue_append]
      cases md.creators with
      | none => cases md.editionNonce <;> cases md.tokenStandard <;> cases md.collection <;>
          cases md.uses <;> cases md.collectionDetails <;> cases md.programmableConfig <;>
          simp [lastValue, List.lookup]
      | some cs => cases cs <;> cases md.editionNonce <;> cases md.tokenStandard <;>
          cases md.collection <;>
          cases md.uses <;> cases md.collectionDetails <;> cases md.programmableConfig <;>
          simp [lastValue, List.lookup]
    rw [this]
    cases md.uses with
    | none => rfl
    | some c => exact hj.uses c

/-- The hypothesis is met by `serde_json`'s own text format (Serde.lean). -/
theorem serde_json_round_trips (env : Env) : JsonRoundTrips (Serde.serdeEnv env) where
  creators x := by
    show Serde.readCreators (String.ofList (Serde.creatorsText x)).toList = some x
    rw [String.toList_ofList, Serde.readCreators_ok]
  collection x := by
    show Serde.readCollection (String.ofList (Serde.collectionText x)).toList = some x
    rw [String.toList_ofList, Serde.readCollection_ok]
  uses x := by
    show Serde.readUses (String.ofList (Serde.usesText x)).toList = some x
    rw [String.toList_ofList, Serde.readUses_ok]

/-- **C40** The round trip with `serde_json`'s text format, without assumptions: converting Metaplex
metadata to Token-2022 metadata always succeeds on a `MetadataV1` account, and converting the result
back gives the same data, creators unverified. -/
theorem metaplex_round_trip_serde (env : Env) (u : Pubkey) (md : MetaplexMetadata)
    (hkey : md.key = 4) :
    ∃ t, metaplexToToken2022 (Serde.serdeEnv env) u (.metaplex md) = .ok t ∧ t.mint = u ∧
    token2022ToMetaplex (Serde.serdeEnv env) t = .ok
      { name := md.name, symbol := md.symbol, uri := md.uri
        sellerFeeBasisPoints := md.sellerFeeBasisPoints
        creators := match md.creators with
          | some [] => none
          | some cs => some (cs.map fun c => { c with verified := false })
          | none => none
        collection := md.collection, uses := md.uses } := by
  have h : ∃ t, metaplexToToken2022 (Serde.serdeEnv env) u (.metaplex md) = .ok t := by
    unfold metaplexToToken2022 metadataV1
    dsimp only
    rw [if_pos hkey]
    exact ⟨_, rfl⟩
  obtain ⟨t, ht⟩ := h
  exact ⟨t, ht, (toToken2022_keeps ht).2.2.2.1, metaplex_round_trip (serde_json_round_trips env) ht⟩

namespace Example

/-- NFT-like metadata with a verified creator, a collection and uses. -/
def mplMd : MetaplexMetadata :=
  { key := 4, updateAuthority := user, mint := u, name := "N", symbol := "S", uri := "U"
    sellerFeeBasisPoints := 550
    creators := some [⟨issuer, true, 60⟩, ⟨user, false, 40⟩]
    primarySaleHappened := true, isMutable := true, editionNonce := some 255
    tokenStandard := some .fungible, collection := some ⟨true, issuer⟩
    uses := some ⟨.multiple, 3, 10⟩, collectionDetails := none, programmableConfig := none }

/-- The hypotheses of `metaplex_round_trip(_serde)`, `toToken2022_keeps` and
`toMetaplex_unverified` are met, and the verified creator really loses its flag. -/
example : ∃ t, metaplexToToken2022 (Serde.serdeEnv env) u (.metaplex mplMd) = .ok t ∧
    ∃ d, token2022ToMetaplex (Serde.serdeEnv env) t = .ok d ∧
      d.creators = some [⟨issuer, false, 60⟩, ⟨user, false, 40⟩] ∧
      d.sellerFeeBasisPoints = 550 ∧ d.uses = some ⟨.multiple, 3, 10⟩ ∧
      d.collection = some ⟨true, issuer⟩ := by
  obtain ⟨t, ht, _, h⟩ := metaplex_round_trip_serde env u mplMd rfl
  exact ⟨t, ht, _, h, rfl, rfl, rfl, rfl⟩

/-- The text written for the uses. -/
example : String.ofList (Serde.usesText ⟨.multiple, 3, 10⟩) =
    "{\"use_method\":\"Multiple\",\"remaining\":3,\"total\":10}" := by
  decide +kernel

/-- A field that does not parse makes the conversion fail (`conversion_ok_iff`). -/
example : fails (token2022ToMetaplex (Serde.serdeEnv env)
    ⟨some user, u, "N", "S", "U", [("seller_fee_basis_points", "65536")]⟩) .invalidAccountData := by
  decide +kernel

example : fails (token2022ToMetaplex (Serde.serdeEnv env)
    ⟨some user, u, "N", "S", "U", [("creators", "[{}]")]⟩) .invalidAccountData := by
  decide +kernel

end Example

end TokenWrap
