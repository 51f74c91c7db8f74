import Mathlib.Data.Nat.Digits.Lemmas
import Verif.Props.Metaplex
/-!
# C72: the complete conversion tables, and what counts as a fee

`Carries` lists, field by field, what the Token-2022 copy of a Metaplex account carries besides name,
symbol and URI; `IsU16Text` says which strings are accepted as a fee, without the model's parser.
-/

set_option linter.unusedSimpArgs false

namespace TokenWrap

/-! ## Which strings are a `u16` -/

/-- Specification: the digit characters. -/
def digitChars : List Char := ['0', '1', '2', '3', '4', '5', '6', '7', '8', '9']

/-- Specification: `s` is a decimal numeral for `n`: an optional plus sign, then at least one decimal
digit and nothing else, leading zeros allowed; the value fits 16 bits. -/
def IsU16Text (s : String) (n : UInt16) : Prop :=
  ∃ ds : List (Fin 10), ds ≠ [] ∧
    (s.toList = ds.map (fun d => digitChars.getD d.1 '0') ∨
      s.toList = '+' :: ds.map (fun d => digitChars.getD d.1 '0')) ∧
    Nat.ofDigits 10 (ds.reverse.map Fin.val) = n.toNat

theorem digitChars_getD (d : Fin 10) : digitChars.getD d.1 '0' = Char.ofNat (48 + d.1) := by
  revert d; decide

theorem digitVal_getD (d : Fin 10) : digitVal (digitChars.getD d.1 '0') = some d.1 := by
  rw [digitChars_getD]; exact digitVal_ofNat d.2

theorem digitVal_eq_some {c : Char} {n : Nat} (h : digitVal c = some n) :
    ∃ d : Fin 10, c = digitChars.getD d.1 '0' ∧ n = d.1 := by
  unfold digitVal at h
  split at h
  · rename_i hc
    cases h
    refine ⟨⟨c.toNat - 48, by omega⟩, ?_, rfl⟩
    rw [digitChars_getD]
    show c = Char.ofNat (48 + (c.toNat - 48))
    rw [show 48 + (c.toNat - 48) = c.toNat by omega, Char.ofNat_toNat]
  · cases h

theorem digitsVal_map (ds : List (Fin 10)) (acc : Nat) :
    digitsVal acc (ds.map fun d => digitChars.getD d.1 '0') =
      some (acc * 10 ^ ds.length + Nat.ofDigits 10 (ds.reverse.map Fin.val)) := by
  induction ds generalizing acc with
  | nil => simp [digitsVal]
  | cons d ds ih =>
    simp only [List.map_cons, digitsVal, digitVal_getD, ih, List.reverse_cons, List.map_append,
      Nat.ofDigits_append, List.length_map, List.length_reverse, List.length_cons, List.map_nil,
      Nat.ofDigits_singleton, Option.some.injEq]
    ring

theorem digitsVal_eq_some {cs : List Char} {acc n : Nat} (h : digitsVal acc cs = some n) :
    ∃ ds : List (Fin 10), cs = ds.map fun d => digitChars.getD d.1 '0' := by
  induction cs generalizing acc with
  | nil => exact ⟨[], rfl⟩
  | cons c cs ih =>
    rw [digitsVal] at h
    cases hd : digitVal c with
    | none => rw [hd] at h; cases h
    | some k =>
      rw [hd] at h
      obtain ⟨d, rfl, -⟩ := digitVal_eq_some hd
      obtain ⟨ds, rfl⟩ := ih h
      exact ⟨d :: ds, rfl⟩

theorem digits_not_plus (ds : List (Fin 10)) (rest : List Char) :
    (ds.map fun d => digitChars.getD d.1 '0') ≠ '+' :: rest := by
  cases ds with
  | nil => simp
  | cons d ds =>
    intro h
    rw [List.map_cons, List.cons.injEq] at h
    have : ∀ d : Fin 10, digitChars.getD d.1 '0' ≠ '+' := by decide
    exact this d h.1

theorem parse_digits {cs : List Char} {n : UInt16} :
    (if cs = [] then none
      else match digitsVal 0 cs with
        | some n => if n ≤ 65535 then some (UInt16.ofNat n) else none
        | none => none) = some n ↔
      ∃ ds : List (Fin 10), ds ≠ [] ∧ cs = ds.map (fun d => digitChars.getD d.1 '0') ∧
        Nat.ofDigits 10 (ds.reverse.map Fin.val) = n.toNat := by
  constructor
  · intro h
    split at h
    · cases h
    · rename_i hne
      split at h
      · rename_i v hv
        split at h
        · rename_i hle
          cases h
          obtain ⟨ds, rfl⟩ := digitsVal_eq_some hv
          refine ⟨ds, by rintro rfl; exact hne rfl, rfl, ?_⟩
          rw [digitsVal_map] at hv
          have hv := Option.some.inj hv
          rw [Nat.zero_mul, Nat.zero_add] at hv
          rw [hv, UInt16.toNat_ofNat_of_lt' (show v < 65536 by omega)]
        · cases h
      · cases h
  · rintro ⟨ds, hne, rfl, hv⟩
    rw [if_neg (by simpa using hne), digitsVal_map, Nat.zero_mul, Nat.zero_add, hv]
    have := n.toNat_lt
    dsimp only
    rw [if_pos (by omega)]
    simp

/-- **C41/C72** The fee parser accepts exactly the decimal numerals of 16-bit numbers. -/
theorem fee_text_iff (s : String) (n : UInt16) : parseU16 s = some n ↔ IsU16Text s n := by
  unfold parseU16 IsU16Text
  split
  · rename_i rest hs
    refine (parse_digits (cs := rest)).trans ?_
    constructor
    · rintro ⟨ds, hne, hr, hv⟩
      exact ⟨ds, hne, .inr (by rw [hs, hr]), hv⟩
    · rintro ⟨ds, hne, hr | hr, hv⟩
      · exact absurd (hr.symm.trans hs) (digits_not_plus ds rest)
      · rw [hs] at hr
        exact ⟨ds, hne, (List.cons.inj hr).2, hv⟩
  · rename_i hs
    refine (parse_digits (cs := s.toList)).trans ?_
    constructor
    · rintro ⟨ds, hne, hr, hv⟩
      exact ⟨ds, hne, .inl hr, hv⟩
    · rintro ⟨ds, hne, hr | hr, hv⟩
      · exact ⟨ds, hne, hr, hv⟩
      · exact absurd hr (hs _)

/-- A string is the numeral of at most one number. -/
theorem IsU16Text.unique {s : String} {m n : UInt16} (hm : IsU16Text s m) (hn : IsU16Text s n) :
    m = n :=
  Option.some.inj (((fee_text_iff s m).2 hm).symm.trans ((fee_text_iff s n).2 hn))

/-- **C41/C72** The whole fee rule of the Token-2022 → Metaplex conversion without the model's parser:
the conversion can succeed only if every fee text is a numeral, and the fee is the value of the last
one, or 0 when there is none. -/
theorem conversion_fee {env : Env} {src : TokenMetadata} {d : DataV2}
    (h : token2022ToMetaplex env src = .ok d) :
    (∀ v, ("seller_fee_basis_points", v) ∈ src.additional → ∃ n, IsU16Text v n) ∧
    (∀ v, LastValue src.additional "seller_fee_basis_points" v →
      IsU16Text v d.sellerFeeBasisPoints) ∧
    ((∀ v, ("seller_fee_basis_points", v) ∉ src.additional) → d.sellerFeeBasisPoints = 0) := by
  obtain ⟨hp, hc⟩ := conversion_ok_iff.1 h
  refine ⟨fun v hv => ?_, fun v hv => (fee_text_iff _ _).1 (hc.fee.1 v hv),
    fun hn => hc.fee.2 fun v hv => hn v hv.mem⟩
  have h1 := (hp _ _ hv).2.1 rfl
  cases hq : parseU16 v with
  | none => exact absurd hq h1
  | some n => exact ⟨n, (fee_text_iff _ _).1 hq⟩

/-- **C41/C72** One fee text that is not a 16-bit numeral makes the conversion fail, wherever it is. -/
theorem conversion_bad_fee {env : Env} {src : TokenMetadata} {v : String}
    (hv : ("seller_fee_basis_points", v) ∈ src.additional) (hbad : ∀ n, ¬ IsU16Text v n) :
    token2022ToMetaplex env src = .error .invalidAccountData := by
  apply conversion_rejects
  intro hp
  have h1 := (hp _ _ hv).2.1 rfl
  cases hq : parseU16 v with
  | none => exact h1 hq
  | some n => exact hbad n ((fee_text_iff _ _).1 hq)

theorem decString_digits (n : Nat) (h : n < 100000) :
    (decString n).toList =
      (if n = 0 then ['0'] else (Nat.digits 10 n).reverse.map fun d => digitChars.getD d '0') := by
  have key : ∀ fuel n, n < 10 ^ (fuel + 1) → n ≠ 0 → decDigits (fuel + 1) n =
      (Nat.digits 10 n).reverse.map fun d => digitChars.getD d '0' := by
    intro fuel
    induction fuel with
    | zero =>
      intro n h h0
      have h : n < 10 := by simpa using h
      rw [decDigits, if_pos h, Nat.digits_of_lt 10 n h0 h]
      simp only [List.reverse_singleton, List.map_cons, List.map_nil, List.cons.injEq, and_true]
      exact (digitChars_getD ⟨n, h⟩).symm
    | succ f ih =>
      intro n h h0
      rw [decDigits]
      split
      · rename_i hn
        rw [Nat.digits_of_lt 10 n h0 hn]
        simp only [List.reverse_singleton, List.map_cons, List.map_nil, List.cons.injEq, and_true]
        exact (digitChars_getD ⟨n, hn⟩).symm
      · have h1 : n / 10 < 10 ^ (f + 1) := by
          rw [Nat.pow_succ] at h
          exact Nat.div_lt_of_lt_mul (by rw [Nat.mul_comm]; exact h)
        rw [ih _ h1 (by omega), Nat.digits_def' (by decide) (by omega : 0 < n), List.reverse_cons,
          List.map_append, List.map_cons, List.map_nil,
          digitChars_getD ⟨n % 10, Nat.mod_lt _ (by decide)⟩]
  unfold decString
  rw [String.toList_ofList]
  split
  · rename_i h0; subst h0; decide
  · rename_i h0; exact key 4 n (by omega) h0

/-! ## Metaplex → Token-2022: the table -/

/-- Specification: the extra pair `(k, v)` the copy of `md` carries.  `num` prints numbers and `bool`
booleans; the JSON texts come from the environment's printers. -/
inductive Carries (env : Env) (md : MetaplexMetadata) : String → String → Prop
  | key : Carries env md "key" (env.jsonKey md.key)
  | fee {v} : v.toList = (if md.sellerFeeBasisPoints = 0 then ['0'] else
      (Nat.digits 10 md.sellerFeeBasisPoints.toNat).reverse.map fun d => digitChars.getD d '0') →
      Carries env md "seller_fee_basis_points" v
  | soldYes : md.primarySaleHappened = true → Carries env md "primary_sale_happened" "true"
  | soldNo : md.primarySaleHappened = false → Carries env md "primary_sale_happened" "false"
  | mutYes : md.isMutable = true → Carries env md "is_mutable" "true"
  | mutNo : md.isMutable = false → Carries env md "is_mutable" "false"
  | creators {c cs} : md.creators = some (c :: cs) →
      Carries env md "creators"
        (env.jsonCreators ((c :: cs).map fun x => ⟨x.address, false, x.share⟩))
  | edition {n v} : md.editionNonce = some n →
      v.toList = (if n = 0 then ['0'] else
        (Nat.digits 10 n.toNat).reverse.map fun d => digitChars.getD d '0') →
      Carries env md "edition_nonce" v
  | standard {t} : md.tokenStandard = some t →
      Carries env md "token_standard" (env.jsonTokenStandard t)
  | collection {c} : md.collection = some c → Carries env md "collection" (env.jsonCollection c)
  | uses {c} : md.uses = some c → Carries env md "uses" (env.jsonUses c)
  | details {c} : md.collectionDetails = some c →
      Carries env md "collection_details" (env.jsonCollectionDetails c)
  | programmable {c} : md.programmableConfig = some c →
      Carries env md "programmable_config" (env.jsonProgrammableConfig c)

/-- Specification: the order in which the keys are written. -/
def metaplexKeys : List String :=
  ["key", "seller_fee_basis_points", "primary_sale_happened", "is_mutable", "creators",
   "edition_nonce", "token_standard", "collection", "uses", "collection_details",
   "programmable_config"]

theorem string_eq_of_toList {s t : String} (h : s.toList = t.toList) : s = t := by
  rw [← String.ofList_toList (s := s), h, String.ofList_toList]

theorem decString_eq_iff {n : Nat} (h : n < 100000) {v : String} : v = decString n ↔
    v.toList = (if n = 0 then ['0'] else
      (Nat.digits 10 n).reverse.map fun d => digitChars.getD d '0') := by
  rw [← decString_digits n h]
  exact ⟨fun h => by rw [h], string_eq_of_toList⟩

theorem mem_extractAdditional {env : Env} {md : MetaplexMetadata} {k v : String} :
    (k, v) ∈ extractAdditional env md ↔ Carries env md k v := by
  have hf := decString_eq_iff (n := md.sellerFeeBasisPoints.toNat)
    (by have := md.sellerFeeBasisPoints.toNat_lt; omega) (v := v)
  have hz : md.sellerFeeBasisPoints.toNat = 0 ↔ md.sellerFeeBasisPoints = 0 := by
    rw [← UInt16.toNat_inj]; simp
  simp only [hz] at hf
  constructor
  · intro h
    unfold extractAdditional at h
    simp only [List.mem_append] at h
    rcases h with ((((((h | h) | h) | h) | h) | h) | h) | h
    · simp only [List.mem_cons, Prod.mk.injEq, List.not_mem_nil, or_false] at h
      rcases h with ⟨rfl, rfl⟩ | ⟨rfl, h⟩ | ⟨rfl, h⟩ | ⟨rfl, h⟩
      · exact .key
      · exact .fee (hf.1 h)
      · unfold boolString at h
        split at h
        · rename_i hb; subst h; exact .soldYes hb
        · rename_i hb; subst h; exact .soldNo (by simpa using hb)
      · unfold boolString at h
        split at h
        · rename_i hb; subst h; exact .mutYes hb
        · rename_i hb; subst h; exact .mutNo (by simpa using hb)
    · split at h
      · rename_i cs hcs
        cases cs with
        | nil => simp at h
        | cons c cs =>
          simp only [List.isEmpty_cons, Bool.false_eq_true, if_false, List.mem_cons, Prod.mk.injEq,
            List.not_mem_nil, or_false] at h
          obtain ⟨rfl, rfl⟩ := h
          exact .creators hcs
      · simp at h
    · split at h
      · rename_i n hn
        simp only [List.mem_cons, Prod.mk.injEq, List.not_mem_nil, or_false] at h
        obtain ⟨rfl, h⟩ := h
        have he := decString_eq_iff (n := n.toNat) (by have := n.toNat_lt; omega) (v := v)
        have hz : n.toNat = 0 ↔ n = 0 := by rw [← UInt8.toNat_inj]; simp
        simp only [hz] at he
        exact .edition hn (he.1 h)
      · simp at h
    all_goals
      split at h
      · rename_i x hx
        simp only [List.mem_cons, Prod.mk.injEq, List.not_mem_nil, or_false] at h
        obtain ⟨rfl, rfl⟩ := h
        first
        | exact .standard hx
        | exact .collection hx
        | exact .uses hx
        | exact .details hx
        | exact .programmable hx
      · simp at h
  · intro h
    unfold extractAdditional
    cases h with
    | key => simp
    | fee h => rw [hf.2 h]; simp
    | soldYes h => simp [boolString, h]
    | soldNo h => simp [boolString, h]
    | mutYes h => simp [boolString, h]
    | mutNo h => simp [boolString, h]
    | creators h => rw [h]; simp [unverify]
    | @edition n _ hn h =>
      have he := decString_eq_iff (n := n.toNat) (by have := n.toNat_lt; omega) (v := v)
      have hz : n.toNat = 0 ↔ n = 0 := by rw [← UInt8.toNat_inj]; simp
      simp only [hz] at he
      rw [he.2 h, hn]; simp
    | standard h => rw [h]; simp
    | collection h => rw [h]; simp
    | uses h => rw [h]; simp
    | details h => rw [h]; simp
    | programmable h => rw [h]; simp

theorem extractAdditional_keys (env : Env) (md : MetaplexMetadata) :
    ((extractAdditional env md).map Prod.fst).Sublist metaplexKeys := by
  unfold extractAdditional metaplexKeys
  simp only [List.map_append]
  have hc : ((match md.creators with
      | some cs => if cs.isEmpty then [] else [("creators", env.jsonCreators (unverify cs))]
      | none => [] : List (String × String)).map Prod.fst).Sublist ["creators"] := by
    cases md.creators with
    | none => simp
    | some cs => cases cs <;> simp
  exact List.Sublist.append (l₂ := ["key", "seller_fee_basis_points", "primary_sale_happened",
      "is_mutable", "creators", "edition_nonce", "token_standard", "collection", "uses",
      "collection_details"])
    (List.Sublist.append (l₂ := ["key", "seller_fee_basis_points", "primary_sale_happened",
      "is_mutable", "creators", "edition_nonce", "token_standard", "collection", "uses"])
    (List.Sublist.append (l₂ := ["key", "seller_fee_basis_points", "primary_sale_happened",
      "is_mutable", "creators", "edition_nonce", "token_standard", "collection"])
    (List.Sublist.append (l₂ := ["key", "seller_fee_basis_points", "primary_sale_happened",
      "is_mutable", "creators", "edition_nonce", "token_standard"])
    (List.Sublist.append (l₂ := ["key", "seller_fee_basis_points", "primary_sale_happened",
      "is_mutable", "creators", "edition_nonce"])
    (List.Sublist.append (l₂ := ["key", "seller_fee_basis_points", "primary_sale_happened",
      "is_mutable", "creators"])
    (List.Sublist.append (l₂ := ["key", "seller_fee_basis_points", "primary_sale_happened",
      "is_mutable"]) (List.Sublist.refl _) hc) (by split <;> simp)) (by split <;> simp)) (by split <;> simp))
      (by split <;> simp)) (by split <;> simp)) (by split <;> simp)

/-- Specification: `t` is the Token-2022 copy of the Metaplex metadata `md` for mint `u`. -/
structure IsToken2022Copy (env : Env) (u : Pubkey) (md : MetaplexMetadata) (t : TokenMetadata) :
    Prop where
  mint : t.mint = u
  name : t.name = md.name
  symbol : t.symbol = md.symbol
  uri : t.uri = md.uri
  /-- The all-zero key means "no update authority", every other key is kept. -/
  noAuthority : t.updateAuthority = none ↔ ∀ b ∈ md.updateAuthority.bytes, b = 0
  authority : ∀ k, t.updateAuthority = some k → k = md.updateAuthority
  /-- Exactly the table's pairs … -/
  table : ∀ k v, (k, v) ∈ t.additional ↔ Carries env md k v
  /-- … in the table's order, each key at most once. -/
  order : (t.additional.map Prod.fst).Sublist metaplexKeys

theorem systemId_iff (k : Pubkey) : k = systemId ↔ ∀ b ∈ k.bytes, b = 0 := by
  constructor
  · rintro rfl
    decide
  · intro h
    obtain ⟨bs, hb⟩ := k
    have h : bs = List.replicate 32 0 := List.eq_replicate_iff.2 ⟨hb, h⟩
    subst h
    rfl

/-- **C72** The Metaplex → Token-2022 conversion succeeds exactly on Metaplex metadata accounts (key
`MetadataV1`), and gives exactly the table's copy. -/
theorem token2022_copy_ok {env : Env} {u : Pubkey} {d : Data} {t : TokenMetadata}
    (h : metaplexToToken2022 env u d = .ok t) :
    ∃ md, d = .metaplex md ∧ md.key = 4 ∧ IsToken2022Copy env u md t := by
  unfold metaplexToToken2022 at h
  split at h
  · rename_i md
    split at h
    · rename_i hk
      cases h
      refine ⟨md, rfl, hk, rfl, rfl, rfl, rfl, ?_, ?_, fun k v => mem_extractAdditional,
        extractAdditional_keys env md⟩
      · rw [← systemId_iff]
        unfold maybeNull
        dsimp only
        split <;> rename_i hs <;> simp [hs]
      · intro k hk
        unfold maybeNull at hk
        dsimp only at hk
        split at hk
        · cases hk
        · exact (Option.some.inj hk).symm
    · cases h
  · cases h

/-- **C72** … and it always succeeds on those, … -/
theorem token2022_copy_total (env : Env) (u : Pubkey) (md : MetaplexMetadata) (hk : md.key = 4) :
    ∃ t, metaplexToToken2022 env u (.metaplex md) = .ok t ∧ IsToken2022Copy env u md t := by
  have : ∃ t, metaplexToToken2022 env u (.metaplex md) = .ok t := by
    unfold metaplexToToken2022 metadataV1
    dsimp only
    rw [if_pos hk]
    exact ⟨_, rfl⟩
  obtain ⟨t, ht⟩ := this
  obtain ⟨md', he, _, hc⟩ := token2022_copy_ok ht
  cases he
  exact ⟨t, ht, hc⟩

/-- **C72** … and fails with `InvalidAccountData` on everything else. -/
theorem token2022_copy_rejects (env : Env) (u : Pubkey) (d : Data)
    (h : ∀ md, d = .metaplex md → md.key ≠ 4) :
    metaplexToToken2022 env u d = .error .invalidAccountData := by
  unfold metaplexToToken2022 metadataV1
  split
  · rename_i md
    rw [if_neg (h md rfl)]
  · rfl

theorem IsToken2022Copy.nodup {env : Env} {u : Pubkey} {md : MetaplexMetadata} {t : TokenMetadata}
    (h : IsToken2022Copy env u md t) : (t.additional.map Prod.fst).Nodup :=
  h.order.nodup (by decide)

/-- **C72** The table determines the copy: there is only one. -/
theorem IsToken2022Copy.unique {env : Env} {u : Pubkey} {md : MetaplexMetadata}
    {t t' : TokenMetadata} (h : IsToken2022Copy env u md t) (h' : IsToken2022Copy env u md t') :
    t = t' := by
  have hauth : t.updateAuthority = t'.updateAuthority := by
    cases ha : t.updateAuthority with
    | none => exact ((h'.noAuthority).2 (h.noAuthority.1 ha)).symm
    | some k =>
      cases hb : t'.updateAuthority with
      | none => rw [h.noAuthority.2 (h'.noAuthority.1 hb)] at ha; cases ha
      | some k' => rw [h.authority k ha, h'.authority k' hb]
  have hmem : ∀ p, p ∈ t.additional ↔ p ∈ t'.additional := fun p =>
    (h.table p.1 p.2).trans (h'.table p.1 p.2).symm
  have hadd : t.additional = t'.additional := by
    have gen : ∀ (K : List String) (l l' : List (String × String)), K.Nodup →
        (l.map Prod.fst).Sublist K → (l'.map Prod.fst).Sublist K →
        (∀ p, p ∈ l ↔ p ∈ l') → l = l' := by
      intro K
      induction K with
      | nil =>
        intro l l' _ h1 h2 _
        rw [List.sublist_nil, List.map_eq_nil_iff] at h1 h2
        rw [h1, h2]
      | cons k K ih =>
        intro l l' hn h1 h2 hm
        rw [List.nodup_cons] at hn
        have drop : ∀ m : List (String × String), (m.map Prod.fst).Sublist (k :: K) →
            (∃ v r, m = (k, v) :: r ∧ (r.map Prod.fst).Sublist K) ∨ (m.map Prod.fst).Sublist K := by
          intro m hs
          cases m with
          | nil => exact .inr (by simp)
          | cons p r =>
            rw [List.map_cons] at hs
            cases hs with
            | cons _ hs => exact .inr hs
            | cons_cons _ hs => exact .inl ⟨p.2, r, rfl, hs⟩
        have notin : ∀ m : List (String × String), (m.map Prod.fst).Sublist K → ∀ v, (k, v) ∉ m :=
          fun m hs v hv => hn.1 (hs.subset (List.mem_map.2 ⟨_, hv, rfl⟩))
        rcases drop l h1 with ⟨v, r, rfl, hr⟩ | hl
        · rcases drop l' h2 with ⟨v', r', rfl, hr'⟩ | hl'
          · have hv : v = v' := by
              have := (hm (k, v)).1 (by simp)
              rcases List.mem_cons.1 this with h | h
              · exact congrArg Prod.snd h
              · exact absurd h (notin r' hr' v)
            subst hv
            congr 1
            refine ih r r' hn.2 hr hr' fun p => ?_
            constructor
            · intro hp
              rcases List.mem_cons.1 ((hm p).1 (List.mem_cons_of_mem _ hp)) with h | h
              · subst h; exact absurd hp (notin r hr v)
              · exact h
            · intro hp
              rcases List.mem_cons.1 ((hm p).2 (List.mem_cons_of_mem _ hp)) with h | h
              · subst h; exact absurd hp (notin r' hr' v)
              · exact h
          · exact absurd ((hm (k, v)).1 (by simp)) (notin l' hl' v)
        · rcases drop l' h2 with ⟨v', r', rfl, hr'⟩ | hl'
          · exact absurd ((hm (k, v')).2 (by simp)) (notin l hl v')
          · exact ih l l' hn.2 hl hl' hm
    exact gen metaplexKeys _ _ (by decide) h.order h'.order hmem
  obtain ⟨a1, a2, a3, a4, a5, a6⟩ := t
  obtain ⟨b1, b2, b3, b4, b5, b6⟩ := t'
  have e1 := h.mint.trans h'.mint.symm
  have e2 := h.name.trans h'.name.symm
  have e3 := h.symbol.trans h'.symbol.symm
  have e4 := h.uri.trans h'.uri.symm
  dsimp only at *
  subst hauth e1 e2 e3 e4 hadd
  rfl

namespace Example

/-- The copy of `mplMd`: its keys, and two of its values. -/
example : ∃ t, metaplexToToken2022 (Serde.serdeEnv env) u (.metaplex mplMd) = .ok t ∧
    t.additional.map Prod.fst = ["key", "seller_fee_basis_points", "primary_sale_happened",
      "is_mutable", "creators", "edition_nonce", "token_standard", "collection", "uses"] ∧
    ("edition_nonce", "255") ∈ t.additional ∧ ("seller_fee_basis_points", "550") ∈ t.additional ∧
    t.updateAuthority = some user := by
  refine ⟨_, rfl, rfl, ?_, ?_, rfl⟩
  · refine mem_extractAdditional.2 (.edition (n := 255) rfl ?_)
    decide +kernel
  · refine mem_extractAdditional.2 (.fee ?_)
    decide +kernel

/-- Metadata whose update authority is the zero key has none in the copy. -/
example : ∃ t, metaplexToToken2022 (Serde.serdeEnv env) u
    (.metaplex { mplMd with updateAuthority := systemId }) = .ok t ∧ t.updateAuthority = none := by
  exact ⟨_, rfl, by decide +kernel⟩

/-- Numerals and non-numerals. -/
example : IsU16Text "550" 550 ∧ IsU16Text "+0007" 7 ∧ (∀ n, ¬ IsU16Text "" n) ∧
    (∀ n, ¬ IsU16Text "65536" n) ∧ (∀ n, ¬ IsU16Text "-1" n) ∧ (∀ n, ¬ IsU16Text "++1" n) ∧
    (∀ n, ¬ IsU16Text " 1" n) ∧ (∀ n, ¬ IsU16Text "+" n) := by
  have no : ∀ s, parseU16 s = none → ∀ n, ¬ IsU16Text s n := by
    intro s hs n h
    rw [(fee_text_iff s n).2 h] at hs
    cases hs
  exact ⟨(fee_text_iff _ _).1 (by decide +kernel), (fee_text_iff _ _).1 (by decide +kernel),
    no _ (by decide +kernel), no _ (by decide +kernel), no _ (by decide +kernel),
    no _ (by decide +kernel), no _ (by decide +kernel), no _ (by decide +kernel)⟩

/-- `conversion_bad_fee` applies. -/
example : fails (token2022ToMetaplex (Serde.serdeEnv env)
    ⟨some user, u, "N", "S", "U", [("seller_fee_basis_points", ""),
      ("seller_fee_basis_points", "5")]⟩) .invalidAccountData := by
  decide +kernel

end Example

end TokenWrap
