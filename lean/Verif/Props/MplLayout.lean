import Verif.MplLayout
/-!
# C101: Metaplex accounts as bytes

The typed contents `Data.metaplex` stand for bytes.  `accountBytes` writes them out field by field;
whatever follows the value, the program's reader finds exactly these fields.
-/

namespace TokenWrap
namespace MplLayout

/-! ## Specification: the bytes of a metadata account -/

/-- A flag: one byte, 0 or 1. -/
def flag (x : Bool) : Bytes := [if x then 1 else 0]

/-- An optional field: 0, or 1 and the value. -/
def optional {α : Type} (f : α → Bytes) : Option α → Bytes
  | none => [0]
  | some x => 1 :: f x

/-- A creator: address, verified, share. -/
def creator (c : Creator) : Bytes := c.address.bytes ++ (flag c.verified ++ [c.share])

/-- The creators: how many (four bytes), then each. -/
def creators (l : List Creator) : Bytes := leBytes 4 l.length ++ l.flatMap creator

/-- The token standard: one byte. -/
def standard : TokenStandard → Bytes
  | .nonFungible => [0]
  | .fungibleAsset => [1]
  | .fungible => [2]
  | .nonFungibleEdition => [3]
  | .programmableNonFungible => [4]
  | .programmableNonFungibleEdition => [5]

/-- The collection: verified, key. -/
def collection (c : Collection) : Bytes := flag c.verified ++ c.key.bytes

/-- How it may be used: one byte. -/
def method : UseMethod → Bytes
  | .burn => [0]
  | .multiple => [1]
  | .single => [2]

/-- The uses: method, remaining, total. -/
def uses (u : Uses) : Bytes := method u.useMethod ++ (leBytes 8 u.remaining.toNat ++ leBytes 8 u.total.toNat)

/-- The collection details. -/
def details : CollectionDetails → Bytes
  | .v1 n => 0 :: leBytes 8 n.toNat
  | .v2 p => 1 :: p

/-- The programmable configuration. -/
def config : ProgrammableConfig → Bytes
  | .v1 k => 0 :: optional Pubkey.bytes k

/-- The fields every metadata account has. -/
def headBytes (md : MetaplexMetadata) : Bytes :=
  4 :: (md.updateAuthority.bytes ++ (md.mint.bytes ++ (borshStr md.name ++ (borshStr md.symbol ++
    (borshStr md.uri ++ (leBytes 2 md.sellerFeeBasisPoints.toNat ++ (optional creators md.creators ++
    (flag md.primarySaleHappened ++ (flag md.isMutable ++ optional (fun n => [n]) md.editionNonce)))))))))

/-- The fields added later. -/
def laterBytes (md : MetaplexMetadata) : Bytes :=
  optional standard md.tokenStandard ++ (optional collection md.collection ++ (optional uses md.uses ++
    (optional details md.collectionDetails ++ optional config md.programmableConfig)))

/-- The whole value. -/
def accountBytes (md : MetaplexMetadata) : Bytes := headBytes md ++ laterBytes md

/-- Metadata that can be written: the discriminator of a metadata account, lengths below 2^32, eight bytes
of padding. -/
structure Writable (md : MetaplexMetadata) : Prop where
  key : md.key = 4
  name : md.name.utf8ByteSize < 2 ^ 32
  symbol : md.symbol.utf8ByteSize < 2 ^ 32
  uri : md.uri.utf8ByteSize < 2 ^ 32
  creators : ∀ l, md.creators = some l → l.length < 2 ^ 32
  padding : ∀ p, md.collectionDetails = some (.v2 p) → p.length = 8

/-! ## Codecs: reading is the inverse of writing -/

/-- The reader accepts exactly the bytes that start with the written form. -/
def Lawful {α : Type} (c : Codec α) (fits : α → Prop) (write : α → Bytes) : Prop :=
  ∀ b v r, c.read b = some (v, r) ↔ fits v ∧ b = write v ++ r

section
open Codec

variable {α β : Type} {c : Codec α} {d : Codec β} {f : α → Prop} {g : β → Prop} {w : α → Bytes} {x : β → Bytes}

theorem lawful_u8 : Lawful u8 (fun _ => True) (fun n => [n]) := by
  intro b v r
  cases b with
  | nil => simp [u8]
  | cons t b => simp [u8]

theorem lawful_u16 : Lawful u16 (fun _ => True) (fun n => leBytes 2 n.toNat) := by
  intro b v r
  simp only [u16, Option.map_eq_some_iff, Prod.exists, Prod.mk.injEq, true_and]
  constructor
  · rintro ⟨y, r', h, rfl, rfl⟩
    obtain ⟨h1, rfl⟩ := takeN_iff.1 h
    have h2 := leNat_lt y
    have h3 := leBytes_leNat y
    rw [h1] at h2 h3
    rw [UInt16.toNat_ofNat', Nat.mod_eq_of_lt (by simpa using h2), h3]
  · rintro rfl
    refine ⟨leBytes 2 v.toNat, r, takeN_iff.2 ⟨by simp, rfl⟩, ?_, rfl⟩
    rw [leNat_leBytes (by simpa using v.toNat_lt)]
    simp

theorem lawful_u64 : Lawful u64 (fun _ => True) (fun n => leBytes 8 n.toNat) := by
  intro b v r
  simp only [u64, Option.map_eq_some_iff, Prod.exists, Prod.mk.injEq, true_and]
  constructor
  · rintro ⟨y, r', h, rfl, rfl⟩
    obtain ⟨h1, rfl⟩ := takeN_iff.1 h
    have h2 := leNat_lt y
    have h3 := leBytes_leNat y
    rw [h1] at h2 h3
    rw [UInt64.toNat_ofNat', Nat.mod_eq_of_lt (by simpa using h2), h3]
  · rintro rfl
    refine ⟨leBytes 8 v.toNat, r, takeN_iff.2 ⟨by simp, rfl⟩, ?_, rfl⟩
    rw [leNat_leBytes (by simpa using v.toNat_lt)]
    simp

theorem lawful_key : Lawful key (fun _ => True) Pubkey.bytes := by
  intro b v r
  rw [true_and]
  exact takeKey_iff

theorem lawful_str : Lawful str (fun s => s.utf8ByteSize < 2 ^ 32) borshStr := by
  intro b v r
  exact readStr_iff

theorem lawful_enum [DecidableEq α] {l : List α} (hl : l.length ≤ 256) (hm : ∀ a, a ∈ l)
    (hn : ∀ i a, l[i]? = some a → l.idxOf a = i) (hw : ∀ a, w a = [UInt8.ofNat (l.idxOf a)]) :
    Lawful (enum l) (fun _ => True) w := by
  intro b v r
  rw [true_and, hw]
  have hlt := List.idxOf_lt_length_of_mem (hm v)
  have hv : l[l.idxOf v]? = some v := by
    rw [List.getElem?_eq_getElem hlt]
    exact congrArg some (List.getElem_idxOf hlt)
  cases b with
  | nil => simp [enum]
  | cons t b =>
    simp only [enum, Option.map_eq_some_iff, Prod.mk.injEq, List.cons_append, List.nil_append,
      List.cons.injEq]
    constructor
    · rintro ⟨a, h, rfl, rfl⟩
      rw [hn _ _ h]
      simp
    · rintro ⟨rfl, rfl⟩
      refine ⟨v, ?_, rfl, rfl⟩
      rw [UInt8.toNat_ofNat', Nat.mod_eq_of_lt (by omega)]
      exact hv

theorem lawful_bool : Lawful bool (fun _ => True) flag := by
  refine lawful_enum (by decide) (by decide) ?_ (by decide)
  rintro (_ | _ | i) a h
  · cases h; rfl
  · cases h; rfl
  · cases h

theorem lawful_standard : Lawful tokenStandardCodec (fun _ => True) standard := by
  refine lawful_enum (by decide) (by intro a; cases a <;> decide) ?_ (by intro a; cases a <;> rfl)
  rintro (_ | _ | _ | _ | _ | _ | i) a h
  iterate 6 · cases h; rfl
  cases h

theorem lawful_method : Lawful (enum [UseMethod.burn, .multiple, .single]) (fun _ => True) method := by
  refine lawful_enum (by decide) (by intro a; cases a <;> decide) ?_ (by intro a; cases a <;> rfl)
  rintro (_ | _ | _ | i) a h
  iterate 3 · cases h; rfl
  cases h

theorem Lawful.pair (h1 : Lawful c f w) (h2 : Lawful d g x) :
    Lawful (pair c d) (fun p => f p.1 ∧ g p.2) (fun p => w p.1 ++ x p.2) := by
  rintro b ⟨v1, v2⟩ r
  simp only [Codec.pair, Option.bind_eq_bind, Option.bind_eq_some_iff, Prod.exists, Option.some.injEq,
    Prod.mk.injEq]
  constructor
  · rintro ⟨a, r1, e1, a2, r2, e2, ⟨rfl, rfl⟩, rfl⟩
    obtain ⟨f1, rfl⟩ := (h1 _ _ _).1 e1
    obtain ⟨f2, rfl⟩ := (h2 _ _ _).1 e2
    exact ⟨⟨f1, f2⟩, by rw [List.append_assoc]⟩
  · rintro ⟨⟨f1, f2⟩, rfl⟩
    exact ⟨v1, x v2 ++ r, (h1 _ _ _).2 ⟨f1, by rw [List.append_assoc]⟩, v2, r, (h2 _ _ _).2 ⟨f2, rfl⟩,
      ⟨rfl, rfl⟩, rfl⟩

theorem Lawful.map (h1 : Lawful c f w) {to' : β → α} {from' : α → β} (e1 : ∀ y, from' (to' y) = y)
    (e2 : ∀ a, to' (from' a) = a) :
    Lawful (c.map to' from') (fun y => f (to' y)) (fun y => w (to' y)) := by
  intro b v r
  simp only [Codec.map, Option.map_eq_some_iff, Prod.exists, Prod.mk.injEq]
  constructor
  · rintro ⟨a, r1, h, rfl, rfl⟩
    rw [e2]
    exact (h1 _ _ _).1 h
  · intro h
    exact ⟨to' v, r, (h1 _ _ _).2 h, e1 v, rfl⟩

theorem Lawful.congr {f' : α → Prop} {w' : α → Bytes} (h1 : Lawful c f w) (hf : ∀ a, f a ↔ f' a)
    (hw : ∀ a, w a = w' a) : Lawful c f' w' := by
  intro b v r
  rw [← hf, ← hw]
  exact h1 b v r

theorem Lawful.opt (h1 : Lawful c f w) :
    Lawful (opt c) (fun o => ∀ a, o = some a → f a) (optional w) := by
  rintro b (_ | v) r
  · cases b with
    | nil => simp [Codec.opt, optional]
    | cons t b =>
      simp only [Codec.opt, optional]
      by_cases h0 : t = 0
      · simp [h0]
      · rw [if_neg h0]
        constructor
        · intro h
          split at h
          · rw [Option.map_eq_some_iff] at h
            obtain ⟨a, _, ha⟩ := h
            cases ha
          · cases h
        · rintro ⟨_, h⟩
          exact absurd (List.cons.inj h).1 h0
  · cases b with
    | nil => simp [Codec.opt, optional]
    | cons t b =>
      simp only [Codec.opt, optional]
      by_cases h0 : t = 0
      · subst h0
        simp
      · rw [if_neg h0]
        by_cases h2 : t = 1
        · subst h2
          rw [if_pos rfl]
          simp only [Option.map_eq_some_iff, Prod.exists, Prod.mk.injEq, Option.some.injEq,
            forall_eq', List.cons_append, List.cons.injEq, true_and]
          constructor
          · rintro ⟨a, r1, h, rfl, rfl⟩
            exact (h1 _ _ _).1 h
          · intro h
            exact ⟨v, r, (h1 _ _ _).2 h, rfl, rfl⟩
        · rw [if_neg h2]
          constructor
          · intro h; cases h
          · rintro ⟨_, h⟩
            exact absurd (List.cons.inj h).1 h2

theorem Lawful.readN (h1 : Lawful c f w) : ∀ {n : Nat} {b : Bytes} {l : List α} {r : Bytes},
    readN c n b = some (l, r) ↔ l.length = n ∧ (∀ a ∈ l, f a) ∧ b = l.flatMap w ++ r
  | 0, b, l, r => by
    simp only [Codec.readN, Option.some.injEq, Prod.mk.injEq]
    constructor
    · rintro ⟨rfl, rfl⟩
      exact ⟨rfl, (by intro a ha; cases ha), rfl⟩
    · rintro ⟨h, _, rfl⟩
      obtain rfl := List.length_eq_zero_iff.1 h
      exact ⟨rfl, rfl⟩
  | n + 1, b, l, r => by
    simp only [Codec.readN, Option.bind_eq_bind, Option.bind_eq_some_iff, Prod.exists, Option.some.injEq,
      Prod.mk.injEq]
    constructor
    · rintro ⟨a, b1, e1, l', b2, e2, rfl, rfl⟩
      obtain ⟨f1, rfl⟩ := (h1 _ _ _).1 e1
      obtain ⟨rfl, f2, rfl⟩ := (Lawful.readN h1).1 e2
      refine ⟨rfl, ?_, by simp⟩
      intro a' ha
      rcases List.mem_cons.1 ha with rfl | ha
      · exact f1
      · exact f2 a' ha
    · rintro ⟨h, hf, rfl⟩
      cases l with
      | nil => cases h
      | cons a l =>
        refine ⟨a, _, (h1 _ _ _).2 ⟨hf a (List.mem_cons_self ..), ?_⟩, l, r,
          (Lawful.readN h1).2 ⟨by simpa using h, fun a' ha => hf a' (List.mem_cons_of_mem _ ha), rfl⟩, rfl, rfl⟩
        simp

theorem Lawful.vec (h1 : Lawful c f w) :
    Lawful (vec c) (fun l => l.length < 2 ^ 32 ∧ ∀ a ∈ l, f a)
      (fun l => leBytes 4 l.length ++ l.flatMap w) := by
  intro b v r
  simp only [Codec.vec, Option.bind_eq_bind, Option.bind_eq_some_iff, Prod.exists]
  constructor
  · rintro ⟨n, r1, e1, e2⟩
    obtain ⟨f1, rfl⟩ := readU32_iff.1 e1
    obtain ⟨rfl, f2, rfl⟩ := h1.readN.1 e2
    exact ⟨⟨f1, f2⟩, by rw [List.append_assoc]⟩
  · rintro ⟨⟨f1, f2⟩, rfl⟩
    exact ⟨v.length, v.flatMap w ++ r, readU32_iff.2 ⟨f1, by rw [List.append_assoc]⟩,
      h1.readN.2 ⟨rfl, f2, rfl⟩⟩

theorem lawful_creator : Lawful creatorCodec (fun _ => True) creator :=
  ((lawful_key.pair (lawful_bool.pair lawful_u8)).map (fun _ => rfl) (fun _ => rfl)).congr (by simp)
    (fun _ => rfl)

theorem lawful_creators : Lawful (vec creatorCodec) (fun l => l.length < 2 ^ 32) creators :=
  lawful_creator.vec.congr (by simp) (fun _ => rfl)

theorem lawful_collection : Lawful collectionCodec (fun _ => True) collection :=
  ((lawful_bool.pair lawful_key).map (fun _ => rfl) (fun _ => rfl)).congr (by simp) (fun _ => rfl)

theorem lawful_uses : Lawful usesCodec (fun _ => True) uses :=
  ((lawful_method.pair (lawful_u64.pair lawful_u64)).map (fun _ => rfl) (fun _ => rfl)).congr (by simp)
    (fun _ => rfl)

theorem lawful_details :
    Lawful collectionDetailsCodec (fun d => ∀ p, d = .v2 p → p.length = 8) details := by
  rintro b v r
  cases b with
  | nil => cases v <;> simp [collectionDetailsCodec, details]
  | cons t b =>
    simp only [collectionDetailsCodec]
    by_cases h0 : t = 0
    · subst h0
      rw [if_pos rfl]
      simp only [Option.map_eq_some_iff, Prod.exists, Prod.mk.injEq]
      constructor
      · rintro ⟨n, r1, e, rfl, rfl⟩
        obtain ⟨_, rfl⟩ := (lawful_u64 _ _ _).1 e
        exact ⟨(by intro p h; cases h), rfl⟩
      · rintro ⟨_, e⟩
        cases v with
        | v1 n => exact ⟨n, r, (lawful_u64 _ _ _).2 ⟨trivial, (List.cons.inj e).2⟩, rfl, rfl⟩
        | v2 p => exact absurd (List.cons.inj e).1 (by decide)
    · rw [if_neg h0]
      by_cases h1 : t = 1
      · subst h1
        rw [if_pos rfl]
        simp only [Option.map_eq_some_iff, Prod.exists, Prod.mk.injEq]
        constructor
        · rintro ⟨n, r1, e, rfl, rfl⟩
          obtain ⟨e8, rfl⟩ := takeN_iff.1 e
          exact ⟨(by intro p h; cases h; exact e8), rfl⟩
        · rintro ⟨hp, e⟩
          cases v with
          | v1 n => exact absurd (List.cons.inj e).1 (by decide)
          | v2 p => exact ⟨p, r, takeN_iff.2 ⟨hp p rfl, (List.cons.inj e).2⟩, rfl, rfl⟩
      · rw [if_neg h1]
        constructor
        · intro h; cases h
        · rintro ⟨_, e⟩
          cases v with
          | v1 n => exact absurd (List.cons.inj e).1 h0
          | v2 p => exact absurd (List.cons.inj e).1 h1

theorem lawful_config : Lawful programmableConfigCodec (fun _ => True) config := by
  rintro b ⟨k⟩ r
  cases b with
  | nil => simp [programmableConfigCodec, config]
  | cons t b =>
    simp only [programmableConfigCodec, true_and]
    by_cases h0 : t = 0
    · subst h0
      rw [if_pos rfl]
      simp only [Option.map_eq_some_iff, Prod.exists, Prod.mk.injEq, ProgrammableConfig.v1.injEq, config,
        List.cons_append, List.cons.injEq, true_and]
      constructor
      · rintro ⟨n, r1, e, rfl, rfl⟩
        exact ((lawful_key.opt) _ _ _).1 e |>.2
      · intro e
        exact ⟨k, r, ((lawful_key.opt) _ _ _).2 ⟨fun _ _ => trivial, e⟩, rfl, rfl⟩
    · rw [if_neg h0]
      constructor
      · intro h; cases h
      · intro e
        exact absurd (List.cons.inj e).1 h0

theorem lawful_head : Lawful mplHeadCodec
    (fun h => h.2.2.1.utf8ByteSize < 2 ^ 32 ∧ h.2.2.2.1.utf8ByteSize < 2 ^ 32 ∧
      h.2.2.2.2.1.utf8ByteSize < 2 ^ 32 ∧ ∀ l, h.2.2.2.2.2.2.1 = some l → l.length < 2 ^ 32)
    (fun h => h.1.bytes ++ (h.2.1.bytes ++ (borshStr h.2.2.1 ++ (borshStr h.2.2.2.1 ++
      (borshStr h.2.2.2.2.1 ++ (leBytes 2 h.2.2.2.2.2.1.toNat ++ (optional creators h.2.2.2.2.2.2.1 ++
      (flag h.2.2.2.2.2.2.2.1 ++ (flag h.2.2.2.2.2.2.2.2.1 ++
      optional (fun n => [n]) h.2.2.2.2.2.2.2.2.2))))))))) :=
  (lawful_key.pair (lawful_key.pair (lawful_str.pair (lawful_str.pair (lawful_str.pair (lawful_u16.pair
    (lawful_creators.opt.pair (lawful_bool.pair (lawful_bool.pair lawful_u8.opt))))))))).congr (by simp)
    (fun _ => rfl)

end

/-! ## Claims -/

theorem readSoft_some {α : Type} {c : Codec α} {f : α → Prop} {w : α → Bytes} (h : Lawful c f w)
    {o : Option α} (ho : ∀ a, o = some a → f a) (r : Bytes) :
    readSoft (Codec.opt c) (some (optional w o ++ r)) = (some o, some r) := by
  unfold readSoft
  rw [Option.bind_some, (h.opt _ _ _).2 ⟨ho, rfl⟩]

theorem head_read {md : MetaplexMetadata} (h : Writable md) (r : Bytes) :
    ∃ t, headBytes md ++ r = 4 :: t ∧ mplHeadCodec.read t = some ((md.updateAuthority, md.mint, md.name,
      md.symbol, md.uri, md.sellerFeeBasisPoints, md.creators, md.primarySaleHappened, md.isMutable,
      md.editionNonce), r) :=
  ⟨_, rfl, (lawful_head _ _ _).2 ⟨⟨h.name, h.symbol, h.uri, h.creators⟩, rfl⟩⟩

/-- **C101** A metadata account holding these fields, followed by anything (Metaplex pads with zeros), is
read as exactly these fields. -/
theorem metaplex_bytes {md : MetaplexMetadata} (h : Writable md) (padding : Bytes) :
    metaplexOf (accountBytes md ++ padding) = some md := by
  unfold accountBytes
  rw [List.append_assoc]
  obtain ⟨t, e, hr⟩ := head_read h (laterBytes md ++ padding)
  rw [e]
  unfold metaplexOf
  dsimp only
  rw [if_neg (by decide), hr]
  dsimp only
  unfold laterBytes
  rw [List.append_assoc, readSoft_some lawful_standard (fun _ _ => trivial)]
  dsimp only
  rw [List.append_assoc, readSoft_some lawful_collection (fun _ _ => trivial)]
  dsimp only
  rw [List.append_assoc, readSoft_some lawful_uses (fun _ _ => trivial)]
  dsimp only
  rw [List.append_assoc, readSoft_some lawful_details (fun d hd p hp => h.padding p (by rw [hd, hp]))]
  dsimp only
  rw [readSoft_some lawful_config (fun _ _ => trivial)]
  obtain ⟨k⟩ := md
  have := h.key
  simp only [Option.isSome_some, Bool.and_self, if_true, Option.join_some] at this ⊢
  subst this
  rfl

/-- Metadata without the fields that were added later. -/
def oldForm (md : MetaplexMetadata) : MetaplexMetadata :=
  { md with
    tokenStandard := none
    collection := none
    uses := none
    collectionDetails := none
    programmableConfig := none }

theorem readSoft_zeros {α : Type} (c : Codec α) (n : Nat) :
    ∃ o b, readSoft (Codec.opt c) (some (List.replicate n 0)) = (o, b) ∧ o.join = none ∧
      (b = none ∨ ∃ m, b = some (List.replicate m 0)) := by
  cases n with
  | zero => exact ⟨none, none, rfl, rfl, .inl rfl⟩
  | succ n => exact ⟨some none, some (List.replicate n 0), rfl, rfl, .inr ⟨n, rfl⟩⟩

theorem readSoft_done {α : Type} (c : Codec α) (b : Option Bytes)
    (h : b = none ∨ ∃ m, b = some (List.replicate m 0)) :
    (readSoft (Codec.opt c) b).1.join = none ∧
      ((readSoft (Codec.opt c) b).2 = none ∨ ∃ m, (readSoft (Codec.opt c) b).2 = some (List.replicate m 0)) := by
  rcases h with rfl | ⟨m, rfl⟩
  · exact ⟨rfl, .inl rfl⟩
  · obtain ⟨o, b, e, h1, h2⟩ := readSoft_zeros c m
    rw [e]
    exact ⟨h1, h2⟩

/-- **C101** An account written before the later fields existed (only zeros, or nothing, after the edition
nonce) is read with all of them absent. -/
theorem metaplex_old_bytes {md : MetaplexMetadata} (h : Writable md) (n : Nat) :
    metaplexOf (headBytes md ++ List.replicate n 0) = some (oldForm md) := by
  obtain ⟨t, e, hr⟩ := head_read h (List.replicate n 0)
  rw [e]
  unfold metaplexOf
  dsimp only
  rw [if_neg (by decide), hr]
  dsimp only
  obtain ⟨j1, d1⟩ := readSoft_done tokenStandardCodec (some (List.replicate n 0)) (.inr ⟨n, rfl⟩)
  obtain ⟨j2, d2⟩ := readSoft_done collectionCodec _ d1
  obtain ⟨j3, d3⟩ := readSoft_done usesCodec _ d2
  obtain ⟨j4, d4⟩ := readSoft_done collectionDetailsCodec _ d3
  obtain ⟨j5, -⟩ := readSoft_done programmableConfigCodec _ d4
  rw [j1, j2, j3, j4, j5, ite_self, ite_self, ite_self]
  have := h.key
  obtain ⟨k⟩ := md
  dsimp only at this
  subst this
  rfl

/-- **C101** Whatever bytes are accepted, the mandatory fields found are those written at the start of the
bytes; so everything the conversion copies unconditionally is determined by the account's bytes. -/
theorem metaplex_only_bytes {b : Bytes} {md : MetaplexMetadata} (h : metaplexOf b = some md) :
    md.key = 4 ∧ ∃ rest, b = headBytes md ++ rest := by
  unfold metaplexOf at h
  split at h
  · cases h
  · rename_i k r
    split at h
    · cases h
    · rename_i hk
      have hk : k = 4 := Decidable.not_not.1 hk
      split at h
      · cases h
      · rename_i ua mint name symbol uri fee cs sale mu nonce r' e
        obtain ⟨_, e⟩ := (lawful_head _ _ _).1 e
        cases h
        refine ⟨rfl, r', ?_⟩
        rw [hk, e]
        rfl

/-- **C101** Bytes that do not start with the discriminator of a metadata account (4) are never read. -/
theorem metaplex_discriminator {b : Bytes} (h : b.head? ≠ some 4) : metaplexOf b = none := by
  cases hb : metaplexOf b with
  | none => rfl
  | some md =>
    obtain ⟨_, rest, e⟩ := metaplex_only_bytes hb
    rw [e] at h
    exact absurd rfl h

/-- **C101** The conversion on the bytes of an account is the conversion on its typed contents. -/
theorem conversion_bytes (env : Env) (u : Pubkey) {md : MetaplexMetadata} (h : Writable md) (padding : Bytes) :
    metaplexToToken2022Bytes env u (accountBytes md ++ padding) = metaplexToToken2022 env u (.metaplex md) := by
  unfold metaplexToToken2022Bytes metaplexToToken2022
  rw [metaplex_bytes h]
  dsimp only
  rw [if_pos (show md.key = metadataV1 from h.key)]
  rfl

/-- **C101** Every metadata content that Metaplex can store has bytes, and no two have the same ones. -/
theorem bytes_injective {a b : MetaplexMetadata} (ha : Writable a) (hb : Writable b) {p q : Bytes}
    (h : accountBytes a ++ p = accountBytes b ++ q) : a = b := by
  have h1 := metaplex_bytes ha p
  rw [h, metaplex_bytes hb q] at h1
  exact (Option.some.inj h1).symm

/-! ## Example: an account with creators, collection, uses and details -/

namespace Ex

/-- Some keys. -/
def key (n : UInt8) : Pubkey := ⟨List.replicate 32 n, List.length_replicate⟩

/-- Metadata with every kind of field. -/
def md : MetaplexMetadata :=
  { key := 4
    updateAuthority := key 1
    mint := key 2
    name := "Gold"
    symbol := "GLD"
    uri := "https://gold"
    sellerFeeBasisPoints := 513
    creators := some [⟨key 3, true, 60⟩, ⟨key 4, false, 40⟩]
    primarySaleHappened := false
    isMutable := true
    editionNonce := some 254
    tokenStandard := some .fungible
    collection := some ⟨true, key 5⟩
    uses := some ⟨.multiple, 3, 7⟩
    collectionDetails := some (.v2 [0, 0, 0, 0, 0, 0, 0, 0])
    programmableConfig := some (.v1 none) }

theorem writable : Writable md where
  key := rfl
  name := by decide
  symbol := by decide
  uri := by decide
  creators := by rintro l h; cases h; decide
  padding := by rintro p h; cases h; rfl

example : metaplexOf (accountBytes md ++ List.replicate 300 0) = some md := metaplex_bytes writable _

example : metaplexOf (headBytes md) = some (oldForm md) := by
  simpa using metaplex_old_bytes writable 0

/-- Seller fee and creators at their places: after 1 + 32 + 32 + 8 + 7 + 16 bytes. -/
example : (accountBytes md).drop 96 = [1, 2, 1, 2, 0, 0, 0] ++ (key 3).bytes ++ [1, 60] ++ (key 4).bytes ++
    [0, 40] ++ [0, 1] ++ [1, 254] ++ [1, 2] ++ 1 :: 1 :: (key 5).bytes ++
    [1, 1, 3, 0, 0, 0, 0, 0, 0, 0, 7, 0, 0, 0, 0, 0, 0, 0] ++ [1, 1, 0, 0, 0, 0, 0, 0, 0, 0] ++ [1, 0, 0] := by
  decide +kernel

/-- A master edition (discriminator 6) is not read. -/
example : metaplexOf (6 :: (accountBytes md).drop 1) = none := metaplex_discriminator (by simp)

/-- A collection with an invalid flag: token standard, collection and uses are dropped. -/
example : (metaplexOf (headBytes md ++ [1, 2, 1, 9])).map (fun m => (m.name, m.tokenStandard, m.collection)) =
    some ("Gold", none, none) := by
  decide +kernel

end Ex

end MplLayout
end TokenWrap
