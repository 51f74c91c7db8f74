import Verif.Props.Js
import Verif.Props.HistoryExample
/-! # C107: a backpointer cannot be forged, and what the clients read from one

`backpointer_integrity` (C25) speaks about the wrapped mint of a known pair.  Here `X` is any address
whatsoever, say one that a stranger hands to an exchange: whether `X` is a wrapped mint, and of what, can be
read off its backpointer address alone. -/

namespace TokenWrap
open TokenWrapInstruction

section
variable {cr : Crypto} {L0 L : Ledger} {X B : Pubkey} {ok : Act → Ledger → Prop} {trace : List Act}

/-- Some instruction of the trace is a CreateMint naming `X`, its backpointer `B` and unwrapped mint `u`. -/
def CreatedFor (X B u : Pubkey) (trace : List Act) : Prop :=
  ∃ env a b c rest idem, Act.tokenWrap env (a :: b :: c :: rest)
    (TokenWrapInstruction.createMint idem).pack ∈ trace ∧ a.key = X ∧ b.key = B ∧ c.key = u

/-- `X` is what it should be: the wrapped mint of `u` and a token program that owns it, with the
backpointer `B` saying so. -/
structure Genuine (cr : Crypto) (X B u p : Pubkey) (dec : UInt8) (trace : List Act) (L : Ledger) : Prop where
  address : wrappedMintAddress cr u p = some X
  bOwner : (L B).owner = crateId
  bData : (L B).data = .bytes u.bytes
  mint : StableMint p X dec L
  created : CreatedFor X B u trace

theorem CreatedFor.cons {u : Pubkey} {act : Act} (h : CreatedFor X B u trace) :
    CreatedFor X B u (act :: trace) := by
  obtain ⟨env, a, b, c, rest, idem, hm, h⟩ := h
  exact ⟨env, a, b, c, rest, idem, List.mem_cons_of_mem _ hm, h⟩

/-- **C107** Whatever anybody does, the backpointer address of `X` is empty unless `X` is a genuine wrapped
mint: then some CreateMint named it, it holds a mint of token program `p`, its address is the one derived
from an unwrapped mint `u` and `p`, and the backpointer, owned by Token Wrap, holds exactly `u`. -/
theorem backpointer_unforgeable (r : Reserved cr (.backpointer X) B) (hb : Blank L0 B) (hf : Funds L0)
    (h : History cr ok L0 trace L) :
    Blank L B ∨ ((L B).lamports ≠ 0 ∧ ∃ u p dec, Genuine cr X B u p dec trace L) := by
  have hs : ¬ CanSign cr B := r.not_canSign (.inl rfl) (by intro _ _ _ h; cases h)
  have hno : ∀ L : Ledger, True → ∀ wallet mint prog,
      associatedTokenAddress cr wallet mint prog = some B → (L mint).owner ≠ prog := by
    intro _ _ wallet mint prog ha
    have := r.unique (j := .ata wallet mint prog) ha; cases this
  suffices Funds L ∧ (Blank L B ∨ (0 < (L B).lamports ∧ ∃ u p dec, Genuine cr X B u p dec trace L)) by
    rcases this.2 with h | ⟨h, h'⟩
    · exact .inl h
    · exact .inr ⟨by omega, h'⟩
  induction h with
  | start => exact ⟨hf, .inl hb⟩
  | @step trace act L L' _ _ hst ih =>
    obtain ⟨hfu, ih⟩ := ih
    have hfu' := hfu.step hst
    refine ⟨hfu', ?_⟩
    have hold : Held L B := by
      rcases ih with h | ⟨hl, u, p, dec, g⟩
      · exact .inl h
      · exact .inr ⟨g.bOwner, hl⟩
    have eff := hold.step hs (Q := fun _ => True) (fun _ _ => trivial) (fun _ _ _ => trivial) hno trivial hst
    have later : Kept L L' B → Blank L' B ∨ (0 < (L' B).lamports ∧
        ∃ u p dec, Genuine cr X B u p dec (act :: trace) L') := by
      intro hk
      rcases ih with h | ⟨hl, u, p, dec, g⟩
      · exact .inl (h.kept hk)
      · refine .inr ⟨Nat.lt_of_lt_of_le hl (hk.lam g.bOwner), u, p, dec, ?_⟩
        exact {
          address := g.address
          bOwner := hk.1.trans g.bOwner
          bData := hk.2.trans g.bData
          mint := (StableFunds.step ⟨g.mint, hfu⟩ hst).1
          created := g.created.cons }
    cases eff with
    | kept hk => exact later hk
    | mint u' p' ha => have := r.unique (j := .wrappedMint u' p') ha; cases this
    | metaplex w' ha => have := r.unique (j := .metaplex w') ha; cases this
    | pointer env accounts p' a m' hcr _ _ _ e hk =>
      have := e.pointer
      rw [hcr, hk] at this
      have := r.unique (j := .canonicalPointer _) this
      cases this
    | backpointer w' ha e =>
      have := r.unique (j := .backpointer w') ha
      injection this with this
      subst this
      obtain ⟨env, a, b, c, u, rest, idem, p, m, x, dec, hact, ka, kb, kc, hw, _, _, wo, wd, hdec, hnc, hp,
        bl, bo, bd⟩ := e
      have hx : StableMint p w' dec L' := ⟨hp, wo, x, wd, hdec, hnc⟩
      refine .inr ⟨bl, u, p, dec, hw, bo, bd, hx, env, a, b, c, rest, idem, ?_, ka, kb, kc⟩
      rw [hact]; exact List.mem_cons_self

/-- For a pair under observation the backpointer can only name that pair. -/
theorem Genuine.pair {s : Setting cr} {u p : Pubkey} {dec : UInt8} (g : Genuine cr s.W B u p dec trace L) :
    u = s.u ∧ p = s.wp := by
  have := s.rW.unique (j := .wrappedMint u p) g.address
  injection this with h1 h2
  exact ⟨h1, h2⟩

/-- The unwrapped mint and the token program are determined by what is on chain. -/
theorem Genuine.unique {u p u' p' : Pubkey} {dec dec' : UInt8} {trace' : List Act}
    (g : Genuine cr X B u p dec trace L) (g' : Genuine cr X B u' p' dec' trace' L) :
    u = u' ∧ p = p' ∧ dec = dec' := by
  have h1 := g.bData.symm.trans g'.bData
  injection h1 with h1
  obtain ⟨_, ho, m, hm, hd, _⟩ := g.mint
  obtain ⟨_, ho', m', hm', hd', _⟩ := g'.mint
  rw [hm] at hm'; cases hm'
  exact ⟨Pubkey.ext' h1, ho.symm.trans ho', hd.symm.trans hd'⟩

/-! ## Through the JavaScript client -/

theorem js_findBackpointer (r : Reserved cr (.backpointer X) B) : Js.findBackpointerPda cr X = some B := by
  rw [(js_addresses cr X X X).2.2]; exact r.1

theorem fetchMaybeBackpointer_eq {raw : Js.Raw} {k : Pubkey} :
    ((L k).lamports = 0 → Js.fetchMaybeBackpointer raw k L = .ok none) ∧
    ((L k).lamports ≠ 0 → ∀ u, readKey ((raw.of (L k).data).take 32) = some u →
      Js.fetchMaybeBackpointer raw k L = .ok (some u)) ∧
    ((L k).lamports ≠ 0 → readKey ((raw.of (L k).data).take 32) = none →
      Js.fetchMaybeBackpointer raw k L = .error .codec) := by
  unfold Js.fetchMaybeBackpointer Js.fetchEncodedAccount
  refine ⟨fun h => by rw [if_pos h]; rfl, fun h u hu => ?_, fun h hu => ?_⟩
  · rw [if_neg h]; unfold Js.decodeBackpointer; dsimp only; rw [hu]
  · rw [if_neg h]; unfold Js.decodeBackpointer; dsimp only; rw [hu]

theorem readKey_take_bytes (u : Pubkey) : readKey (u.bytes.take 32) = some u := by
  rw [List.take_of_length_le (by rw [u.len])]
  exact readKey_some_iff.2 rfl

/-- **C107** What `fetchMaybeBackpointerFromSeeds` reports about an arbitrary `X`, in every history: it
reports an unwrapped mint exactly if `X` is a genuine wrapped mint of it; it reports that there is nothing
exactly if there are no lamports at the backpointer address; and it throws exactly if somebody has sent
lamports to that address while nothing has been created there. -/
theorem js_discovery {raw : Js.Raw} (r : Reserved cr (.backpointer X) B) (hb : Blank L0 B) (hf : Funds L0)
    (h : History cr ok L0 trace L) :
    (∀ u, Js.fetchMaybeBackpointerFromSeeds cr raw X L = .ok (some u) ↔
      ∃ p dec, Genuine cr X B u p dec trace L) ∧
    (Js.fetchMaybeBackpointerFromSeeds cr raw X L = .ok none ↔ (L B).lamports = 0) ∧
    ((∃ e, Js.fetchMaybeBackpointerFromSeeds cr raw X L = .error e) ↔
      (L B).lamports ≠ 0 ∧ Blank L B) := by
  have hx : Js.fetchMaybeBackpointerFromSeeds cr raw X L = Js.fetchMaybeBackpointer raw B L := by
    unfold Js.fetchMaybeBackpointerFromSeeds
    rw [js_findBackpointer r, okOr_some, ok_bind]
  rw [hx]
  obtain ⟨f1, f2, f3⟩ := fetchMaybeBackpointer_eq (L := L) (raw := raw) (k := B)
  have hblank : ∀ {u p dec}, Genuine cr X B u p dec trace L → ¬ Blank L B := by
    intro u p dec g hbl
    exact system_ne_crate (hbl.1.symm.trans g.bOwner)
  rcases backpointer_unforgeable r hb hf h with hbl | ⟨hl, u, p, dec, g⟩
  · have hnone : readKey ((raw.of (L B).data).take 32) = none := by
      rw [hbl.2, raw.bytes]; rfl
    by_cases hl : (L B).lamports = 0
    · rw [f1 hl]
      refine ⟨fun u => ⟨fun h => by simp at h, fun ⟨p, dec, g⟩ => absurd hbl (hblank g)⟩, by simp [hl], ?_⟩
      simp [hl]
    · rw [f3 hl hnone]
      refine ⟨fun u => ⟨fun h => by simp at h, fun ⟨p, dec, g⟩ => absurd hbl (hblank g)⟩, by simp [hl], ?_⟩
      simp [hl, hbl]
  · have hread : readKey ((raw.of (L B).data).take 32) = some u := by
      rw [g.bData, raw.bytes]; exact readKey_take_bytes u
    rw [f2 hl u hread]
    refine ⟨fun u' => ⟨fun h => ?_, fun ⟨p', dec', g'⟩ => by rw [(g.unique g').1]⟩, by simp [hl], ?_⟩
    · injection h with h; injection h with h
      subst h; exact ⟨p, dec, g⟩
    · simp [hblank g]

/-- **C107** `fetchBackpointerFromSeeds` returns an unwrapped mint exactly if `X` is a genuine wrapped mint
of it, and throws otherwise. -/
theorem js_discovery_strict {raw : Js.Raw} (r : Reserved cr (.backpointer X) B) (hb : Blank L0 B)
    (hf : Funds L0) (h : History cr ok L0 trace L) {u : Pubkey} :
    Js.fetchBackpointerFromSeeds cr raw X L = .ok u ↔ ∃ p dec, Genuine cr X B u p dec trace L := by
  rw [← (js_discovery (raw := raw) r hb hf h).1 u]
  unfold Js.fetchBackpointerFromSeeds
  cases Js.fetchMaybeBackpointerFromSeeds cr raw X L with
  | error e => simp
  | ok o => cases o with
    | none => simp [ok_bind, Js.assertExists]
    | some k => simp [ok_bind, Js.assertExists]

/-- **C107** The batch reads answer as the single ones do, in order, for every list of addresses: all of
them or nothing. -/
theorem js_fetch_all {raw : Js.Raw} {ks : List Pubkey} :
    (∀ l, Js.fetchAllMaybeBackpointer raw ks L = .ok l ↔
      List.Forall₂ (fun k o => Js.fetchMaybeBackpointer raw k L = .ok o) ks l) ∧
    (∀ l, Js.fetchAllBackpointer raw ks L = .ok l ↔
      List.Forall₂ (fun k u => Js.fetchBackpointer raw k L = .ok u) ks l) := by
  have h1 : ∀ (ks : List Pubkey) l, Js.fetchAllMaybeBackpointer raw ks L = .ok l ↔
      List.Forall₂ (fun k o => Js.fetchMaybeBackpointer raw k L = .ok o) ks l := by
    intro ks
    induction ks with
    | nil =>
      intro l
      cases l <;> simp [Js.fetchAllMaybeBackpointer, pure, Except.pure]
    | cons k ks ih =>
      intro l
      unfold Js.fetchAllMaybeBackpointer at ih ⊢
      simp only [List.map_cons, List.mapM_cons, bind_ok_iff, pure_ok_iff]
      constructor
      · rintro ⟨o, ho, t, ht, rfl⟩
        exact .cons ho ((ih t).1 ht)
      · intro h
        cases h with
        | cons ho ht => exact ⟨_, ho, _, (ih _).2 ht, rfl⟩
  refine ⟨h1 ks, ?_⟩
  have h2 : ∀ (os : List (Option Pubkey)) l, os.mapM Js.assertExists = .ok l ↔ os = l.map some := by
    intro os
    induction os with
    | nil => intro l; cases l <;> simp [pure, Except.pure]
    | cons o os ih =>
      intro l
      simp only [List.mapM_cons, bind_ok_iff, pure_ok_iff]
      constructor
      · rintro ⟨u, hu, t, ht, rfl⟩
        cases o with
        | none => cases hu
        | some u' => cases hu; simp [(ih t).1 ht]
      · intro h
        cases l with
        | nil => cases h
        | cons u l =>
          simp only [List.map_cons, List.cons.injEq] at h
          exact ⟨u, by rw [h.1]; rfl, l, (ih l).2 h.2, rfl⟩
  have h3 : ∀ k u, Js.fetchBackpointer raw k L = .ok u ↔
      Js.fetchMaybeBackpointer raw k L = .ok (some u) := by
    intro k u
    unfold Js.fetchBackpointer
    cases Js.fetchMaybeBackpointer raw k L with
    | error e => simp
    | ok o => cases o <;> simp [ok_bind, Js.assertExists]
  intro l
  unfold Js.fetchAllBackpointer
  simp only [bind_ok_iff, h1, h2, h3]
  constructor
  · rintro ⟨os, ho, rfl⟩
    generalize hos : l.map some = os at ho
    induction ho generalizing l with
    | nil => cases l with
      | nil => exact .nil
      | cons _ _ => cases hos
    | cons hk _ ih =>
      cases l with
      | nil => cases hos
      | cons u l =>
        injection hos with e1 e2
        subst e1
        exact .cons hk (ih l e2)
  · intro h
    refine ⟨_, ?_, rfl⟩
    induction h with
    | nil => exact .nil
    | cons hk _ ih => exact .cons hk ih

/-- **C107** Read by address instead of by seeds, a backpointer proves nothing: `fetchBackpointer` does not
look at the owner, so any existing account whose data begins with the 32 bytes of `u`, a token account of
mint `u` for instance, is reported as a backpointer to `u`. -/
theorem js_fetch_by_address_unchecked {raw : Js.Raw} {k u : Pubkey} (hl : (L k).lamports ≠ 0)
    (hd : (raw.of (L k).data).take 32 = u.bytes) : Js.fetchBackpointer raw k L = .ok u := by
  unfold Js.fetchBackpointer
  rw [(fetchMaybeBackpointer_eq (L := L) (raw := raw) (k := k)).2.1 hl u
    (by rw [hd]; exact readKey_some_iff.2 rfl)]
  rfl

end

/-! ## The hypotheses are met -/

namespace Example.Hist.Discover

/-- A node that renders structured data in some way; token accounts begin with their mint. -/
def raw : Js.Raw where
  of | .bytes b => b
     | .token t => t.mint.bytes ++ t.owner.bytes
     | _ => List.replicate 32 0
  bytes _ := rfl

theorem blankB {L : Ledger} {k : Pubkey} (h : (L k).owner = systemId ∧ (L k).data = .bytes []) : Blank L k := h

-- after the wrapped mint has been created: genuine, and the client says so
example : ∃ p dec, Genuine cr W B u p dec tr7 L7 :=
  (js_discovery_strict (raw := raw) s.rB (blankB (by decide +kernel)) fresh.funds hist7).1 (by decide +kernel)
example : Js.fetchBackpointerFromSeeds cr raw W L7 = .ok u := by decide +kernel
example : (L7 B).lamports ≠ 0 ∧ ∃ u p dec, Genuine cr W B u p dec tr7 L7 := by
  rcases backpointer_unforgeable s.rB (blankB (by decide +kernel)) fresh.funds hist7 with h | h
  · exact absurd h (by unfold Blank; decide +kernel)
  · exact h
-- the other pair's mint does not exist: nothing at its backpointer address
example : Js.fetchMaybeBackpointerFromSeeds cr raw W2 L7 = .ok none := by decide +kernel
example : ¬ ∃ p dec, Genuine cr W2 B2 u p dec tr7 L7 := fun h => by
  have := (js_discovery (raw := raw) s2.rB (blankB (by decide +kernel)) fresh.funds hist7).2.1.2
    (by decide +kernel)
  have h' := ((js_discovery (raw := raw) s2.rB (blankB (by decide +kernel)) fresh.funds hist7).1 u).2 h
  rw [this] at h'; cases h'
-- at the start lamports are waiting at the address: the client throws
example : ∃ e, Js.fetchMaybeBackpointerFromSeeds cr raw W L0 = .error e :=
  (js_discovery (raw := raw) s.rB (blankB (by decide +kernel)) fresh.funds
    (.start : History cr (fun _ _ => True) L0 [] L0)).2.2.2 ⟨by decide +kernel, by decide +kernel, by decide +kernel⟩
-- in a batch
example : Js.fetchAllMaybeBackpointer raw [B, B2] L7 = .ok [some u, none] :=
  (js_fetch_all (ks := [B, B2])).1 _ |>.2
    (.cons (by decide +kernel) (.cons (by decide +kernel) .nil))
-- somebody's token account, read as a backpointer
example : Js.fetchBackpointer raw src L7 = .ok u :=
  js_fetch_by_address_unchecked (by decide +kernel) (by decide +kernel)

end Example.Hist.Discover

end TokenWrap
