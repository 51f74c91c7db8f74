import Verif.JsExample
import Verif.Props.Js
import Verif.Props.ExactSync
import Verif.Props.Journey
import Verif.Props.MetaplexTable
/-!
# The published sync scripts work (C88)
-/

namespace TokenWrap

open TokenWrapInstruction

section
variable {env : Env}

/-- **C88** `sync-spl-to-token2022.ts` works: for every unwrapped mint whose metadata is in its Metaplex
account (an SPL Token mint, or a Token-2022 mint without metadata pointer) and a wrapped Token-2022
mint as CreateMint and earlier syncs leave it, the one transaction succeeds, the wrapped mint shows the
source's metadata afterwards, and nothing else changed. -/
theorem sync_to_token2022_example_works {L : Ledger} {u W A X : Pubkey} {m : Mint} {xm : MetaplexMetadata}
    (hid : env.programId = crateId) (hord : FairOrder env) (hacc : AcceptsMetadata env)
    (hW : wrappedMintAddress env.cr u token2022Id = some W) (hA : authorityAddress env.cr W = some A)
    (hX : metaplexPda env.cr u = some X)
    (hu : (L u).owner = splTokenId ∨ HasPointer L u none) (hXo : (L X).owner = metaplexId)
    (hXd : (L X).data = .metaplex xm) (hXk : xm.key = 4)
    (wo : (L W).owner = token2022Id) (wd : (L W).data = .mint m) (wa : m.mintAuthority = some A)
    (wp : m.metadataPointer?.isSome = true)
    (wm : ∀ md, m.tokenMetadata? = some md →
      md.updateAuthority = some A ∧ (md.additional.map (·.1)).Nodup) :
    ∃ L' m' md' src, Js.syncToToken2022Example env u L = some L' ∧ OnlyChanged [W] L L' ∧
      (L' W).data = .mint m' ∧ m'.tokenMetadata? = some md' ∧ IsToken2022Copy env u xm src ∧
      SameMetadata md' src := by
  obtain ⟨src, hcopy, his⟩ := token2022_copy_total env u xm hXk
  have hs : MetadataSource env L u (some X) none src := .metaplexPda hu hX hXo (by rw [hXd]; exact hcopy)
  obtain ⟨L', h⟩ := sync22_succeeds hid hord hacc (by simp) hW hA hs wo wd wa wp wm
  have h' := (js_sync_complete (d := u)).1 h
  have hp : processInstruction env (Js.sync22Ix crateId W A u none (some X) none).accounts
      syncMetadataToToken2022.pack L = .ok L' := h'
  obtain ⟨W', A', u', t', rest, src', m', md', e1, _, e3, e4, e5, e6⟩ := sync22_equals_source hord hp
  simp only [Js.sync22Ix, List.cons.injEq] at e1
  obtain ⟨rfl, rfl, rfl, rfl, rfl⟩ := e1
  have es : src' = src := e3.unique hs
  subst es
  obtain ⟨W', A', rest', _, _, _, e7, _, e8, _⟩ := sync22_changes_only_metadata hp
  simp only [Js.sync22Ix, List.cons.injEq] at e7
  obtain ⟨rfl, _, _⟩ := e7
  refine ⟨L', m', md', _, ?_, ?_, e4, e5, his, e6 ?_⟩
  · unfold Js.syncToToken2022Example
    simp only [Option.bind_eq_bind, hX, Option.bind_some, (js_addresses env.cr u W token2022Id).1, hW,
      (js_addresses env.cr u W token2022Id).2.1, hA]
    exact toOption_some.2 h'
  · exact e8
  · intro m1 md h1 h2
    rw [show (Meta.rw W false).key = W from rfl, wd] at h1; cases h1
    exact (wm md h2).2

/-- **C88** `sync-token2022-to-spl.ts` works: for every unwrapped Token-2022 mint with metadata in the
mint (well-formed, so that it can be converted to `d`) and a wrapped SPL Token mint whose authority
can pay for the Metaplex account or already controls it, the one transaction succeeds and the Metaplex
account of the wrapped mint shows the data. -/
theorem sync_to_spl_example_works {L : Ledger} {u W A X : Pubkey} {um w : Mint} {src : TokenMetadata}
    {d : DataV2} (hid : env.programId = crateId)
    (hW : wrappedMintAddress env.cr u splTokenId = some W) (hA : authorityAddress env.cr W = some A)
    (hX : metaplexPda env.cr W = some X)
    (hu : HasPointer L u (some (some u))) (ud : (L u).data = .mint um) (us : um.tokenMetadata? = some src)
    (hap : AllParse env src.additional) (hc : IsConverted env src d)
    (hrej : ∀ s, env.mplReject s X d L = none)
    (wo : (L W).owner = splTokenId) (wd : (L W).data = .mint w) (wa : w.mintAuthority = some A)
    (hX' : ((L X).data = .bytes [] ∧ (L X).owner = systemId ∧ (L A).owner = systemId ∧
        env.mplCost (L X).lamports ≤ (L A).lamports) ∨
      ∃ md, (L X).data = .metaplex md ∧ (L X).owner = metaplexId ∧ md.updateAuthority = A ∧
        md.isMutable = true) :
    ∃ L' md', Js.syncToSplExample env u L = some L' ∧ OnlyChanged [X, A] L L' ∧
      (L' X).owner = metaplexId ∧ (L' X).data = .metaplex md' ∧ ShowsData env md' d := by
  have hs : MetadataSource env L u none none src := .self hu ud us
  obtain ⟨L', h⟩ := syncSpl_succeeds hid (by simp) hW hA hX hs hap hc hrej wo wd wa hX'
  have h' := js_sync_complete.2 h
  have hp : processInstruction env (Js.syncSplIx crateId X A W u none none none none none).accounts
      syncMetadataToSplToken.pack L = .ok L' := h'
  obtain ⟨X', A', W', u', mp, sys, rent, rest, src', d', md', e1, _, _, _, e3, e4, e5, e6, e7, e8⟩ :=
    syncSpl_writes hp
  simp only [Js.syncSplIx, List.cons.injEq] at e1
  obtain ⟨rfl, rfl, rfl, rfl, rfl, rfl, rfl, rfl⟩ := e1
  have es : src' = src := e3.unique hs
  subst es
  have ed : d' = d := Except.ok.inj ((conversion_ok_iff.2 ⟨hap, e4⟩).symm.trans (conversion_ok_iff.2 ⟨hap, hc⟩))
  subst ed
  refine ⟨L', md', ?_, ?_, e5, e6, e7⟩
  · unfold Js.syncToSplExample
    simp only [Option.bind_eq_bind, (js_addresses env.cr u W splTokenId).1, hW, Option.bind_some, hX,
      (js_addresses env.cr u W splTokenId).2.1, hA]
    exact toOption_some.2 h'
  · intro k hk
    rcases e8 with ⟨_, _, _, _, _, h9⟩ | ⟨_, _, _, _, _, h9, _⟩
    · exact h9 k (by simp only [List.mem_cons, not_or, List.not_mem_nil, not_false_eq_true, and_true] at hk ⊢; exact hk.1)
    · exact h9 k hk

/-- **C88** The script names no source account, so it cannot work for a mint whose metadata pointer
names another account. -/
theorem sync_to_spl_example_fails_elsewhere {L : Ledger} {u k : Pubkey}
    (hu : HasPointer L u (some (some k))) (hne : k ≠ u) (hk : k ≠ crateId) :
    Js.syncToSplExample env u L = none := by
  rw [← Option.not_isSome_iff_eq_none, Option.isSome_iff_exists]
  rintro ⟨L', h⟩
  unfold Js.syncToSplExample at h
  simp only [Option.bind_eq_bind, Option.bind_eq_some_iff, toOption_some] at h
  obtain ⟨W, _, X, _, A, _, h⟩ := h
  have hp : processInstruction env (Js.syncSplIx crateId X A W u none none none none none).accounts
      syncMetadataToSplToken.pack L = .ok L' := h
  obtain ⟨X', A', W', u', mp, sys, rent, rest, src', d', md', e1, _, _, _, e3, _⟩ := syncSpl_writes hp
  simp only [Js.syncSplIx, List.cons.injEq] at e1
  obtain ⟨rfl, rfl, rfl, rfl, rfl, rfl, rfl, rfl⟩ := e1
  obtain ⟨ho, m, hm, hpm⟩ := hu
  generalize hsk : Option.map _ _ = sk at e3
  generalize hok : Option.map _ _ = ok at e3
  have hsk : sk = some crateId := by rw [← hsk]; rfl
  cases e3 with
  | metaplexPda h1 _ _ _ =>
    rcases h1 with h1 | h1
    · rw [show (Meta.ro u false).key = u from rfl, ho] at h1; exact absurd h1 (by decide)
    · have := h1.mint hm; rw [hpm] at this; cases this
  | self h1 _ _ =>
    have := h1.mint hm; rw [hpm] at this
    exact hne (Option.some.inj (Option.some.inj this))
  | pointed h1 _ _ _ =>
    have := h1.mint hm; rw [hpm] at this
    cases Option.some.inj (Option.some.inj this)
    exact hk (Option.some.inj hsk)
  | external h1 _ _ _ _ _ =>
    have := h1.mint hm; rw [hpm] at this
    cases Option.some.inj (Option.some.inj this)
    exact hk (Option.some.inj hsk)

end

namespace Example.Journey

/-- An SPL Token mint with Metaplex metadata and its wrapped Token-2022 mint. -/
def Xu : Pubkey := (metaplexPda toyCrypto u).getD default
def LtoT22 : Ledger := fun k =>
  if k = u then ⟨200, splTokenId, .mint (uMint [])⟩
  else if k = Xu then ⟨200, metaplexId, .metaplex mplMd⟩
  else if k = Ws then ⟨200, token2022Id, .mint (w22Mint [.tokenMetadata oldMd])⟩
  else Account.empty

example : ∃ L' m' md' src, Js.syncToToken2022Example env u LtoT22 = some L' ∧ OnlyChanged [Ws] LtoT22 L' ∧
    (L' Ws).data = .mint m' ∧ m'.tokenMetadata? = some md' ∧ IsToken2022Copy env u mplMd src ∧
    SameMetadata md' src :=
  sync_to_token2022_example_works (A := As) (X := Xu) (m := w22Mint [.tokenMetadata oldMd]) rfl
    (fun l => List.Perm.refl l) (fun _ _ _ _ => rfl)
    (by decide +kernel) (by decide +kernel) (by decide +kernel) (.inl (by decide +kernel))
    (by decide +kernel) (by decide +kernel) rfl (by decide +kernel) (by decide +kernel)
    (by decide +kernel) (by decide +kernel) (by
      have : (w22Mint [.tokenMetadata oldMd]).tokenMetadata? = some oldMd := by decide +kernel
      rw [this]; rintro md ⟨⟩; exact ⟨rfl, by decide +kernel⟩)

example : ∃ L' md', Js.syncToSplExample env u Lspl = some L' ∧ OnlyChanged [X, A] Lspl L' ∧
    (L' X).owner = metaplexId ∧ (L' X).data = .metaplex md' ∧ ShowsData env md'
      ⟨"Coin", "C", "x", 0, none, none, none⟩ :=
  have hp : AllParse env someMd.additional := by
    intro k v h
    simp only [someMd, List.mem_cons, Prod.mk.injEq, List.not_mem_nil, or_false] at h
    rcases h with ⟨rfl, rfl⟩ | ⟨rfl, rfl⟩ | ⟨rfl, rfl⟩ <;> decide
  sync_to_spl_example_works (W := W) (src := someMd) (w := wMint 10)
    (um := uMint [.metadataPointer none (some u), .tokenMetadata someMd]) rfl
    (by decide +kernel) (by decide +kernel) (by decide +kernel)
    ⟨by decide +kernel, uMint [.metadataPointer none (some u), .tokenMetadata someMd], by decide +kernel, by decide +kernel⟩
    (by decide +kernel) (by decide +kernel) hp (conversion_ok_iff.1 (by decide +kernel)).2
    (fun _ => rfl) (by decide +kernel) (by decide +kernel) (by decide +kernel)
    (.inl (by decide +kernel))

example : Js.syncToSplExample env u Lext = none :=
  sync_to_spl_example_fails_elsewhere (k := src)
    ⟨by decide +kernel, uMint [.metadataPointer none (some src)], by decide +kernel, by decide +kernel⟩
    (by decide +kernel) (by decide +kernel)

end Example.Journey

end TokenWrap
