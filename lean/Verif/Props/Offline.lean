import Verif.Props.Message
/-!
# Collecting multisig signatures offline with the JavaScript client (C76)
-/

namespace TokenWrap

open TokenWrapInstruction

section
variable {env : Env} {L L' : Ledger} {demoted : List Pubkey} {Sig : Type}

/-- **C76** The message of `multisigOfflineSignWrap` is the Wrap asked for, as the Rust builder makes
it, and needs the signatures of the payer and the listed members, no others. -/
theorem js_multisig_wrap_message {a : Js.MultisigWrapArgs} {msg : Message}
    (h : Js.multisigOfflineSignWrap env a = .ok msg) (hp : a.transferAuthority.isSigner = false)
    (hne : a.multiSigners ≠ []) :
    ∃ E n, associatedTokenAddress env.cr a.wrappedMintAuthority a.unwrappedMint
        a.unwrappedTokenProgram = some E ∧ a.amount = (n : UInt64).toNat ∧
      msg = ⟨a.payer, [.call (Build.wrap crateId a.recipient a.wrappedMint a.wrappedMintAuthority
        a.unwrappedTokenProgram a.wrappedTokenProgram a.unwrappedTokenAccount a.unwrappedMint E
        a.transferAuthority.key a.multiSigners n)]⟩ ∧
      ∀ k, k ∈ requiredSigners msg.payer msg.instructions ↔ k = a.payer ∨ k ∈ a.multiSigners := by
  simp only [Js.multisigOfflineSignWrap, Js.buildWrapIx, Js.wrapIx, bind_ok_iff, okOr_ok_iff,
    pure_ok_iff] at h
  obtain ⟨ix, ⟨E, hE, b, hb, rfl⟩, rfl⟩ := h
  obtain ⟨n, hn, rfl⟩ := encodeU64_ok.1 hb
  have hm : a.multiSigners.isEmpty = false := by
    cases hms : a.multiSigners with
    | nil => exact absurd hms hne
    | cons _ _ => rfl
  refine ⟨E, n, hE, hn, ?_, ?_⟩
  · simp only [Build.wrap, Js.metaOf, hp, Meta.ro, hm]
    rfl
  · intro k
    have hb : (⟨crateId, [Meta.rw a.recipient false, .rw a.wrappedMint false,
         .ro a.wrappedMintAuthority false, .ro a.unwrappedTokenProgram false,
         .ro a.wrappedTokenProgram false, .rw a.unwrappedTokenAccount false, .ro a.unwrappedMint false,
         .rw E false, Js.metaOf a.transferAuthority false] ++
         a.multiSigners.map (fun k => Meta.ro k true), 1 :: u64ToLe n⟩ : Instr) =
        Build.wrap crateId a.recipient a.wrappedMint a.wrappedMintAuthority
          a.unwrappedTokenProgram a.wrappedTokenProgram a.unwrappedTokenAccount a.unwrappedMint E
          a.transferAuthority.key a.multiSigners n := by
      simp only [Build.wrap, Js.metaOf, hp, Meta.ro, hm]
      rfl
    dsimp only
    rw [hb, requiredSigners_call, signs_build_wrap]
    simp [hne]

/-- **C76** The same for `multisigOfflineSignUnwrap`. -/
theorem js_multisig_unwrap_message {a : Js.MultisigUnwrapArgs} {msg : Message}
    (h : Js.multisigOfflineSignUnwrap env a = .ok msg) (hp : a.transferAuthority.isSigner = false)
    (hne : a.multiSigners ≠ []) :
    ∃ E n, associatedTokenAddress env.cr a.wrappedMintAuthority a.unwrappedMint
        a.unwrappedTokenProgram = some E ∧ a.amount = (n : UInt64).toNat ∧
      msg = ⟨a.payer, [.call (Build.unwrap crateId E a.recipient a.wrappedMintAuthority
        a.unwrappedMint a.wrappedTokenProgram a.unwrappedTokenProgram a.wrappedTokenAccount
        a.wrappedMint a.transferAuthority.key a.multiSigners n)]⟩ ∧
      ∀ k, k ∈ requiredSigners msg.payer msg.instructions ↔ k = a.payer ∨ k ∈ a.multiSigners := by
  simp only [Js.multisigOfflineSignUnwrap, Js.buildUnwrapIx, Js.unwrapIx, bind_ok_iff, okOr_ok_iff,
    pure_ok_iff] at h
  obtain ⟨ix, ⟨E, hE, b, hb, rfl⟩, rfl⟩ := h
  obtain ⟨n, hn, rfl⟩ := encodeU64_ok.1 hb
  have hm : a.multiSigners.isEmpty = false := by
    cases hms : a.multiSigners with
    | nil => exact absurd hms hne
    | cons _ _ => rfl
  have hbd : (⟨crateId, [Meta.rw E false, .rw a.recipient false, .ro a.wrappedMintAuthority false,
      .ro a.unwrappedMint false, .ro a.wrappedTokenProgram false, .ro a.unwrappedTokenProgram false,
      .rw a.wrappedTokenAccount false, .rw a.wrappedMint false, Js.metaOf a.transferAuthority false] ++
      a.multiSigners.map (fun k => Meta.ro k true), 2 :: u64ToLe n⟩ : Instr) =
      Build.unwrap crateId E a.recipient a.wrappedMintAuthority a.unwrappedMint a.wrappedTokenProgram
        a.unwrappedTokenProgram a.wrappedTokenAccount a.wrappedMint a.transferAuthority.key
        a.multiSigners n := by
    simp only [Build.unwrap, Js.metaOf, hp, Meta.ro, hm]
    rfl
  refine ⟨E, n, hE, hn, by rw [hbd], ?_⟩
  intro k
  dsimp only
  rw [hbd, requiredSigners_call, signs_build_unwrap]
  simp [hne]

/-! ## Signing in parts -/

theorem eq_map_of_keys {α β : Type} {l : List (α × β)} {ks : List α} {f : α → β}
    (hk : l.map (·.1) = ks) (hf : ∀ k s, (k, s) ∈ l → s = f k) : l = ks.map fun k => (k, f k) := by
  subst hk
  rw [List.map_map]
  refine (List.map_id l).symm.trans (List.map_congr_left fun e he => ?_)
  obtain ⟨k, s⟩ := e
  simp only [Function.comp, id]
  rw [hf k s he]

/-- The copies the signers send back: each signed, with some of the keys, the transaction compiled from
the message. -/
def signedCopies (encode : Message → Bytes) (sign : Pubkey → Bytes → Sig) (msg : Message)
    (groups : List (List Pubkey)) : List (Js.SignedTx Sig) :=
  groups.map fun g => Js.signWith sign g (Js.unsigned encode msg)

theorem signWith_keys (encode : Message → Bytes) (sign : Pubkey → Bytes → Sig) (msg : Message)
    (g : List Pubkey) : (Js.signWith sign g (Js.unsigned encode msg)).signatures.map (·.1) =
      (requiredSigners msg.payer msg.instructions).dedup := by
  simp only [Js.signWith, Js.unsigned, List.map_map]
  refine (List.map_congr_left fun k _ => ?_).trans (List.map_id _)
  simp only [Function.comp]
  split <;> rfl

theorem signedBy_copies {encode : Message → Bytes} {sign : Pubkey → Bytes → Sig} {msg : Message}
    {groups : List (List Pubkey)} {k : Pubkey} {s : Sig} :
    SignedBy (signedCopies encode sign msg groups) k s ↔
      k ∈ requiredSigners msg.payer msg.instructions ∧ (∃ g ∈ groups, k ∈ g) ∧ s = sign k (encode msg) := by
  simp only [SignedBy, signedCopies, List.mem_map, Js.signWith, Js.unsigned]
  constructor
  · rintro ⟨t, ⟨g, hg, rfl⟩, h⟩
    simp only [List.map_map, List.mem_map, List.mem_dedup, Function.comp] at h
    obtain ⟨k', hk', h⟩ := h
    split at h
    · rename_i hc
      simp only [Prod.mk.injEq, Option.some.injEq] at h
      obtain ⟨rfl, rfl⟩ := h
      exact ⟨hk', ⟨g, hg, List.contains_iff_mem.1 hc⟩, rfl⟩
    · simp at h
  · rintro ⟨hk, ⟨g, hg, hkg⟩, rfl⟩
    refine ⟨_, ⟨g, hg, rfl⟩, ?_⟩
    simp only [List.map_map, List.mem_map, List.mem_dedup, Function.comp]
    exact ⟨k, hk, by rw [if_pos (List.contains_iff_mem.2 hkg)]⟩

/-- **C76** However the required signers split up and in whatever order their copies arrive: once
everybody has signed some copy, combining gives the transaction signed by exactly the required signers,
each with their own signature of the message. -/
theorem js_offline_complete {encode : Message → Bytes} {sign : Pubkey → Bytes → Sig} {msg : Message}
    {groups : List (List Pubkey)} (hne : groups ≠ [])
    (hall : ∀ k ∈ requiredSigners msg.payer msg.instructions, ∃ g ∈ groups, k ∈ g) :
    Js.combinedMultisigTx (signedCopies encode sign msg groups) =
      .ok (encode msg, (requiredSigners msg.payer msg.instructions).dedup.map
        fun k => (k, sign k (encode msg))) := by
  have hmsg : ∀ t ∈ signedCopies encode sign msg groups, t.messageBytes = encode msg ∧
      t.signatures.map (·.1) = (requiredSigners msg.payer msg.instructions).dedup := by
    intro t ht
    simp only [signedCopies, List.mem_map] at ht
    obtain ⟨g, _, rfl⟩ := ht
    exact ⟨rfl, signWith_keys _ _ _ _⟩
  have hok : ∃ r, Js.combinedMultisigTx (signedCopies encode sign msg groups) = .ok r := by
    refine (js_combine_iff _).2 ⟨by simpa [signedCopies] using hne, ?_, ?_⟩
    · intro t ht t' ht'
      rw [(hmsg t ht).1, (hmsg t' ht').1]
    · intro first hf k hk
      rw [(hmsg first (List.mem_of_mem_head? hf)).2, List.mem_dedup] at hk
      exact ⟨_, signedBy_copies.2 ⟨hk, hall k hk, rfl⟩⟩
  obtain ⟨⟨m, sigs⟩, hr⟩ := hok
  obtain ⟨h1, h2, h3, h4⟩ := js_combine_sound hr
  rw [hr]
  obtain ⟨first, hf⟩ : ∃ f, (signedCopies encode sign msg groups).head? = some f := by
    cases hc : signedCopies encode sign msg groups with
    | nil => simp [signedCopies] at hc; exact absurd hc hne
    | cons f _ => exact ⟨f, rfl⟩
  have hfm := List.mem_of_mem_head? (Option.mem_def.2 hf)
  have hm : m = encode msg := by rw [← h1 first hfm, (hmsg first hfm).1]
  obtain ⟨_, hkeys⟩ := h4 first hf (by rw [(hmsg first hfm).2]; exact List.nodup_dedup _)
  have hk : sigs.map (·.1) = (requiredSigners msg.payer msg.instructions).dedup := by
    rw [hkeys ?_, (hmsg first hfm).2]
    intro t ht k hk
    rw [(hmsg t ht).2] at hk
    rwa [(hmsg first hfm).2]
  rw [hm, eq_map_of_keys (f := fun k => sign k (encode msg)) hk
    fun k s hs => (signedBy_copies.1 (h2 k s hs)).2.2]

/-- **C76** As long as a required signer has not signed, combining refuses. -/
theorem js_offline_incomplete {encode : Message → Bytes} {sign : Pubkey → Bytes → Sig} {msg : Message}
    {groups : List (List Pubkey)} (hne : groups ≠ []) {k : Pubkey}
    (hk : k ∈ requiredSigners msg.payer msg.instructions) (hmiss : ∀ g ∈ groups, k ∉ g) :
    Js.combinedMultisigTx (signedCopies encode sign msg groups) = .error .missingSignatures := by
  have hno : ¬ ∃ r, Js.combinedMultisigTx (signedCopies encode sign msg groups) = .ok r := by
    intro h
    obtain ⟨h1, _, h3⟩ := (js_combine_iff _).1 h
    obtain ⟨first, hf⟩ : ∃ f, (signedCopies encode sign msg groups).head? = some f := by
      cases hc : signedCopies encode sign msg groups with
      | nil => exact absurd hc h1
      | cons f _ => exact ⟨f, rfl⟩
    have hfm := List.mem_of_mem_head? (Option.mem_def.2 hf)
    simp only [signedCopies, List.mem_map] at hfm
    obtain ⟨g, hg, hgf⟩ := hfm
    obtain ⟨s, hs⟩ := h3 first hf k (by rw [← hgf, signWith_keys, List.mem_dedup]; exact hk)
    obtain ⟨_, ⟨g', hg', hkg'⟩, _⟩ := signedBy_copies.1 hs
    exact hmiss g' hg' hkg'
  have hbytes : ∀ t ∈ signedCopies encode sign msg groups, t.messageBytes = encode msg := by
    intro t ht
    simp only [signedCopies, List.mem_map] at ht
    obtain ⟨g, _, rfl⟩ := ht
    rfl
  generalize hc : signedCopies encode sign msg groups = txs at hno hbytes ⊢
  cases txs with
  | nil => simp [signedCopies] at hc; exact absurd hc hne
  | cons first rest =>
    have hb : ∃ b, Js.messageBytesEqual (first :: rest) = .ok b := by
      cases rest <;> exact ⟨_, rfl⟩
    obtain ⟨b, hb⟩ := hb
    have hbt : b = true := (messageBytesEqual_ok hb).2.2 fun t ht t' ht' => by
      rw [hbytes t ht, hbytes t' ht']
    subst hbt
    unfold Js.combinedMultisigTx at hno ⊢
    rw [hb, ok_bind] at hno ⊢
    simp only [require_true, ok_bind] at hno ⊢
    unfold Js.combineSignatures at hno ⊢
    dsimp only at hno ⊢
    split at hno
    · rename_i hif
      rw [if_pos hif]; rfl
    · exact absurd ⟨_, rfl⟩ hno

/-- **C76** The whole offline flow: where m members of a multisig can wrap, the client makes the
message; once the payer and those members have signed their copies, in any split and order, the
combined transaction carries every signature the message needs; and the message does what the Wrap
does. -/
theorem js_multisig_wrap_end_to_end {a : Js.MultisigWrapArgs} {E : Pubkey} {n : UInt64} {fee : Nat}
    {s d r : TokenAcct} {m w : Mint} {encode : Message → Bytes} {sign : Pubkey → Bytes → Sig}
    {groups : List (List Pubkey)}
    (hid : env.programId = crateId) (hz : n ≠ 0) (hrej : ∀ p ix sg L, env.reject p ix sg L = none)
    (hn : a.amount = n.toNat) (hp : a.transferAuthority.isSigner = false) (hne : a.multiSigners ≠ [])
    (c : CanWrap env L a.recipient a.wrappedMint a.wrappedMintAuthority a.unwrappedTokenProgram
      a.wrappedTokenProgram a.unwrappedTokenAccount a.unwrappedMint E a.transferAuthority.key
      a.multiSigners n.toNat fee s d r m w)
    (hw : ∀ k ∈ [a.recipient, a.wrappedMint, a.unwrappedTokenAccount, E], k ∉ demoted)
    (hpay : ∃ g ∈ groups, a.payer ∈ g) (hmem : ∀ k ∈ a.multiSigners, ∃ g ∈ groups, k ∈ g) :
    ∃ msg L' sigs, Js.multisigOfflineSignWrap env a = .ok msg ∧
      Js.combinedMultisigTx (signedCopies encode sign msg groups) = .ok (encode msg, sigs) ∧
      (∀ k, k ∈ requiredSigners msg.payer msg.instructions ↔ (k, sign k (encode msg)) ∈ sigs) ∧
      msg.run env demoted L = .ok L' := by
  have hmsg : ∃ msg, Js.multisigOfflineSignWrap env a = .ok msg := by
    unfold Js.multisigOfflineSignWrap Js.buildWrapIx Js.wrapIx
    rw [c.addrE, okOr_some, ok_bind, hn, encodeU64_eq, ok_bind]
    exact ⟨_, rfl⟩
  obtain ⟨msg, hmsg⟩ := hmsg
  obtain ⟨E', n', hE', hn', hm, hreq⟩ := js_multisig_wrap_message hmsg hp hne
  have hEE : E' = E := Option.some.inj (hE'.symm.trans c.addrE)
  have hnn : n' = n := by
    rw [hn'] at hn
    exact UInt64.toNat_inj.1 (by exact_mod_cast hn)
  subst hEE; subst hnn
  have hg : groups ≠ [] := by
    rintro rfl
    obtain ⟨g, hg, _⟩ := hpay
    cases hg
  have hcomb := js_offline_complete (encode := encode) (sign := sign) (msg := msg) (groups := groups) hg
    (fun k hk => ((hreq k).1 hk).elim (fun h => h ▸ hpay) (hmem k))
  obtain ⟨L', hL'⟩ := wrap_succeeds hid hz hrej c
  refine ⟨msg, L', _, hmsg, hcomb, ?_, ?_⟩
  · intro k
    simp only [List.mem_map, List.mem_dedup, Prod.mk.injEq]
    exact ⟨fun h => ⟨k, h, rfl, rfl⟩, fun ⟨k', h, e, _⟩ => e ▸ h⟩
  · rw [hm]
    exact message_wrap hw hL'

/-- **C76** The whole offline flow of an unwrap, likewise. -/
theorem js_multisig_unwrap_end_to_end {a : Js.MultisigUnwrapArgs} {E : Pubkey} {n : UInt64} {fee : Nat}
    {e d h : TokenAcct} {m w : Mint} {encode : Message → Bytes} {sign : Pubkey → Bytes → Sig}
    {groups : List (List Pubkey)}
    (hid : env.programId = crateId) (hz : n ≠ 0) (hrej : ∀ p ix sg L, env.reject p ix sg L = none)
    (hn : a.amount = n.toNat) (hp : a.transferAuthority.isSigner = false) (hne : a.multiSigners ≠ [])
    (c : CanUnwrap env L E a.recipient a.wrappedMintAuthority a.unwrappedMint a.wrappedTokenProgram
      a.unwrappedTokenProgram a.wrappedTokenAccount a.wrappedMint a.transferAuthority.key
      a.multiSigners n.toNat fee e d h m w)
    (hw : ∀ k ∈ [E, a.recipient, a.wrappedTokenAccount, a.wrappedMint], k ∉ demoted)
    (hpay : ∃ g ∈ groups, a.payer ∈ g) (hmem : ∀ k ∈ a.multiSigners, ∃ g ∈ groups, k ∈ g) :
    ∃ msg L' sigs, Js.multisigOfflineSignUnwrap env a = .ok msg ∧
      Js.combinedMultisigTx (signedCopies encode sign msg groups) = .ok (encode msg, sigs) ∧
      (∀ k, k ∈ requiredSigners msg.payer msg.instructions ↔ (k, sign k (encode msg)) ∈ sigs) ∧
      msg.run env demoted L = .ok L' := by
  have hmsg : ∃ msg, Js.multisigOfflineSignUnwrap env a = .ok msg := by
    unfold Js.multisigOfflineSignUnwrap Js.buildUnwrapIx Js.unwrapIx
    rw [c.addrE, okOr_some, ok_bind, hn, encodeU64_eq, ok_bind]
    exact ⟨_, rfl⟩
  obtain ⟨msg, hmsg⟩ := hmsg
  obtain ⟨E', n', hE', hn', hm, hreq⟩ := js_multisig_unwrap_message hmsg hp hne
  have hEE : E' = E := Option.some.inj (hE'.symm.trans c.addrE)
  have hnn : n' = n := by
    rw [hn'] at hn
    exact UInt64.toNat_inj.1 (by exact_mod_cast hn)
  subst hEE; subst hnn
  have hg : groups ≠ [] := by
    rintro rfl
    obtain ⟨g, hg, _⟩ := hpay
    cases hg
  have hcomb := js_offline_complete (encode := encode) (sign := sign) (msg := msg) (groups := groups) hg
    (fun k hk => ((hreq k).1 hk).elim (fun h => h ▸ hpay) (hmem k))
  obtain ⟨L', hL'⟩ := unwrap_succeeds hid hz hrej c
  refine ⟨msg, L', _, hmsg, hcomb, ?_, ?_⟩
  · intro k
    simp only [List.mem_map, List.mem_dedup, Prod.mk.injEq]
    exact ⟨fun h => ⟨k, h, rfl, rfl⟩, fun ⟨k', h, e, _⟩ => e ▸ h⟩
  · rw [hm]
    exact message_unwrap hw hL'

end

/-! ## Concrete instances -/

namespace Example.Offline

open TokenWrap.Example

/-- A two-of-three multisig of Token-2022, owner of the tokens. -/
def msKey : Pubkey := .lit 40
def m1 : Pubkey := .lit 41
def m2 : Pubkey := .lit 42
def m3 : Pubkey := .lit 43
def Lms : Ledger :=
  (L0.set msKey ⟨200, token2022Id, .multisig ⟨2, [m1, m2, m3]⟩⟩).set src
    ⟨200, token2022Id, .token (acct u msKey 5000 [.transferFeeAmount])⟩

def msArgs : Js.MultisigWrapArgs :=
  { payer := user, unwrappedTokenAccount := src, wrappedTokenProgram := splTokenId, amount := 1000
    wrappedMint := W, wrappedMintAuthority := A, transferAuthority := ⟨msKey, false⟩
    unwrappedMint := u, recipient := rcp, unwrappedTokenProgram := token2022Id
    multiSigners := [m1, m3] }

/-- The hypotheses of the whole flow are met: the payer and one member sign one copy, the other member
another; the recipient, mint, source and escrow are not demoted. -/
theorem canWrap : CanWrap env Lms rcp W A token2022Id splTokenId src u E msKey [m1, m3] 1000 10
    (acct u msKey 5000 [.transferFeeAmount]) (acct u A 10 goodExts) (acct W user 10 [])
    (uMint [.transferFeeConfig feeCfg]) (wMint 10) := by
  refine ⟨?_, ?_, ?_, ?_, ?_, ?_, ?_, ?_⟩
  · constructor <;> first
      | decide +kernel
      | exact .inr (.inr ⟨by decide, by decide⟩)
      | exact .inr ⟨⟨2, [m1, m2, m3]⟩, by decide +kernel, by decide +kernel, by decide, by decide +kernel⟩
  all_goals decide +kernel

example : ∃ msg L' sigs, Js.multisigOfflineSignWrap env msArgs = .ok msg ∧
    Js.combinedMultisigTx (signedCopies (fun _ => [7]) (fun k b => (k, b)) msg [[user, m1], [m3]]) =
      .ok ([7], sigs) ∧
    (∀ k, k ∈ requiredSigners msg.payer msg.instructions ↔ (k, (k, [7])) ∈ sigs) ∧
    msg.run env [crateId, systemId, token2022Id, splTokenId] Lms = .ok L' :=
  js_multisig_wrap_end_to_end (a := msArgs) (n := 1000) (E := E) rfl (by decide) (fun _ _ _ _ => rfl) rfl
    rfl (by decide) canWrap (by decide +kernel) ⟨[user, m1], by simp, by simp [msArgs]⟩
    (by simp [msArgs])

/-- The same for an unwrap: the wrapped tokens belong to a multisig of SPL Token. -/
def Lmsu : Ledger :=
  (L0.set msKey ⟨200, splTokenId, .multisig ⟨2, [m1, m2, m3]⟩⟩).set rcp
    ⟨200, splTokenId, .token (acct W msKey 10 [])⟩

def msuArgs : Js.MultisigUnwrapArgs :=
  { payer := user, wrappedTokenAccount := rcp, wrappedTokenProgram := splTokenId, amount := 7
    wrappedMint := W, wrappedMintAuthority := A, transferAuthority := ⟨msKey, false⟩
    unwrappedMint := u, recipient := src, unwrappedTokenProgram := token2022Id
    multiSigners := [m1, m3] }

theorem canUnwrap : CanUnwrap env Lmsu E src A u splTokenId token2022Id rcp W msKey [m1, m3] 7 1
    (acct u A 10 goodExts) (acct u user 5000 [.transferFeeAmount]) (acct W msKey 10 [])
    (uMint [.transferFeeConfig feeCfg]) (wMint 10) := by
  constructor <;> first
    | decide +kernel
    | exact .inr ⟨⟨2, [m1, m2, m3]⟩, by decide +kernel, by decide +kernel, by decide, by decide +kernel⟩
    | exact .inr (.inr ⟨by decide, by decide⟩)

example : ∃ msg L' sigs, Js.multisigOfflineSignUnwrap env msuArgs = .ok msg ∧
    Js.combinedMultisigTx (signedCopies (fun _ => [7]) (fun k b => (k, b)) msg [[m1], [m3], [user]]) =
      .ok ([7], sigs) ∧
    (∀ k, k ∈ requiredSigners msg.payer msg.instructions ↔ (k, (k, [7])) ∈ sigs) ∧
    msg.run env [crateId, systemId, token2022Id, splTokenId] Lmsu = .ok L' :=
  js_multisig_unwrap_end_to_end (a := msuArgs) (n := 7) (E := E) rfl (by decide) (fun _ _ _ _ => rfl) rfl
    rfl (by decide) canUnwrap (by decide +kernel) ⟨[user], by simp, by simp [msuArgs]⟩
    (by simp [msuArgs])

end Example.Offline

end TokenWrap
