import Verif.Props.NeverBlocked
import Verif.Props.HistoryExample
import Verif.Props.Metaplex
import Verif.Props.SyncSpl
/-!
# Two wrapped mints of one unwrapped mint, in one history

A concrete history in which an SPL Token mint with Metaplex metadata is wrapped both as Token-2022
(pair `s`) and as SPL Token (pair `s2`), and the metadata is synced to the second pair's Metaplex
account.  Concrete cases for Props/Isolation.lean (C29) and for `syncSpl_never_blocked` (C66).
-/

namespace TokenWrap.Example.Hist.Two

open TokenWrap.Example (ok get get_eq)

/-- With the real JSON format. -/
def env : Env := Serde.serdeEnv Hist.env

def rcp2 : Pubkey := .lit 7

/-- The Metaplex metadata of the unwrapped mint. -/
def uMd : MetaplexMetadata := { TokenWrap.Example.mplMd with mint := u, updateAuthority := issuer }

def L0 : Ledger := fun k =>
  if k ∈ [W2, A2, B2, rcp2] then ⟨200, systemId, .bytes []⟩
  else if k = Xu then ⟨200, metaplexId, .metaplex uMd⟩
  else Hist.L0 k

theorem L0_lamports (k : Pubkey) : (L0 k).lamports ≤ u64Max := by
  unfold L0
  split
  · show 200 ≤ u64Max; decide
  · split
    · show 200 ≤ u64Max; decide
    · exact Hist.L0_lamports k

theorem L0_cases (k : Pubkey) : L0 k = Hist.L0 k ∨ (∀ t, (L0 k).data ≠ .token t) ∧
    (∀ m, (L0 k).data ≠ .mint m) := by
  unfold L0
  split
  · right; simp
  · split
    · right; simp
    · left; rfl

theorem L0_funds : Funds L0 where
  all := by
    intro k
    rcases L0_cases k with h | ⟨h1, h2⟩
    · rw [h]; exact Hist.L0_funds.all k
    · exact ⟨fun t _ h => absurd h (h1 t), fun m _ h => absurd h (h2 m)⟩
  native := by
    intro nm hnm
    refine ⟨(L0 nm).owner, 9, by simp, by simp, ?_, rfl, Hist.solMint, ?_, rfl, by intro e he; cases he⟩
    · revert nm; decide +kernel
    · revert nm; decide +kernel

theorem L0_token {k : Pubkey} {t : TokenAcct} (h : (L0 k).data = .token t) :
    k = src ∨ k = sol := by
  rcases L0_cases k with h1 | ⟨h1, _⟩
  · rw [h1] at h; exact Hist.L0_token h
  · exact absurd h (h1 t)

theorem noHolder {w : Pubkey} (hw : w ≠ u ∧ w ∉ nativeMints) (k : Pubkey) (t : TokenAcct)
    (hd : (L0 k).data = .token t) : t.mint ≠ w := by
  rcases L0_token hd with rfl | rfl
  · have : (L0 src).data = .token (TokenWrap.Example.acct u user 5000 []) := by decide +kernel
    rw [this] at hd; cases hd
    exact fun h => hw.1 h.symm
  · have : (L0 sol).data = .token Hist.solAcct := by decide +kernel
    rw [this] at hd; cases hd
    rintro rfl
    exact hw.2 (by decide +kernel)

/-- Both pairs are fresh. -/
theorem fresh : Fresh s L0 where
  W := by unfold Blank; decide +kernel
  A := by unfold Blank; decide +kernel
  B := by unfold Blank; decide +kernel
  Es := by unfold Blank; decide +kernel
  Et := by unfold Blank; decide +kernel
  noHolder := fun k t _ hd => noHolder (by decide +kernel) k t hd
  funds := L0_funds

theorem fresh2 : Fresh s2 L0 where
  W := by unfold Blank; decide +kernel
  A := by unfold Blank; decide +kernel
  B := by unfold Blank; decide +kernel
  Es := by unfold Blank; decide +kernel
  Et := by unfold Blank; decide +kernel
  noHolder := fun k t _ hd => noHolder (by decide +kernel) k t hd
  funds := L0_funds

theorem rent_pos : ∀ n, 0 < env.rentMin n := fun _ => Nat.lt_of_lt_of_eq (by decide : 0 < 100) rfl

def mintAccs : List Meta := (Build.createMint crateId W B u token2022Id false).accounts
def mintAccs2 : List Meta := (Build.createMint crateId W2 B2 u splTokenId false).accounts
def initIx : TokenIx := .initializeAccount3 rcp W user []
def initIx2 : TokenIx := .initializeAccount3 rcp2 W2 user []
def wrapAccs : List Meta :=
  (Build.wrap crateId rcp W A splTokenId token2022Id src u Es user [] 1000).accounts
def wrapAccs2 : List Meta :=
  (Build.wrap crateId rcp2 W2 A2 splTokenId splTokenId src u Es2 user [] 500).accounts
def syncAccs2 : List Meta :=
  (Build.syncMetadataToSplToken crateId X2 A2 W2 u (some Xu) none).accounts

def L1 := get (ataCreate env A u splTokenId L0)
def L2 := get (ataCreate env A2 u splTokenId L1)
def L3 := get (processInstruction env mintAccs (TokenWrapInstruction.createMint false).pack L2)
def L4 := get (processInstruction env mintAccs2 (TokenWrapInstruction.createMint false).pack L3)
def L5 := get (sysAllocate (fun k => k = rcp) rcp 165 L4)
def L6 := get (sysAssign (fun k => k = rcp) rcp token2022Id L5)
def L7 := get (tokenExec env token2022Id initIx (fun _ => false) L6)
def L8 := get (sysAllocate (fun k => k = rcp2) rcp2 165 L7)
def L9 := get (sysAssign (fun k => k = rcp2) rcp2 splTokenId L8)
def L10 := get (tokenExec env splTokenId initIx2 (fun _ => false) L9)
def L11 := get (processInstruction env wrapAccs (TokenWrapInstruction.wrap 1000).pack L10)
def L12 := get (processInstruction env wrapAccs2 (TokenWrapInstruction.wrap 500).pack L11)
def L13 := get (processInstruction env syncAccs2
  TokenWrapInstruction.syncMetadataToSplToken.pack L12)

variable {ok' : Act → Ledger → Prop}

theorem st1 : Step cr ok' (.createAta env A u splTokenId) L0 L1 :=
  .base (.createAta rfl ⟨by decide, L0_lamports⟩ (get_eq (by decide +kernel)) rent_pos)

theorem L1_lamports (k : Pubkey) : (L1 k).lamports ≤ u64Max := by
  have h := ataCreate_ok (env := env) (wallet := A) (mint := u) (prog := splTokenId) (k := Es)
    (m := TokenWrap.Example.uMint []) (L := L0) (.inl rfl) (by decide +kernel) (by decide +kernel)
    (by decide +kernel) (by decide +kernel) (by decide +kernel) (fun _ => rfl)
  generalize hacc : Account.mk _ _ _ = acc at h
  have h1 : L1 = L0.set Es acc := by unfold L1; rw [h]; rfl
  rw [h1]
  by_cases hk : k = Es
  · subst hk
    rw [← h1]; decide +kernel
  · rw [Ledger.set_ne _ _ hk]; exact L0_lamports k

theorem st2 : Step cr ok' (.createAta env A2 u splTokenId) L1 L2 :=
  .base (.createAta rfl ⟨by decide, L1_lamports⟩ (get_eq (by decide +kernel)) rent_pos)
theorem st3 : Step cr ok' (.tokenWrap env mintAccs (TokenWrapInstruction.createMint false).pack) L2 L3 :=
  .tokenWrap rfl rfl (signs_of (by decide +kernel)) (get_eq (by decide +kernel)) rent_pos
theorem st4 : Step cr ok' (.tokenWrap env mintAccs2 (TokenWrapInstruction.createMint false).pack) L3 L4 :=
  .tokenWrap rfl rfl (signs_of (by decide +kernel)) (get_eq (by decide +kernel)) rent_pos
theorem st5 : Step cr ok' (.allocate rcp 165) L4 L5 :=
  .base (.allocate (.keypair (by decide +kernel)) (get_eq (by decide +kernel)))
theorem st6 : Step cr ok' (.assign rcp token2022Id) L5 L6 :=
  .base (.assign (.keypair (by decide +kernel)) ⟨List.replicate 165 0, by decide +kernel,
    by decide +kernel⟩ (get_eq (by decide +kernel)))
theorem st7 : Step cr ok' (.token env token2022Id initIx (fun _ => false)) L6 L7 :=
  .base (.token (by decide) (by simp) (get_eq (by decide +kernel)) rent_pos)
theorem st8 : Step cr ok' (.allocate rcp2 165) L7 L8 :=
  .base (.allocate (.keypair (by decide +kernel)) (get_eq (by decide +kernel)))
theorem st9 : Step cr ok' (.assign rcp2 splTokenId) L8 L9 :=
  .base (.assign (.keypair (by decide +kernel)) ⟨List.replicate 165 0, by decide +kernel,
    by decide +kernel⟩ (get_eq (by decide +kernel)))
theorem st10 : Step cr ok' (.token env splTokenId initIx2 (fun _ => false)) L9 L10 :=
  .base (.token (by decide) (by simp) (get_eq (by decide +kernel)) rent_pos)
theorem st11 : Step cr ok' (.tokenWrap env wrapAccs (TokenWrapInstruction.wrap 1000).pack) L10 L11 :=
  .tokenWrap rfl rfl (signs_of (by decide +kernel)) (get_eq (by decide +kernel)) rent_pos
theorem st12 : Step cr ok' (.tokenWrap env wrapAccs2 (TokenWrapInstruction.wrap 500).pack) L11 L12 :=
  .tokenWrap rfl rfl (signs_of (by decide +kernel)) (get_eq (by decide +kernel)) rent_pos
theorem st13 : Step cr ok' (.tokenWrap env syncAccs2
    TokenWrapInstruction.syncMetadataToSplToken.pack) L12 L13 :=
  .tokenWrap rfl rfl (signs_of (by decide +kernel)) (get_eq (by decide +kernel)) rent_pos

def tr11 : List Act :=
  [.tokenWrap env wrapAccs (TokenWrapInstruction.wrap 1000).pack,
   .token env splTokenId initIx2 (fun _ => false), .assign rcp2 splTokenId, .allocate rcp2 165,
   .token env token2022Id initIx (fun _ => false), .assign rcp token2022Id, .allocate rcp 165,
   .tokenWrap env mintAccs2 (TokenWrapInstruction.createMint false).pack,
   .tokenWrap env mintAccs (TokenWrapInstruction.createMint false).pack,
   .createAta env A2 u splTokenId, .createAta env A u splTokenId]

theorem hist11 : History cr (fun _ _ => True) L0 tr11 L11 :=
  .step (.step (.step (.step (.step (.step (.step (.step (.step (.step (.step .start
    trivial st1) trivial st2) trivial st3) trivial st4) trivial st5) trivial st6) trivial st7)
    trivial st8) trivial st9) trivial st10) trivial st11

theorem hist12 : History cr (fun _ _ => True) L0
    (.tokenWrap env wrapAccs2 (TokenWrapInstruction.wrap 500).pack :: tr11) L12 :=
  .step hist11 trivial st12

theorem hist13 : History cr (fun _ _ => True) L0
    (.tokenWrap env syncAccs2 TokenWrapInstruction.syncMetadataToSplToken.pack ::
      .tokenWrap env wrapAccs2 (TokenWrapInstruction.wrap 500).pack :: tr11) L13 :=
  .step hist12 trivial st13

-- both pairs have wrapped tokens, each backed by its own escrow
example : supplyOf L13 s.W = 1000 ∧ balanceOf L13 s.Es = 1000 ∧
    supplyOf L13 s2.W = 500 ∧ balanceOf L13 s2.Es = 500 := by decide +kernel

theorem plain : PlainMint splTokenId u 6 L0 :=
  ⟨.inl rfl, by decide +kernel, TokenWrap.Example.uMint [], by decide +kernel, rfl, by
    intro e he; cases he⟩
theorem noPD11 : NoPD u L11 := ((hist11.plain (s := s) fresh.funds plain).2).noPD

-- C29: the Wrap of the second pair, seen from the first
example : supplyOf L12 s.W = supplyOf L11 s.W :=
  (pairs_isolated fresh hist11 rfl (ix := .wrap 500) (accounts := wrapAccs2) (env := env)
    (get_eq (by decide +kernel)) (by decide +kernel)).2.2
example : balanceOf L11 s.Es ≤ balanceOf L12 s.Es :=
  (pairs_isolated_escrow fresh hist11 noPD11.idle rfl rfl rent_pos (ix := .wrap 500)
    (accounts := wrapAccs2) (env := env) (signs_of (by decide +kernel)) (get_eq (by decide +kernel))
    (by decide +kernel)).1

def wMint : Mint :=
  { mintAuthority := some A2, supply := 500, decimals := 6, freezeAuthority := none, exts := [] }

-- C66: the metadata sync to the second pair's Metaplex account, first (create) and again (update)
theorem source {L : Ledger} (h1 : (L u).owner = splTokenId) (h2 : L Xu = ⟨200, metaplexId, .metaplex uMd⟩) :
    ∃ src d, MetadataSource env L u (some Xu) none src ∧ AllParse env src.additional ∧
      IsConverted env src d := by
  obtain ⟨t, ht, _, hd⟩ := metaplex_round_trip_serde Hist.env u uMd rfl
  have := (conversion_ok_iff).1 hd
  exact ⟨t, _, .metaplexPda (.inl h1) (by decide +kernel) (by rw [h2]) (by rw [h2]; exact ht), this.1,
    this.2⟩

example : ∃ L', processInstruction env
      (Build.syncMetadataToSplToken crateId X2 s2.A s2.W s2.u (some Xu) none).accounts
      (Build.syncMetadataToSplToken crateId X2 s2.A s2.W s2.u (some Xu) none).data L12 = .ok L' := by
  obtain ⟨src, d, h1, h2, h3⟩ := source (L := L12) (by decide +kernel) (by decide +kernel)
  refine syncSpl_never_blocked (w := wMint) fresh2 hist12 rfl rfl rfl (by decide +kernel) (by simp)
    (by decide +kernel) h1 h2 h3 (fun _ => rfl) (.inl ?_)
  decide +kernel

example : ∃ L', processInstruction env
      (Build.syncMetadataToSplToken crateId X2 s2.A s2.W s2.u (some Xu) none).accounts
      (Build.syncMetadataToSplToken crateId X2 s2.A s2.W s2.u (some Xu) none).data L13 = .ok L' := by
  obtain ⟨src, d, h1, h2, h3⟩ := source (L := L13) (by decide +kernel) (by decide +kernel)
  refine syncSpl_never_blocked (w := wMint) fresh2 hist13 rfl rfl rfl (by decide +kernel) (by simp)
    (by decide +kernel) h1 h2 h3 (fun _ => rfl) (.inr ?_)
  have h : ∀ X : Ledger, ((TokenWrap.Example.mxAt X X2).any fun md =>
      decide ((X X2).owner = metaplexId ∧ md.updateAuthority = A2 ∧ md.isMutable = true)) = true →
      ∃ md, (X X2).data = .metaplex md ∧ (X X2).owner = metaplexId ∧ md.updateAuthority = A2 ∧
        md.isMutable = true := by
    intro X hX
    unfold TokenWrap.Example.mxAt at hX
    split at hX
    · rename_i md hmd
      exact ⟨md, hmd, by simpa using hX⟩
    · cases hX
  exact h L13 (by decide +kernel)

end TokenWrap.Example.Hist.Two
