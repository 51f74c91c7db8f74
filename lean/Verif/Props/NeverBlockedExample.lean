import Verif.Props.NeverBlocked
import Verif.Props.HistoryExample
/-!
# Concrete cases for Props/NeverBlocked.lean

First the history of Props/HistoryExample.lean; then one in which an escrow becomes stuck: the
unwrapped Token-2022 mint is closed after the escrow was created and re-created with a transfer fee.
-/

namespace TokenWrap.Example.Hist

open TokenWrap.Example (ok get get_eq)

theorem user_signs : CanSign cr user := .keypair (by decide +kernel)

theorem hist1 : History cr (fun _ _ => True) L0 [.createAta env A u splTokenId] L1 :=
  .step .start trivial st1

-- creation, after somebody already created the escrow
example (idem : Bool) : ∃ ixs L', cliCreateMint env user s.u s.wp idem L1 = .ok ixs ∧
    runClient env ixs L1 = .ok L' :=
  creation_never_blocked (um := TokenWrap.Example.uMint []) idem fresh hist1 rfl rfl
    (fun _ _ _ => rfl) (by have : (L1 s.W).data = .bytes [] := by decide +kernel
                           intro m; rw [this]; simp)
    (by decide +kernel) (by decide +kernel) user_signs (by decide +kernel) (by decide +kernel)

/-- The wrapped mint while nothing is wrapped. -/
def wMint0 : Mint :=
  { mintAuthority := some A, supply := 0, decimals := 6, freezeAuthority := none
    exts := defaultExts A W }

-- and again at the end
example : ∃ m, (L7 s.W).data = .mint m ∧ processInstruction env
      (Build.createMint crateId s.W s.B s.u s.wp true).accounts
      (Build.createMint crateId s.W s.B s.u s.wp true).data L7 = .ok L7 := by
  have hm : (L7 s.W).data = .mint { wMint0 with supply := 1000 } := by decide +kernel
  exact ⟨_, hm, creation_idempotent_always fresh hist7 rfl rfl hm (by decide +kernel)⟩

-- the escrow: creatable at the start, in place afterwards
example := escrow_never_blocked (env := env) (s := s) (um := TokenWrap.Example.uMint [])
  (ok := fun _ _ => True) fresh .start rfl (.inl rfl) (by decide +kernel) (by decide +kernel)
  (fun _ => rfl)
example : Blank L0 (s.escrowFor splTokenId) := by unfold Blank; decide +kernel

/-- Somebody sends 30 lamports to the escrow address, and the user receives 500. -/
def Ldust : Ledger := (L0.setLamports (s.escrowFor splTokenId) 30).setLamports user 500
theorem histDust : History cr (fun _ _ => True) L0 [.lamports] Ldust :=
  .step .start trivial (.base (.lamports
    (fun k => by
      unfold Ldust
      simp only [Ledger.setLamports_apply]
      split
      · rename_i hk; subst hk; exact ⟨by decide +kernel, by decide +kernel⟩
      · split
        · rename_i hk; subst hk; exact ⟨rfl, rfl⟩
        · exact ⟨rfl, rfl⟩)
    (fun k => by
      unfold Ldust
      simp only [Ledger.setLamports_apply]
      have e1 : (L0 user).lamports = 0 := by decide +kernel
      have e2 : (L0 (s.escrowFor splTokenId)).lamports = 0 := by decide +kernel
      split
      · rename_i hk; subst hk; dsimp only; omega
      · split
        · rename_i hk; subst hk; dsimp only; omega
        · omega)))
-- the escrow can still be created, and the user pays the 70 lamports that are missing
example : ∃ L', runClient env [.createAta user s.A s.u splTokenId] Ldust = .ok L' ∧
    (L' user).lamports = 430 := by
  rcases escrow_never_blocked (env := env) (s := s) (um := TokenWrap.Example.uMint []) (p := splTokenId)
    (ok := fun _ _ => True) fresh histDust rfl (.inl rfl) (by decide +kernel) (by decide +kernel)
    (fun _ => rfl) with ⟨_, hpay⟩ | ⟨ho, _⟩
  · obtain ⟨L', t, h1, _, h2, _⟩ := hpay user user_signs (by unfold Blank; decide +kernel) (by decide +kernel)
    refine ⟨L', h1, ?_⟩
    have e1 : env.rentMin (ataLen splTokenId s.u Ldust) - (Ldust (s.escrowFor splTokenId)).lamports = 70 := by
      decide +kernel
    have e2 : (Ldust user).lamports = 500 := by decide +kernel
    rw [e1, e2] at h2
    omega
  · exact absurd ho (by decide +kernel)
example : (L1 (s.escrowFor splTokenId)).owner = splTokenId := by decide +kernel

-- the Wrap of step 7
example : ∃ L', processInstruction env
      (Build.wrap crateId rcp s.W s.A splTokenId s.wp src s.u (s.escrowFor splTokenId) user []
        1000).accounts
      (Build.wrap crateId rcp s.W s.A splTokenId s.wp src s.u (s.escrowFor splTokenId) user []
        1000).data L6 = .ok L' := by
  have hw : (L6 s.W).data = .mint wMint0 := by decide +kernel
  refine wrap_never_blocked (t := TokenWrap.Example.acct u user 5000 [])
    (m := TokenWrap.Example.uMint []) (e := TokenWrap.Example.acct u A 0 [])
    (r := TokenWrap.Example.acct W user 0 []) fresh plain.stable hist6' rfl rfl
    (fun _ _ _ _ => rfl) hw (by decide) (by decide +kernel) (by decide +kernel) rfl rfl (by decide)
    (.inr (.inr ⟨by decide, rfl⟩)) (.inl ⟨rfl, ?_⟩) (by decide +kernel) (fun _ => rfl) ?_
    (by decide +kernel) rfl (.inl rfl) (by decide) ⟨by decide +kernel, by decide +kernel, rfl⟩ rfl
  · intro ms; have : (L6 user).data = .bytes [] := by decide +kernel
    rw [this]; simp
  · intro c hc; cases hc

-- the pointer: first write, and a second one
example : ∃ L', processInstruction env (Build.setCanonicalPointer crateId issuer P u token2022Id).accounts
      (Build.setCanonicalPointer crateId issuer P u token2022Id).data L7 = .ok L' ∧
      (L' P).owner = crateId ∧ (L' P).data = .bytes token2022Id.bytes :=
  pointer_never_blocked (m := TokenWrap.Example.uMint []) rP (by unfold Blank; decide +kernel) hist7 rfl
    rfl (by decide +kernel) (by decide +kernel) rfl (fun _ => by decide +kernel)

end TokenWrap.Example.Hist

/-! ## A stuck escrow -/

namespace TokenWrap.Example.Hist.Stuck

open TokenWrap.Example (ok get get_eq)

/-- A Token-2022 mint whose issuer may close it. -/
def uMint0 : Mint :=
  { mintAuthority := some issuer, supply := 0, decimals := 6, freezeAuthority := none
    exts := [.mintCloseAuthority (some issuer)] }

def L0 : Ledger := fun k => if k = u then ⟨200, token2022Id, .mint uMint0⟩ else Hist.L0 k

theorem L0_funds : Funds L0 where
  all := by
    intro k
    by_cases h : k = u
    · subst h
      have : L0 u = ⟨200, token2022Id, .mint uMint0⟩ := by unfold L0; rw [if_pos rfl]
      rw [this]
      exact ⟨(fun t _ h => by cases h), (fun m _ _ => by decide)⟩
    · have : L0 k = Hist.L0 k := by unfold L0; rw [if_neg h]
      rw [this]; exact Hist.L0_funds.all k
  native := by
    intro nm hnm
    have hne : nm ≠ u := by revert nm; decide +kernel
    refine ⟨(L0 nm).owner, 9, by simp, by simp, ?_, rfl, Hist.solMint, ?_, rfl, by intro e he; cases he⟩
    · revert nm; decide +kernel
    · revert nm; decide +kernel

theorem fresh : Fresh s L0 where
  W := by unfold Blank; decide +kernel
  A := by unfold Blank; decide +kernel
  B := by unfold Blank; decide +kernel
  Es := by unfold Blank; decide +kernel
  Et := by unfold Blank; decide +kernel
  noHolder := by
    intro k t ho hd
    by_cases h : k = u
    · subst h
      have : (L0 u).data = .mint uMint0 := by decide +kernel
      rw [this] at hd; cases hd
    · have : L0 k = Hist.L0 k := by unfold L0; rw [if_neg h]
      rw [this] at ho hd
      exact Hist.fresh.noHolder k t ho hd
  funds := L0_funds

def cfg : TransferFeeConfig :=
  { authority := some issuer, withdrawAuthority := some issuer, withheld := 0
    older := ⟨0, 7, 100⟩, newer := ⟨0, 7, 100⟩ }
def ptr : MintExt := .metadataPointer (some issuer) (some u)
def space : Nat := mintAccountLen ([MintExt.transferFeeConfig cfg, ptr].map MintExt.valueLen)
def byIssuer : Pubkey → Bool := fun k => k = issuer

def L1 := get (ataCreate env A u token2022Id L0)
def ix2 : TokenIx := .closeAccount u user issuer []
def L2 := get (tokenExec env token2022Id ix2 byIssuer L1)
def L3 := L2.setLamports u 200
def L4 := get (sysAllocate (fun k => k = u) u space L3)
def L5 := get (sysAssign (fun k => k = u) u token2022Id L4)
def ix6 : TokenIx := .initMintExt u (.transferFeeConfig cfg)
def L6 := get (tokenExec env token2022Id ix6 (fun _ => false) L5)
def ix7 : TokenIx := .initMintExt u ptr
def L7 := get (tokenExec env token2022Id ix7 (fun _ => false) L6)
def ix8 : TokenIx := .initializeMint2 u issuer none 6
def L8 := get (tokenExec env token2022Id ix8 (fun _ => false) L7)
def ix9 : TokenIx := .initializeMetadata u issuer issuer "Name" "SYM" "uri"
def L9 := get (tokenExec env token2022Id ix9 byIssuer L8)
def ix10 : TokenIx := .updateField u issuer (.key "k") "v"
def L10 := get (tokenExec env token2022Id ix10 byIssuer L9)
def mintAccs : List Meta := (Build.createMint crateId W B u token2022Id false).accounts
def L11 := get (processInstruction env mintAccs (TokenWrapInstruction.createMint false).pack L10)
def syncAccs : List Meta := (Build.syncMetadataToToken2022 crateId W A u none none).accounts
def L12 := get (processInstruction env syncAccs
  TokenWrapInstruction.syncMetadataToToken2022.pack L11)

variable {ok' : Act → Ledger → Prop}

theorem byIssuer_signs : ∀ k, byIssuer k = true → CanSign cr k := by
  intro k hk
  have : k = issuer := by simpa [byIssuer] using hk
  subst this; exact .keypair (by decide +kernel)

theorem st1 : Step cr ok' (.createAta env A u token2022Id) L0 L1 :=
  .base (.createAta rfl ⟨by decide, fun k => by
    unfold L0; split
    · decide
    · exact L0_lamports k⟩ (get_eq (by decide +kernel)) rent_pos)
theorem st2 : Step cr ok' (.token env token2022Id ix2 byIssuer) L1 L2 :=
  .base (.token (by decide) byIssuer_signs (get_eq (by decide +kernel)) rent_pos)
theorem st3 : Step cr ok' .lamports L2 L3 := by
  refine .base (.lamports (fun k => ?_) (fun k h => ?_))
  · have gen : ∀ (X : Ledger) (k : Pubkey), ((X.setLamports u 200) k).owner = (X k).owner ∧
        ((X.setLamports u 200) k).data = (X k).data := by
      intro X k; rw [Ledger.setLamports_apply]; split
      · rename_i hk; subst hk; exact ⟨rfl, rfl⟩
      · exact ⟨rfl, rfl⟩
    exact gen L2 k
  · exfalso
    unfold L3 at h
    rw [Ledger.setLamports_apply] at h
    split at h
    · rename_i hk
      have : (L2 u).lamports = 0 := by decide +kernel
      subst hk
      rw [this] at h; exact Nat.not_lt_zero _ h
    · exact Nat.lt_irrefl _ h
theorem st4 : Step cr ok' (.allocate u space) L3 L4 :=
  .base (.allocate (.keypair (by decide +kernel)) (get_eq (by decide +kernel)))
theorem st5 : Step cr ok' (.assign u token2022Id) L4 L5 :=
  .base (.assign (.keypair (by decide +kernel)) ⟨List.replicate space 0, by decide +kernel,
    by decide +kernel⟩ (get_eq (by decide +kernel)))
theorem st6 : Step cr ok' (.token env token2022Id ix6 (fun _ => false)) L5 L6 :=
  .base (.token (by decide) (by simp) (get_eq (by decide +kernel)) rent_pos)
theorem st7 : Step cr ok' (.token env token2022Id ix7 (fun _ => false)) L6 L7 :=
  .base (.token (by decide) (by simp) (get_eq (by decide +kernel)) rent_pos)
theorem st8 : Step cr ok' (.token env token2022Id ix8 (fun _ => false)) L7 L8 :=
  .base (.token (by decide) (by simp) (get_eq (by decide +kernel)) rent_pos)
theorem st9 : Step cr ok' (.token env token2022Id ix9 byIssuer) L8 L9 :=
  .base (.token (by decide) byIssuer_signs (get_eq (by decide +kernel)) rent_pos)
theorem st10 : Step cr ok' (.token env token2022Id ix10 byIssuer) L9 L10 :=
  .base (.token (by decide) byIssuer_signs (get_eq (by decide +kernel)) rent_pos)
theorem st11 : Step cr ok' (.tokenWrap env mintAccs (TokenWrapInstruction.createMint false).pack)
    L10 L11 :=
  .tokenWrap rfl rfl (signs_of (by decide +kernel)) (get_eq (by decide +kernel)) rent_pos
theorem st12 : Step cr ok' (.tokenWrap env syncAccs
    TokenWrapInstruction.syncMetadataToToken2022.pack) L11 L12 :=
  .tokenWrap rfl rfl (signs_of (by decide +kernel)) (get_eq (by decide +kernel)) rent_pos

def tr11 : List Act :=
  [.tokenWrap env mintAccs (TokenWrapInstruction.createMint false).pack,
   .token env token2022Id ix10 byIssuer, .token env token2022Id ix9 byIssuer,
   .token env token2022Id ix8 (fun _ => false), .token env token2022Id ix7 (fun _ => false),
   .token env token2022Id ix6 (fun _ => false), .assign u token2022Id, .allocate u space, .lamports,
   .token env token2022Id ix2 byIssuer, .createAta env A u token2022Id]

theorem hist11 : History cr (fun _ _ => True) L0 tr11 L11 :=
  .step (.step (.step (.step (.step (.step (.step (.step (.step (.step (.step .start
    trivial st1) trivial st2) trivial st3) trivial st4) trivial st5) trivial st6) trivial st7)
    trivial st8) trivial st9) trivial st10) trivial st11

theorem hist12 : History cr (fun _ _ => True) L0
    (.tokenWrap env syncAccs TokenWrapInstruction.syncMetadataToToken2022.pack :: tr11) L12 :=
  .step hist11 trivial st12

def srcMd : TokenMetadata :=
  { updateAuthority := some issuer, mint := u, name := "Name", symbol := "SYM", uri := "uri"
    additional := [("k", "v")] }
def uMint1 : Mint :=
  { mintAuthority := some issuer, supply := 0, decimals := 6, freezeAuthority := none
    exts := [.transferFeeConfig cfg, ptr, .tokenMetadata srcMd] }

theorem u11 : (L11 u).data = .mint uMint1 := by decide +kernel
theorem w11 : (L11 W).data = .mint wMint0 := by decide +kernel
theorem e11 : (L11 Et).data = .token (TokenWrap.Example.acct u A 0 [.immutableOwner]) := by
  decide +kernel

-- the escrow lacks room for withheld fees; anybody can close it
example : processInstruction env (Build.closeStuckEscrow crateId s.Et user s.u s.W s.A).accounts
      (Build.closeStuckEscrow crateId s.Et user s.u s.W s.A).data L11 = .ok (closeOut L11 s.Et user) := by
  refine repair_never_blocked fresh hist11 rfl rfl (fun _ _ _ _ => rfl) w11 (by decide +kernel) u11 e11
    rfl rfl rfl rfl ⟨by decide, by decide⟩ ?_ (by decide +kernel) (by decide +kernel)
  intro h
  have := (h .transferFeeAmount).2 (.fee (c := cfg) (by simp [uMint1]))
  simp [TokenWrap.Example.acct] at this

theorem source11 : MetadataSource env L11 s.u none none srcMd :=
  .self ⟨by decide +kernel, uMint1, u11, rfl⟩ u11 rfl

-- metadata can be synced
example : ∃ L', processInstruction env
      (Build.syncMetadataToToken2022 crateId s.W s.A s.u none none).accounts
      (Build.syncMetadataToToken2022 crateId s.W s.A s.u none none).data L11 = .ok L' :=
  sync22_never_blocked fresh hist11 rfl rfl rfl (fun _ => List.Perm.refl _) (fun _ _ _ _ => rfl) w11
    (by simp) source11

-- and the metadata then found on the wrapped mint has the source it claims to have
def wMint2 : Mint :=
  { wMint0 with exts := wMint0.exts ++ [.tokenMetadata
      { updateAuthority := some A, mint := W, name := "Name", symbol := "SYM", uri := "uri"
        additional := [("k", "v")] }] }
theorem w12 : (L12 W).data = .mint wMint2 := by decide +kernel
example := metadata_has_a_source fresh hist12 w12 rfl
example : IsSyncOf s.W (.tokenWrap env syncAccs TokenWrapInstruction.syncMetadataToToken2022.pack) :=
  metadata_changes_only_by_sync fresh hist11 trivial st12 w11 w12 (by decide +kernel)
example := sync22_equals_source_always (env := env) (accounts := syncAccs) fresh hist11 rfl rfl
  (fun _ => List.Perm.refl _) (get_eq (by decide +kernel)) (by decide +kernel)

end TokenWrap.Example.Hist.Stuck
