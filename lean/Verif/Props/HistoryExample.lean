import Verif.Props.Redeem
import Verif.Props.Isolation
import Verif.Examples
/-!
# A concrete pair and a concrete history

Shows that the hypotheses of Props/History.lean, Props/Redeem.lean and Props/Isolation.lean can be
met together: a collision-free hash, a pair (SPL Token mint, Token-2022 wrapped mint), and a history
with CreateMint, ATA creation, account initialisation, SetCanonicalPointer, Wrap and Unwrap.
-/

namespace TokenWrap.Example.Hist

open TokenWrap.Example (ok get get_eq)

/-- unwrapped mint (SPL Token) -/
def u : Pubkey := .lit 1
def src : Pubkey := .lit 2
def rcp : Pubkey := .lit 3
def user : Pubkey := .lit 4
/-- a wrapped-SOL account -/
def sol : Pubkey := .lit 6
def issuer : Pubkey := .lit 5
def W : Pubkey := .lit 11
def A : Pubkey := .lit 12
def B : Pubkey := .lit 13
def Es : Pubkey := .lit 14
def Et : Pubkey := .lit 15
def P : Pubkey := .lit 16
/-- the second pair: the same unwrapped mint, wrapped as SPL Token -/
def W2 : Pubkey := .lit 21
def A2 : Pubkey := .lit 22
def B2 : Pubkey := .lit 23
def Es2 : Pubkey := .lit 24
def Et2 : Pubkey := .lit 25
/-- Metaplex metadata accounts of `W2` and `u` -/
def X2 : Pubkey := .lit 26
def Xu : Pubkey := .lit 27
/-- a pair that wraps the wrapped mint `W` as SPL Token -/
def W3 : Pubkey := .lit 51
def A3 : Pubkey := .lit 52
def B3 : Pubkey := .lit 53
def Es3 : Pubkey := .lit 54
def Et3 : Pubkey := .lit 55
/-- a pair that wraps the wrapped mint `W` as Token-2022 -/
def W4 : Pubkey := .lit 61
def A4 : Pubkey := .lit 62
def B4 : Pubkey := .lit 63
def Es4 : Pubkey := .lit 64
def Et4 : Pubkey := .lit 65
/-- where everything else hashes to: a point of the curve -/
def ground : Pubkey := .lit 99

/-- The derivations in use and their addresses. -/
def table : List (PdaInput × Pubkey) :=
  [(.wrappedMint u token2022Id, W), (.authority W, A), (.backpointer W, B),
   (.ata A u splTokenId, Es), (.ata A u token2022Id, Et), (.canonicalPointer u, P),
   (.wrappedMint u splTokenId, W2), (.authority W2, A2), (.backpointer W2, B2),
   (.ata A2 u splTokenId, Es2), (.ata A2 u token2022Id, Et2), (.metaplex W2, X2), (.metaplex u, Xu),
   (.wrappedMint W splTokenId, W3), (.authority W3, A3), (.backpointer W3, B3),
   (.ata A3 W splTokenId, Es3), (.ata A3 W token2022Id, Et3),
   (.wrappedMint W token2022Id, W4), (.authority W4, A4), (.backpointer W4, B4),
   (.ata A4 W splTokenId, Es4), (.ata A4 W token2022Id, Et4)]

/-- A hash without collisions on the addresses in use. -/
def cr : Crypto where
  hash x := match table.find? (fun e => e.1.preimage 255 = x) with
    | some e => e.2
    | none => ground
  onCurve k := k ∉ table.map (·.2)

theorem table_nodup : (table.map (·.2)).Nodup := by decide +kernel

theorem reserved {i : PdaInput} {k : Pubkey} (hm : (i, k) ∈ table) (hg : k ≠ ground)
    (ha : i.address cr = some k) : Reserved cr i k := by
  refine ⟨ha, ?_⟩
  intro x hx
  simp only [cr] at hx
  split at hx
  · rename_i e he
    have h1 := List.mem_of_find?_eq_some he
    have h2 := List.find?_some he
    refine ⟨255, ?_⟩
    have : e = (i, k) := by
      have hinj := List.inj_on_of_nodup_map table_nodup
      exact hinj h1 hm hx
    rw [this] at h2
    simpa using (of_decide_eq_true h2).symm
  · exact absurd hx.symm hg

def s : Setting cr where
  u := u
  wp := token2022Id
  W := W
  A := A
  B := B
  Es := Es
  Et := Et
  wpOk := .inr rfl
  rW := reserved (by simp [table]) (by decide +kernel) (by decide +kernel)
  rA := reserved (by simp [table]) (by decide +kernel) (by decide +kernel)
  rB := reserved (by simp [table]) (by decide +kernel) (by decide +kernel)
  rEs := reserved (by simp [table]) (by decide +kernel) (by decide +kernel)
  rEt := reserved (by simp [table]) (by decide +kernel) (by decide +kernel)
  uFree := by decide +kernel
  aFree := by decide +kernel
  wFree := by decide +kernel

/-- The second pair. -/
def s2 : Setting cr where
  u := u
  wp := splTokenId
  W := W2
  A := A2
  B := B2
  Es := Es2
  Et := Et2
  wpOk := .inl rfl
  rW := reserved (by simp [table]) (by decide +kernel) (by decide +kernel)
  rA := reserved (by simp [table]) (by decide +kernel) (by decide +kernel)
  rB := reserved (by simp [table]) (by decide +kernel) (by decide +kernel)
  rEs := reserved (by simp [table]) (by decide +kernel) (by decide +kernel)
  rEt := reserved (by simp [table]) (by decide +kernel) (by decide +kernel)
  uFree := by decide +kernel
  aFree := by decide +kernel
  wFree := by decide +kernel

theorem rP : Reserved cr (.canonicalPointer u) P :=
  reserved (by simp [table]) (by decide +kernel) (by decide +kernel)

def env : Env := { TokenWrap.Example.env with cr := cr }

/-- A native mint. -/
def solMint : Mint :=
  { mintAuthority := none, supply := 0, decimals := 9, freezeAuthority := none, exts := [] }

/-- 70 lamports of wrapped SOL over a reserve of 100. -/
def solAcct : TokenAcct :=
  { TokenWrap.Example.acct nativeMints.head! user 70 [] with isNative := some 100 }

def L0 : Ledger := fun k =>
  if k = u then ⟨200, splTokenId, .mint (TokenWrap.Example.uMint [])⟩
  else if k = src then ⟨200, splTokenId, .token (TokenWrap.Example.acct u user 5000 [])⟩
  else if k = sol then ⟨200, splTokenId, .token solAcct⟩
  else if k ∈ nativeMints then ⟨200, if k = nativeMints.head! then splTokenId else token2022Id,
    .mint solMint⟩
  else if k ∈ [W, B, P, rcp] then ⟨200, systemId, .bytes []⟩
  else Account.empty

theorem L0_token {k : Pubkey} {t : TokenAcct} (h : (L0 k).data = .token t) : k = src ∨ k = sol := by
  unfold L0 at h
  split at h
  · cases h
  · split at h
    · left; assumption
    · split at h
      · right; assumption
      · split at h
        · cases h
        · split at h <;> cases h

theorem L0_lamports (k : Pubkey) : (L0 k).lamports ≤ u64Max := by
  have h : (L0 k).lamports = 200 ∨ (L0 k).lamports = 0 := by
    unfold L0
    split_ifs <;> simp [Account.empty]
  rcases h with h | h <;> rw [h] <;> decide

theorem L0_mint {k : Pubkey} {m : Mint} (h : (L0 k).data = .mint m) : (L0 k).lamports = 200 := by
  unfold L0 at h ⊢
  split_ifs at h ⊢ <;> first | rfl | cases h

theorem L0_funds : Funds L0 where
  all := by
    intro k
    constructor
    · intro t _ hd
      rcases L0_token hd with rfl | rfl
      · have h2 : (L0 src).data = .token (TokenWrap.Example.acct u user 5000 []) := by decide +kernel
        rw [h2] at hd; cases hd
        exact ⟨by decide +kernel, (by intro r h; cases h), by decide +kernel⟩
      · have h2 : (L0 sol).data = .token solAcct := by decide +kernel
        rw [h2] at hd; cases hd
        exact ⟨by decide +kernel, (by intro r h; cases h; decide +kernel), by decide +kernel⟩
    · intro m _ hd
      rw [L0_mint hd]; decide
  native := by
    intro nm hnm
    refine ⟨(L0 nm).owner, 9, by simp, by simp, ?_, rfl, solMint, ?_, rfl, by intro e he; cases he⟩
    · revert nm; decide +kernel
    · revert nm; decide +kernel

theorem fresh : Fresh s L0 where
  W := by unfold Blank; decide +kernel
  A := by unfold Blank; decide +kernel
  B := by unfold Blank; decide +kernel
  Es := by unfold Blank; decide +kernel
  Et := by unfold Blank; decide +kernel
  noHolder := by
    intro k t ho hd
    rcases L0_token hd with rfl | rfl <;> exact absurd ho (by decide +kernel)
  funds := L0_funds

theorem rent_pos : ∀ n, 0 < env.rentMin n := fun _ => Nat.lt_of_lt_of_eq (by decide : 0 < 100) rfl

theorem plain : PlainMint splTokenId s.u 6 L0 :=
  ⟨.inl rfl, by decide +kernel, TokenWrap.Example.uMint [], by decide +kernel, rfl, by
    intro e he; cases he⟩

/-! ## The steps -/

def r1 := ataCreate env A u splTokenId L0
def L1 := get r1
def mintAccs : List Meta := (Build.createMint crateId W B u token2022Id false).accounts
def r2 := processInstruction env mintAccs (TokenWrapInstruction.createMint false).pack L1
def L2 := get r2
def r3 := sysAllocate (fun k => k = rcp) rcp 165 L2
def L3 := get r3
def r4 := sysAssign (fun k => k = rcp) rcp token2022Id L3
def L4 := get r4
def initIx : TokenIx := .initializeAccount3 rcp W user []
def r5 := tokenExec env token2022Id initIx (fun _ => false) L4
def L5 := get r5
def ptrAccs : List Meta := [.ro issuer true, .rw P false, .ro u false, .ro systemId false]
def r6 := processInstruction env ptrAccs (TokenWrapInstruction.setCanonicalPointer W).pack L5
def L6 := get r6
def wrapAccs : List Meta :=
  (Build.wrap crateId rcp W A splTokenId token2022Id src u Es user [] 1000).accounts
def r7 := processInstruction env wrapAccs (TokenWrapInstruction.wrap 1000).pack L6
def L7 := get r7
def unwrapAccs : List Meta :=
  (Build.unwrap crateId Es src A u token2022Id splTokenId rcp W user [] 300).accounts
def r8 := processInstruction env unwrapAccs (TokenWrapInstruction.unwrap 300).pack L7
def L8 := get r8

theorem signs_of {accounts : List Meta} (h : ∀ m ∈ accounts, m.signer = true → cr.onCurve m.key = true) :
    ∀ k, Signs accounts k → CanSign cr k := by
  rintro k ⟨m, hm, rfl, hs⟩
  exact .keypair (h m hm hs)

def tr7 : List Act :=
  [.tokenWrap env wrapAccs (TokenWrapInstruction.wrap 1000).pack,
   .tokenWrap env ptrAccs (TokenWrapInstruction.setCanonicalPointer W).pack,
   .token env token2022Id initIx (fun _ => false), .assign rcp token2022Id, .allocate rcp 165,
   .tokenWrap env mintAccs (TokenWrapInstruction.createMint false).pack,
   .createAta env A u splTokenId]

variable {ok' : Act → Ledger → Prop}

theorem st1 : Step cr ok' (.createAta env A u splTokenId) L0 L1 :=
  .base (.createAta rfl ⟨by decide, L0_lamports⟩ (get_eq (by decide +kernel)) rent_pos)
theorem st2 : Step cr ok' (.tokenWrap env mintAccs (TokenWrapInstruction.createMint false).pack) L1 L2 :=
  .tokenWrap rfl rfl (signs_of (by decide +kernel)) (get_eq (by decide +kernel)) rent_pos
theorem st3 : Step cr ok' (.allocate rcp 165) L2 L3 :=
  .base (.allocate (.keypair (by decide +kernel)) (get_eq (by decide +kernel)))
theorem st4 : Step cr ok' (.assign rcp token2022Id) L3 L4 :=
  .base (.assign (.keypair (by decide +kernel)) ⟨List.replicate 165 0, by decide +kernel,
    by decide +kernel⟩ (get_eq (by decide +kernel)))
theorem st5 : Step cr ok' (.token env token2022Id initIx (fun _ => false)) L4 L5 :=
  .base (.token (by decide) (by simp) (get_eq (by decide +kernel)) rent_pos)
theorem st6 : Step cr ok' (.tokenWrap env ptrAccs (TokenWrapInstruction.setCanonicalPointer W).pack)
    L5 L6 :=
  .tokenWrap rfl rfl (signs_of (by decide +kernel)) (get_eq (by decide +kernel)) rent_pos
theorem st7 : Step cr ok' (.tokenWrap env wrapAccs (TokenWrapInstruction.wrap 1000).pack) L6 L7 :=
  .tokenWrap rfl rfl (signs_of (by decide +kernel)) (get_eq (by decide +kernel)) rent_pos
theorem st8 : Step cr ok' (.tokenWrap env unwrapAccs (TokenWrapInstruction.unwrap 300).pack) L7 L8 :=
  .tokenWrap rfl rfl (signs_of (by decide +kernel)) (get_eq (by decide +kernel)) rent_pos

theorem hist6 : History cr (fun _ _ => True) L0 tr7.tail L6 :=
  .step (.step (.step (.step (.step (.step .start trivial st1) trivial st2) trivial st3) trivial st4)
    trivial st5) trivial st6

theorem hist7 : History cr (fun _ _ => True) L0 tr7 L7 := .step hist6 trivial st7

theorem hist8 : History cr (fun _ _ => True) L0
    (.tokenWrap env unwrapAccs (TokenWrapInstruction.unwrap 300).pack :: tr7) L8 :=
  .step hist7 trivial st8

/-- The same history under the condition of the general theorems. -/
theorem hist6' : History cr (PDIdle cr s.u) L0 tr7.tail L6 := (hist6.plain fresh.funds plain).1

theorem hist7' : History cr (PDIdle cr s.u) L0 tr7 L7 := (hist7.plain fresh.funds plain).1

-- C15/C16/C17: supply 1000 and 700, fully backed
example : supplyOf L7 s.W = 1000 ∧ balanceOf L7 (s.escrowFor splTokenId) = 1000 := by decide +kernel
example : supplyOf L8 s.W = 700 ∧ balanceOf L8 (s.escrowFor splTokenId) = 700 := by decide +kernel
example : supplyOf L8 s.W ≤ balanceOf L8 (s.escrowFor splTokenId) :=
  always_backed_plain fresh plain hist8
example : supplyOf L7 s.W ≤ balanceOf L7 s.Es + balanceOf L7 s.Et := always_backed fresh hist7'
-- C18: the hypotheses of `always_redeemable` hold after step 7, for 300 of 1000 tokens
example : ∃ L', processInstruction env
    (Build.unwrap crateId (s.escrowFor splTokenId) src s.A s.u s.wp splTokenId rcp s.W user [] 300).accounts
    (Build.unwrap crateId (s.escrowFor splTokenId) src s.A s.u s.wp splTokenId rcp s.W user [] 300).data L7 =
      .ok L' := by
  have hd : (L7 rcp).data = .token (TokenWrap.Example.acct W user 1000 []) := by decide +kernel
  refine always_redeemable_plain (t := TokenWrap.Example.acct W user 1000 [])
    (m := TokenWrap.Example.uMint []) fresh plain hist7 rfl rfl (fun _ _ _ _ => rfl)
    ⟨by decide +kernel, hd, rfl⟩ rfl (by decide) (by decide) (.inr (.inr ⟨by decide, rfl⟩))
    (.inl ⟨rfl, ?_⟩) (by decide +kernel) (fun _ => rfl) ?_ ?_ ⟨⟨TokenWrap.Example.acct u user 4000 [],
      by decide +kernel, by decide +kernel, rfl, rfl, by decide, .inl rfl⟩⟩
  · intro ms; have : (L7 user).data = .bytes [] := by decide +kernel
    rw [this]; simp
  · intro c hc; cases hc
  · intro e he
    have h1 : (L7 (s.escrowFor splTokenId)).data =
      .token (TokenWrap.Example.acct u A 1000 []) := by decide +kernel
    rw [h1] at he; cases he
    rfl
-- C25, C26: the mint exists after step 2
example : ¬ Blank L7 s.W := by unfold Blank; decide +kernel
-- C27: step 7 increases the supply; C28: step 8 takes from the escrow
example : supplyOf L6 s.W < supplyOf L7 s.W ∧ balanceOf L8 s.Es < balanceOf L7 s.Es := by
  decide +kernel
-- C29: instructions naming other wrapped mints, as seen by this pair
example : namedWrappedMint (.setCanonicalPointer W) ptrAccs ≠ some s.W := by decide +kernel
-- C34
example : lastPointer P tr7 = some W ∧ (L7 P).owner = crateId ∧ (L7 P).data = .bytes W.bytes := by
  decide +kernel
example := pointer_holds_last_write rP (L0 := L0) (by unfold Blank; decide +kernel) hist7
-- C53
example : decimalsOf L7 s.W = some 6 ∧ decimalsOf L7 s.u = some 6 := by decide +kernel

-- the owner of a wrapped-SOL account takes 30 of 70 lamports out of it; more than 70 are refused
def rUnwrapLamports := tokenExec env splTokenId (.unwrapLamports sol user user [] (some 30)) (fun k => k = user) L8
example : Step cr ok' (.token env splTokenId (.unwrapLamports sol user user [] (some 30)) (fun k => k = user))
    L8 (get rUnwrapLamports) :=
  .base (.token (by decide) (fun k h => .keypair (by
    have : k = user := by simpa using h
    rw [this]; decide +kernel)) (get_eq (by decide +kernel)) rent_pos)
example : (get rUnwrapLamports sol).lamports + 30 = (L8 sol).lamports ∧
    balanceOf (get rUnwrapLamports) sol = 40 ∧ balanceOf L8 sol = 70 := by decide +kernel
example : fails (tokenExec env splTokenId (.unwrapLamports sol user user [] (some 71)) (fun k => k = user) L8)
    (.token .insufficientFunds) = true := by decide +kernel

end TokenWrap.Example.Hist
