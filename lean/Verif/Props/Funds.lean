import Verif.Props.HistoryExample
/-! # Rent: nothing of a pair is ever garbage-collected (C65) -/

namespace TokenWrap

section
variable {cr : Crypto} {s : Setting cr} {ok : Act → Ledger → Prop} {L0 L L' : Ledger} {trace : List Act}

/-- **C65** In every history every token account holds lamports, and a wrapped-SOL account holds at
least its rent-exempt reserve plus its balance. -/
theorem token_accounts_funded (h0 : Fresh s L0) (h : History cr ok L0 trace L) {k : Pubkey}
    {t : TokenAcct} (ho : (L k).owner = splTokenId ∨ (L k).owner = token2022Id)
    (hd : (L k).data = .token t) :
    0 < (L k).lamports ∧ (t.isNative.isSome = true ↔ t.mint ∈ nativeMints) ∧
      ∀ r, t.isNative = some r → 0 < r ∧ r + t.amount ≤ (L k).lamports := by
  have hp : isTokenProgram (L k).owner = true := by rcases ho with h | h <;> rw [h] <;> rfl
  have f := ((h.funds h0.funds).all k).tok t hp hd
  refine ⟨f.pos, ?_, f.reserve⟩
  rw [← f.native]; cases t.isNative <;> simp

/-- **C65** In every history every mint holds lamports. -/
theorem mints_funded (h0 : Fresh s L0) (h : History cr ok L0 trace L) {k : Pubkey} {m : Mint}
    (ho : (L k).owner = splTokenId ∨ (L k).owner = token2022Id) (hd : (L k).data = .mint m) :
    0 < (L k).lamports := by
  have hp : isTokenProgram (L k).owner = true := by rcases ho with h | h <;> rw [h] <;> rfl
  exact ((h.funds h0.funds).all k).mint m hp hd

theorem Inv.pair_funded {bk : Bk} (hi : Inv bk s L) (hf : Funds L) {k : Pubkey}
    (hk : k = s.W ∨ k = s.B ∨ k = s.Es ∨ k = s.Et) (he : (L k).data ≠ .bytes []) :
    0 < (L k).lamports := by
  have esc : ∀ {p E}, EscrowOk s.u s.A p E L → isTokenProgram p = true → (L E).data ≠ .bytes [] →
      0 < (L E).lamports := by
    intro p E hE hp he
    rcases hE with hb | ⟨ho, t, ht, _⟩
    · exact absurd hb.2 he
    · exact ((hf.all E).tok t (by rw [ho]; exact hp) ht).pos
  rcases hk with rfl | rfl | rfl | rfl
  · rcases hi.w with ⟨hb, _⟩ | hw
    · exact absurd hb.2 he
    · obtain ⟨m, hm, _⟩ := hw.mint
      exact (hf.all _).mint m (by rw [hw.owner]; rcases s.wpOk with h | h <;> rw [h] <;> rfl) hm
  · rcases hi.w with ⟨_, hb⟩ | hw
    · exact absurd hb.2 he
    · exact hw.bLam
  · exact esc hi.es rfl he
  · exact esc hi.et rfl he

/-- **C65** In every history the pair's wrapped mint, backpointer and escrows hold lamports from the
moment they exist. -/
theorem pair_always_funded (h0 : Fresh s L0) (h : History cr ok L0 trace L) {k : Pubkey}
    (hk : k = s.W ∨ k = s.B ∨ k = s.Es ∨ k = s.Et) (he : (L k).data ≠ .bytes []) :
    0 < (L k).lamports :=
  (h.inv' h0).pair_funded (h.funds h0.funds) hk he

/-- **C65** The runtime's removal of accounts without lamports never removes any data of the pair: the
accounts at its addresses keep owner and data. -/
theorem collection_never_touches_pair (h0 : Fresh s L0) (h : History cr ok L0 trace L)
    {x k : Pubkey} (hs : Step cr ok (.gc x) L L')
    (hk : k = s.W ∨ k = s.B ∨ k = s.A ∨ k = s.Es ∨ k = s.Et) :
    (L' k).owner = (L k).owner ∧ (L' k).data = (L k).data := by
  cases hs with
  | base hb =>
    cases hb with
    | gc hz =>
      by_cases hx : k = x
      · subst hx
        have hi := h.inv' h0
        have hb : Blank L k := by
          by_cases he : (L k).data = .bytes []
          · have esc : ∀ {p E}, EscrowOk s.u s.A p E L → (L E).data = .bytes [] → Blank L E := by
              intro p E hE he
              rcases hE with hb | ⟨_, t, ht, _⟩
              · exact hb
              · rw [ht] at he; cases he
            rcases hk with rfl | rfl | rfl | rfl | rfl
            · rcases hi.w with ⟨hb, _⟩ | hw
              · exact hb
              · obtain ⟨m, hm, _⟩ := hw.mint; rw [hm] at he; cases he
            · rcases hi.w with ⟨_, hb⟩ | hw
              · exact hb
              · rw [hw.bData] at he; injection he with he
                have := s.u.len; rw [he] at this; simp at this
            · exact hi.a
            · exact esc hi.es he
            · exact esc hi.et he
          · rcases hk with rfl | rfl | rfl | rfl | rfl
            · exact absurd hz (by have := pair_always_funded h0 h (.inl rfl) he; omega)
            · exact absurd hz (by have := pair_always_funded h0 h (.inr (.inl rfl)) he; omega)
            · exact hi.a
            · exact absurd hz (by have := pair_always_funded h0 h (.inr (.inr (.inl rfl))) he; omega)
            · exact absurd hz (by have := pair_always_funded h0 h (.inr (.inr (.inr rfl))) he; omega)
        rw [Ledger.set_same, hb.1, hb.2]
        exact ⟨rfl, rfl⟩
      · rw [Ledger.set_ne _ _ hx]; exact ⟨rfl, rfl⟩

/-- **C65** For wrapped SOL: the escrow's lamports always cover the escrowed balance, hence (together
with `always_backed`) the whole wrapped supply when the other escrow is unused. -/
theorem native_escrow_covers (h0 : Fresh s L0) (h : History cr ok L0 trace L)
    (hn : s.u ∈ nativeMints) {E : Pubkey} (hE : E = s.Es ∨ E = s.Et) :
    balanceOf L E ≤ (L E).lamports := by
  have hi := h.inv' h0
  have key : ∀ {p E}, (p = splTokenId ∨ p = token2022Id) → EscrowOk s.u s.A p E L →
      balanceOf L E ≤ (L E).lamports := by
    intro p E hp hE
    rcases hE with hb | ⟨ho, t, ht, hm, _⟩
    · rw [balanceOf_blank hb]; exact Nat.zero_le _
    · have f := token_accounts_funded h0 h (by rw [ho]; exact hp) ht
      rw [balanceOf_token ht]
      have := f.2.1.2 (by rw [hm]; exact hn)
      obtain ⟨r, hr⟩ := Option.isSome_iff_exists.1 this
      have := (f.2.2 r hr).2
      omega
  rcases hE with rfl | rfl
  · exact key (.inl rfl) hi.es
  · exact key (.inr rfl) hi.et

end

namespace Example.Hist

-- the hypotheses are met after seven steps; the wrapped-SOL account is one of the accounts covered
example : 0 < (L7 s.W).lamports := pair_always_funded fresh hist7' (.inl rfl) (by decide +kernel)
example : 0 < (L7 s.Es).lamports :=
  pair_always_funded fresh hist7' (.inr (.inr (.inl rfl))) (by decide +kernel)
example : 170 ≤ (L7 sol).lamports :=
  ((token_accounts_funded (t := solAcct) fresh hist7' (.inl (by decide +kernel))
    (by decide +kernel)).2.2 100 rfl).2
/-- an account the runtime does remove -/
example : Step cr (PDIdle cr s.u) (.gc (.lit 77)) L7 (L7.set (.lit 77) Account.empty) :=
  .base (.gc (by decide +kernel))

end Example.Hist

/-! ## A wrapped-SOL pair -/

namespace Example.Sol

open TokenWrap.Example (ok get get_eq)

def u : Pubkey := nativeMints.head!
def W : Pubkey := .lit 11
def A : Pubkey := .lit 12
def B : Pubkey := .lit 13
def Es : Pubkey := .lit 14
def Et : Pubkey := .lit 15

def table : List (PdaInput × Pubkey) :=
  [(.wrappedMint u token2022Id, W), (.authority W, A), (.backpointer W, B),
   (.ata A u splTokenId, Es), (.ata A u token2022Id, Et)]

def cr : Crypto where
  hash x := match table.find? (fun e => e.1.preimage 255 = x) with
    | some e => e.2
    | none => .lit 99
  onCurve k := k ∉ table.map (·.2)

theorem table_nodup : (table.map (·.2)).Nodup := by decide +kernel

theorem reserved {i : PdaInput} {k : Pubkey} (hm : (i, k) ∈ table) (hg : k ≠ .lit 99)
    (ha : i.address cr = some k) : Reserved cr i k := by
  refine ⟨ha, ?_⟩
  intro x hx
  simp only [cr] at hx
  split at hx
  · rename_i e he
    have h1 := List.mem_of_find?_eq_some he
    have h2 := List.find?_some he
    refine ⟨255, ?_⟩
    have : e = (i, k) := List.inj_on_of_nodup_map table_nodup h1 hm hx
    rw [this] at h2
    simpa using (of_decide_eq_true h2).symm
  · exact absurd hx.symm hg

def s : Setting cr where
  u := u
  wp := token2022Id
  W := W
  A := A
  B := B
  Es := Es
  Et := Et
  wpOk := .inr rfl
  rW := reserved (by simp [table]) (by decide +kernel) (by decide +kernel)
  rA := reserved (by simp [table]) (by decide +kernel) (by decide +kernel)
  rB := reserved (by simp [table]) (by decide +kernel) (by decide +kernel)
  rEs := reserved (by simp [table]) (by decide +kernel) (by decide +kernel)
  rEt := reserved (by simp [table]) (by decide +kernel) (by decide +kernel)
  uFree := by decide +kernel
  aFree := by decide +kernel
  wFree := by decide +kernel

def env : Env := { TokenWrap.Example.env with cr := cr }

/-- Both native mints exist, and somebody has sent 300 lamports to the escrow address. -/
def L0 : Ledger := fun k =>
  if k ∈ nativeMints then ⟨200, if k = u then splTokenId else token2022Id, .mint Hist.solMint⟩
  else if k = Es then ⟨300, systemId, .bytes []⟩
  else Account.empty

theorem L0_token {k : Pubkey} {t : TokenAcct} : (L0 k).data ≠ .token t := by
  unfold L0; split_ifs <;> simp [Account.empty]

theorem L0_funds : Funds L0 where
  all := by
    intro k
    refine ⟨fun t _ hd => absurd hd L0_token, fun m _ hd => ?_⟩
    unfold L0 at hd ⊢
    split_ifs at hd ⊢ <;> first | exact (by decide : 0 < 200) | cases hd
  native := by
    intro nm hnm
    refine ⟨(L0 nm).owner, 9, by simp, by simp, ?_, rfl, Hist.solMint, ?_, rfl,
      by intro e he; cases he⟩
    · revert nm; decide +kernel
    · revert nm; decide +kernel

theorem fresh : Fresh s L0 where
  W := by unfold Blank; decide +kernel
  A := by unfold Blank; decide +kernel
  B := by unfold Blank; decide +kernel
  Es := by unfold Blank; decide +kernel
  Et := by unfold Blank; decide +kernel
  noHolder := fun _ _ _ hd => absurd hd L0_token
  funds := L0_funds

theorem L0_lamports (k : Pubkey) : (L0 k).lamports ≤ u64Max := by
  have h : (L0 k).lamports = 200 ∨ (L0 k).lamports = 300 ∨ (L0 k).lamports = 0 := by
    unfold L0
    split_ifs <;> simp [Account.empty]
  rcases h with h | h | h <;> rw [h] <;> decide

def L1 : Ledger := get (ataCreate env A u splTokenId L0)

theorem noPD : NoPD s.u L0 := by
  intro m hm
  have h : (L0 s.u).data = .mint Hist.solMint := by decide +kernel
  rw [h] at hm; cases hm; rfl

theorem hist : History cr (PDIdle cr s.u) L0 [.createAta env A u splTokenId] L1 :=
  .step .start noPD.idle (.base (.createAta rfl ⟨by decide, L0_lamports⟩ (get_eq (by decide +kernel))
    fun _ => Nat.lt_of_lt_of_eq (by decide : 0 < 100) rfl))

-- the escrow turns the 200 lamports above its reserve into balance
example : balanceOf L1 s.Es = 200 ∧ (L1 s.Es).lamports = 300 := by decide +kernel
example : balanceOf L1 s.Es ≤ (L1 s.Es).lamports :=
  native_escrow_covers fresh hist (by decide +kernel) (.inl rfl)

end Example.Sol

end TokenWrap
