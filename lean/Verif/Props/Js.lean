import Verif.JsClient
import Verif.Props.Cli
import Verif.Props.Codec
import Verif.Props.Extra
import Verif.Props.History
import Verif.Props.Metaplex
/-!
# The JavaScript client (C60 - C64)
-/

namespace TokenWrap

open TokenWrapInstruction

/-! ## Addresses and builders -/

/-- **C60** The addresses derived by the JavaScript client are the program's. -/
theorem js_addresses (cr : Crypto) (u w p : Pubkey) :
    Js.findWrappedMintPda cr u p = wrappedMintAddress cr u p ∧
    Js.findWrappedMintAuthorityPda cr w = authorityAddress cr w ∧
    Js.findBackpointerPda cr w = backpointerAddress cr w := by
  have h1 : Js.utf8 "mint" = wrappedMintSeed := by decide +kernel
  have h2 : Js.utf8 "authority" = authoritySeed := by decide +kernel
  have h3 : Js.utf8 "backpointer" = backpointerSeed := by decide +kernel
  refine ⟨?_, ?_, ?_⟩
  · rw [Js.findWrappedMintPda, h1]; rfl
  · rw [Js.findWrappedMintAuthorityPda, h2]; rfl
  · rw [Js.findBackpointerPda, h3]; rfl

theorem encodeU64_eq (n : UInt64) : Js.encodeU64 (n.toNat : Int) = .ok (u64ToLe n) := by
  have h : n.toNat ≤ u64Max := by have := n.toNat_lt; unfold u64Max; omega
  have h' : (0 : Int) ≤ (n.toNat : Int) ∧ (n.toNat : Int) ≤ (u64Max : Int) := by omega
  rw [Js.encodeU64, if_pos h']
  simp

theorem encodeU64_ok {a : Int} {b : Bytes} :
    Js.encodeU64 a = .ok b ↔ ∃ n : UInt64, a = n.toNat ∧ b = u64ToLe n := by
  constructor
  · intro h
    unfold Js.encodeU64 at h
    split at h
    · rename_i hr
      simp only [Except.ok.injEq] at h
      refine ⟨UInt64.ofNat a.toNat, ?_, h.symm⟩
      rw [UInt64.toNat_ofNat']
      unfold u64Max at hr
      omega
    · cases h
  · rintro ⟨n, rfl, rfl⟩
    exact encodeU64_eq n

/-- **C60** Each JavaScript builder produces, byte for byte and account for account, the instruction
of the corresponding Rust builder; the transfer authority must be passed as a signer exactly if no
multisig members are. -/
theorem js_builders_agree (pid a b c d e f g h tauth : Pubkey) (members : List Pubkey)
    (amount : UInt64) (idem : Bool) (source owner : Pubkey) :
    Js.createMintIx pid a b c d none (some idem) = Build.createMint pid a b c d idem ∧
    Js.createMintIx pid a b c d none none = Build.createMint pid a b c d false ∧
    Js.wrapIx pid a b c d e f g h ⟨tauth, members.isEmpty⟩ members amount.toNat =
      .ok (Build.wrap pid a b c d e f g h tauth members amount) ∧
    Js.unwrapIx pid a b c d e f g h ⟨tauth, members.isEmpty⟩ members amount.toNat =
      .ok (Build.unwrap pid a b c d e f g h tauth members amount) ∧
    Js.closeStuckEscrowIx pid a b c d e none = Build.closeStuckEscrow pid a b c d e ∧
    Js.sync22Ix pid a b c none (some source) (some owner) =
      Build.syncMetadataToToken2022 pid a b c (some source) (some owner) ∧
    Js.syncSplIx pid a b c d none none none (some source) (some owner) =
      Build.syncMetadataToSplToken pid a b c d (some source) (some owner) := by
  refine ⟨rfl, rfl, ?_, ?_, rfl, rfl, rfl⟩
  · rw [Js.wrapIx, encodeU64_eq]; rfl
  · rw [Js.unwrapIx, encodeU64_eq]; rfl

/-- **C60** Amounts outside the range of `u64` are refused, never truncated. -/
theorem js_amount_range (pid a b c d e f g h : Pubkey) (t : Js.Authority) (members : List Pubkey)
    (amount : Int) :
    ((∃ ix, Js.wrapIx pid a b c d e f g h t members amount = .ok ix) ↔
      0 ≤ amount ∧ amount < 2 ^ 64) ∧
    ((∃ ix, Js.unwrapIx pid a b c d e f g h t members amount = .ok ix) ↔
      0 ≤ amount ∧ amount < 2 ^ 64) ∧
    (∀ ix, Js.wrapIx pid a b c d e f g h t members amount = .ok ix →
      ∃ n : UInt64, amount = n.toNat ∧ ix.data = (wrap n).pack) ∧
    (∀ ix, Js.unwrapIx pid a b c d e f g h t members amount = .ok ix →
      ∃ n : UInt64, amount = n.toNat ∧ ix.data = (unwrap n).pack) := by
  have key : (∃ b, Js.encodeU64 amount = .ok b) ↔ 0 ≤ amount ∧ amount < 2 ^ 64 := by
    unfold Js.encodeU64 u64Max
    split
    · rename_i h; simp only [Except.ok.injEq, exists_eq', true_iff]; omega
    · rename_i h; simp only [reduceCtorEq, exists_const, false_iff]; omega
  refine ⟨?_, ?_, ?_, ?_⟩
  · rw [← key]
    simp only [Js.wrapIx, bind_ok_iff, pure_ok_iff]
    exact ⟨fun ⟨_, b, h, _⟩ => ⟨b, h⟩, fun ⟨b, h⟩ => ⟨_, b, h, rfl⟩⟩
  · rw [← key]
    simp only [Js.unwrapIx, bind_ok_iff, pure_ok_iff]
    exact ⟨fun ⟨_, b, h, _⟩ => ⟨b, h⟩, fun ⟨b, h⟩ => ⟨_, b, h, rfl⟩⟩
  · intro ix hix
    simp only [Js.wrapIx, bind_ok_iff, pure_ok_iff] at hix
    obtain ⟨b, hb, rfl⟩ := hix
    obtain ⟨n, h1, rfl⟩ := encodeU64_ok.1 hb
    exact ⟨n, h1, rfl⟩
  · intro ix hix
    simp only [Js.unwrapIx, bind_ok_iff, pure_ok_iff] at hix
    obtain ⟨b, hb, rfl⟩ := hix
    obtain ⟨n, h1, rfl⟩ := encodeU64_ok.1 hb
    exact ⟨n, h1, rfl⟩

/-- **C60** The exported error codes are the program's, and none is missing. -/
theorem js_error_codes (e : TokenWrapError) (n : UInt32) :
    (e, n) ∈ Js.errorCodes ↔ n = e.code := by
  constructor
  · intro h
    simp only [Js.errorCodes, List.mem_cons, Prod.mk.injEq, List.not_mem_nil, or_false] at h
    rcases h with ⟨rfl, rfl⟩ | ⟨rfl, rfl⟩ | ⟨rfl, rfl⟩ | ⟨rfl, rfl⟩ | ⟨rfl, rfl⟩ | ⟨rfl, rfl⟩ |
      ⟨rfl, rfl⟩ | ⟨rfl, rfl⟩ | ⟨rfl, rfl⟩ | ⟨rfl, rfl⟩ | ⟨rfl, rfl⟩ | ⟨rfl, rfl⟩ | ⟨rfl, rfl⟩ |
      ⟨rfl, rfl⟩ | ⟨rfl, rfl⟩ | ⟨rfl, rfl⟩ <;> rfl
  · rintro rfl
    cases e <;> simp [Js.errorCodes, TokenWrapError.code]

/-! ## Omitted optional accounts of the syncs -/

/-- **C60** The JavaScript builders of the syncs name the program itself in place of an omitted
optional account, where the Rust builders pass a shorter list.  Whenever the Rust-built instruction
succeeds, the JavaScript-built one does, with the same result. -/
theorem js_sync_complete {env : Env} {pid a b c d : Pubkey} {source : Option Pubkey} {L L' : Ledger} :
    (processInstruction env (Build.syncMetadataToToken2022 pid a b c source none).accounts
        (Build.syncMetadataToToken2022 pid a b c source none).data L = .ok L' →
      processInstruction env (Js.sync22Ix pid a b c none source none).accounts
        (Js.sync22Ix pid a b c none source none).data L = .ok L') ∧
    (processInstruction env (Build.syncMetadataToSplToken pid a b c d source none).accounts
        (Build.syncMetadataToSplToken pid a b c d source none).data L = .ok L' →
      processInstruction env (Js.syncSplIx pid a b c d none none none source none).accounts
        (Js.syncSplIx pid a b c d none none none source none).data L = .ok L') := by
  cases source with
  | none =>
    exact ⟨trailing_accounts_ignored (extra := [.ro pid false, .ro pid false]) (by simp [Meta.ro]),
      trailing_accounts_ignored (extra := [.ro pid false, .ro pid false]) (by simp [Meta.ro])⟩
  | some s =>
    exact ⟨trailing_accounts_ignored (extra := [.ro pid false]) (by simp [Meta.ro]),
      trailing_accounts_ignored (extra := [.ro pid false]) (by simp [Meta.ro])⟩

/-! ## Parsing -/

/-- The arguments a parsed instruction must show; the parser does not know `SetCanonicalPointer`. -/
def jsArgs : TokenWrapInstruction → Option Js.Args
  | createMint i => some (.createMint i)
  | wrap n => some (.wrap n)
  | unwrap n => some (.unwrap n)
  | closeStuckEscrow => some .closeStuckEscrow
  | syncMetadataToToken2022 => some .syncMetadataToToken2022
  | syncMetadataToSplToken => some .syncMetadataToSplToken
  | setCanonicalPointer _ => none

/-- Number of named accounts of an instruction, optional ones included. -/
def jsArity : TokenWrapInstruction → Nat
  | createMint _ => 5
  | wrap _ | unwrap _ => 9
  | closeStuckEscrow => 6
  | syncMetadataToToken2022 => 6
  | syncMetadataToSplToken => 9
  | setCanonicalPointer _ => 0

/-- Positions of accounts the parser may report as omitted. -/
def jsOptional : TokenWrapInstruction → Nat → Prop
  | createMint _, i => i = 3
  | closeStuckEscrow, i => i = 5
  | syncMetadataToToken2022, i => i = 4 ∨ i = 5
  | syncMetadataToSplToken, i => i = 7 ∨ i = 8
  | _, _ => False

theorem readAccounts_ok {opts : List Bool} {accounts : List Meta} {as : List (Option Meta)} :
    Js.readAccounts opts accounts = .ok as ↔ opts.length ≤ accounts.length ∧
      as = (opts.zip accounts).map fun (o, m) => if o then Js.optional m else some m := by
  unfold Js.readAccounts
  split
  · rename_i h; simp only [reduceCtorEq, false_iff, not_and]; omega
  · rename_i h
    simp only [Except.ok.injEq]
    exact ⟨fun e => ⟨by omega, e.symm⟩, fun e => e.2.symm⟩

theorem decodeU64At1_le (t : UInt8) (n : UInt64) : Js.decodeU64At1 (t :: u64ToLe n) = .ok n := by
  have h : (u64ToLe n).take 8 = u64ToLe n := List.take_of_length_le (by simp [u64ToLe])
  simp only [Js.decodeU64At1, List.drop_succ_cons, List.drop_zero, h, u64_le_roundtrip, okOr_some]

/-- Which accounts are optional, as the list handed to `readAccounts`. -/
def jsOpts : TokenWrapInstruction → List Bool
  | createMint _ => [false, false, false, true, false]
  | wrap _ | unwrap _ => List.replicate 9 false
  | closeStuckEscrow => [false, false, false, false, false, true]
  | syncMetadataToToken2022 => [false, false, false, false, true, true]
  | syncMetadataToSplToken => [false, false, false, false, false, false, false, true, true]
  | setCanonicalPointer _ => []

theorem jsOpts_length (ix : TokenWrapInstruction) : (jsOpts ix).length = jsArity ix := by
  cases ix <;> rfl

theorem jsOpts_get (ix : TokenWrapInstruction) {i : Nat} (hi : i < jsArity ix) :
    ∃ o, (jsOpts ix)[i]? = some o ∧ (o = true ↔ jsOptional ix i) := by
  cases ix <;> simp only [jsArity] at hi <;>
    rcases i with _ | _ | _ | _ | _ | _ | _ | _ | _ | i <;>
    first
      | omega
      | (refine ⟨_, rfl, ?_⟩; simp [jsOptional])

theorem js_parse_eq {ix : TokenWrapInstruction} {args : Js.Args} (h : jsArgs ix = some args)
    (accounts : List Meta) :
    Js.parse accounts ix.pack = (do
      let as ← Js.readAccounts (jsOpts ix) accounts
      pure ⟨args, as⟩) := by
  cases ix <;> simp only [jsArgs, Option.some.injEq, reduceCtorEq] at h <;> subst h
  case createMint i => cases i <;> rfl
  case wrap n =>
    show (do let as ← Js.readAccounts _ accounts; pure (Js.Parsed.mk (.wrap (← Js.decodeU64At1 _)) as)) = _
    simp only [pack, decodeU64At1_le, ok_bind]; rfl
  case unwrap n =>
    show (do let as ← Js.readAccounts _ accounts; pure (Js.Parsed.mk (.unwrap (← Js.decodeU64At1 _)) as)) = _
    simp only [pack, decodeU64At1_le, ok_bind]; rfl
  all_goals rfl

theorem js_parse_pointer (k : Pubkey) (accounts : List Meta) :
    Js.parse accounts (setCanonicalPointer k).pack = .error .unidentified := rfl

/-- **C61** What the parser makes of an encoded instruction: exactly its arguments, and its accounts in
order, where an optional account that is the program itself is reported as omitted; it fails exactly if
accounts are missing or the instruction is SetCanonicalPointer. -/
theorem js_parse_pack {ix : TokenWrapInstruction} {accounts : List Meta} {p : Js.Parsed} :
    Js.parse accounts ix.pack = .ok p ↔
      ∃ args, jsArgs ix = some args ∧ jsArity ix ≤ accounts.length ∧ p.args = args ∧
        p.accounts.length = jsArity ix ∧
        ∀ i m, i < jsArity ix → accounts[i]? = some m →
          (jsOptional ix i ∧ m.key = crateId → p.accounts[i]? = some none) ∧
          (¬ (jsOptional ix i ∧ m.key = crateId) → p.accounts[i]? = some (some m)) := by
  cases ha : jsArgs ix with
  | none =>
    cases ix <;> simp only [jsArgs, reduceCtorEq] at ha
    simp [js_parse_pointer]
  | some args =>
    rw [js_parse_eq ha]
    simp only [bind_ok_iff, readAccounts_ok, pure_ok_iff, jsOpts_length, Option.some.injEq,
      exists_eq_left', and_assoc]
    have key : ∀ i m, i < jsArity ix → accounts[i]? = some m → ∀ as,
        as = ((jsOpts ix).zip accounts).map (fun (o, m) => if o then Js.optional m else some m) →
        (jsOptional ix i ∧ m.key = crateId → as[i]? = some none) ∧
        (¬ (jsOptional ix i ∧ m.key = crateId) → as[i]? = some (some m)) := by
      rintro i m hi hm as rfl
      obtain ⟨o, ho, ho'⟩ := jsOpts_get ix hi
      have hz : ((jsOpts ix).zip accounts)[i]? = some (o, m) := List.getElem?_zip_eq_some.2 ⟨ho, hm⟩
      rw [List.getElem?_map, hz]
      simp only [Option.map_some, Option.some.injEq, Js.optional]
      cases o
      · have : ¬ jsOptional ix i := fun h => by simpa using ho'.2 h
        simp [this]
      · have : jsOptional ix i := ho'.1 rfl
        by_cases hk : m.key = crateId <;> simp [this, hk]
    constructor
    · rintro ⟨as, hlen, has, rfl⟩
      refine ⟨hlen, rfl, ?_, fun i m hi hm => key i m hi hm as has⟩
      rw [has, List.length_map, List.length_zip, jsOpts_length]
      omega
    · rintro ⟨hlen, rfl, hl, hall⟩
      refine ⟨_, hlen, rfl, ?_⟩
      obtain ⟨args, as⟩ := p
      dsimp only at *
      congr 1
      apply List.ext_getElem?
      intro i
      rcases Nat.lt_or_ge i (jsArity ix) with hi | hi
      · have hm : accounts[i]? = some accounts[i] := List.getElem?_eq_getElem (by omega)
        have h1 := hall i _ hi hm
        have h2 := key i _ hi hm _ rfl
        by_cases hc : jsOptional ix i ∧ accounts[i].key = crateId
        · rw [h1.1 hc, h2.1 hc]
        · rw [h1.2 hc, h2.2 hc]
      · have hz : (((jsOpts ix).zip accounts).map
            (fun (o, m) => if o then Js.optional m else some m)).length ≤ i := by
          rw [List.length_map, List.length_zip, jsOpts_length]; omega
        rw [List.getElem?_eq_none hz, List.getElem?_eq_none (by omega)]

/-- **C61** Every instruction the program executes successfully is parsed to what the program executed,
except SetCanonicalPointer and a sync whose list leaves out optional accounts. -/
theorem js_parses_executed {env : Env} {accounts : List Meta} {data : Bytes} {L L' : Ledger}
    (h : processInstruction env accounts data L = .ok L') :
    ∃ ix, unpack data = .ok ix ∧
      ((∃ k, ix = setCanonicalPointer k) ∧ Js.parse accounts data = .error .unidentified ∨
       ((ix = syncMetadataToToken2022 ∧ accounts.length < 6) ∨
        (ix = syncMetadataToSplToken ∧ accounts.length < 9)) ∧
          Js.parse accounts data = .error .insufficientAccounts ∨
       ∃ args as, jsArgs ix = some args ∧ Js.parse accounts data = .ok ⟨args, as⟩) := by
  unfold processInstruction at h
  obtain ⟨ix, hix, h1⟩ := bind_ok_iff.1 h
  replace h := h1
  clear h1
  obtain rfl := (unpack_eq_ok_iff _ _).1 hix
  refine ⟨ix, hix, ?_⟩
  have parsed : ∀ args, jsArgs ix = some args → jsArity ix ≤ accounts.length →
      ∃ args as, jsArgs ix = some args ∧ Js.parse accounts ix.pack = .ok ⟨args, as⟩ := by
    intro args ha hl
    rw [js_parse_eq ha, readAccounts_ok.2 ⟨by rw [jsOpts_length]; exact hl, rfl⟩]
    exact ⟨args, _, ha, rfl⟩
  have short : ∀ args, jsArgs ix = some args → accounts.length < jsArity ix →
      Js.parse accounts ix.pack = .error .insufficientAccounts := by
    intro args ha hl
    rw [js_parse_eq ha, Js.readAccounts, if_pos (by rw [jsOpts_length]; exact hl)]
    rfl
  cases ix with
  | setCanonicalPointer k => exact .inl ⟨⟨k, rfl⟩, rfl⟩
  | syncMetadataToToken2022 =>
    rcases Nat.lt_or_ge accounts.length 6 with hl | hl
    · exact .inr (.inl ⟨.inl ⟨rfl, hl⟩, short _ rfl hl⟩)
    · exact .inr (.inr (parsed _ rfl hl))
  | syncMetadataToSplToken =>
    rcases Nat.lt_or_ge accounts.length 9 with hl | hl
    · exact .inr (.inl ⟨.inr ⟨rfl, hl⟩, short _ rfl hl⟩)
    · exact .inr (.inr (parsed _ rfl hl))
  | createMint i =>
    refine .inr (.inr (parsed _ rfl ?_))
    unfold processCreateMint at h
    obtain ⟨a, ha, _⟩ := bind_ok_iff.1 h
    unfold parseCreateMint at ha
    split at ha <;> cases ha
    simp [jsArity]
  | wrap n =>
    refine .inr (.inr (parsed _ rfl ?_))
    unfold processWrap at h
    obtain ⟨_, _, h⟩ := bind_ok_iff.1 h
    obtain ⟨a, ha, _⟩ := bind_ok_iff.1 h
    unfold parseWrap at ha
    split at ha <;> cases ha
    simp [jsArity]
  | unwrap n =>
    refine .inr (.inr (parsed _ rfl ?_))
    unfold processUnwrap at h
    obtain ⟨_, _, h⟩ := bind_ok_iff.1 h
    obtain ⟨a, ha, _⟩ := bind_ok_iff.1 h
    unfold parseUnwrap at ha
    split at ha <;> cases ha
    simp [jsArity]
  | closeStuckEscrow =>
    refine .inr (.inr (parsed _ rfl ?_))
    unfold processCloseStuckEscrow at h
    obtain ⟨a, ha, _⟩ := bind_ok_iff.1 h
    unfold parseClose at ha
    split at ha <;> cases ha
    simp [jsArity]

/-- **C61** Parsing is not validation: a CreateMint with any boolean byte other than 0 and 1, or any
instruction with trailing bytes, is parsed although the program refuses it. -/
theorem js_parse_lenient {accounts : List Meta} (h : 9 ≤ accounts.length) (b : UInt8) (extra : Bytes)
    (hb : b ≠ 0 ∧ b ≠ 1) (n : UInt64) (hx : extra ≠ []) :
    (∃ as, Js.parse accounts [0, b] = .ok ⟨.createMint false, as⟩) ∧
    unpack [0, b] = .error .invalidInstructionData ∧
    (∃ as, Js.parse accounts ((wrap n).pack ++ extra) = .ok ⟨.wrap n, as⟩) ∧
    unpack ((wrap n).pack ++ extra) = .error .invalidInstructionData := by
  have hd : Js.decodeU64At1 ((wrap n).pack ++ extra) = .ok n := by
    have : ((u64ToLe n) ++ extra).take 8 = u64ToLe n := by
      rw [List.take_append_of_le_length (by simp [u64ToLe]), List.take_of_length_le (by simp [u64ToLe])]
    simp only [Js.decodeU64At1, pack, List.cons_append, List.drop_succ_cons, List.drop_zero, this,
      u64_le_roundtrip, okOr_some]
  refine ⟨?_, ?_, ?_, ?_⟩
  · have : Js.parse accounts [0, b] = (do
        let as ← Js.readAccounts [false, false, false, true, false] accounts
        pure (Js.Parsed.mk (.createMint (← Js.decodeBoolAt1 [0, b])) as)) := rfl
    rw [this, readAccounts_ok.2 ⟨by simp; omega, rfl⟩, ok_bind]
    simp only [Js.decodeBoolAt1, List.drop_succ_cons, List.drop_zero, List.head?_cons, hb.2,
      decide_false, ok_bind]
    exact ⟨_, rfl⟩
  · apply unpack_rejects
    intro ix hix
    have hu := unpack_pack ix
    rw [← hix] at hu
    simp [unpack, hb.1, hb.2] at hu
  · have : Js.parse accounts ((wrap n).pack ++ extra) = (do
        let as ← Js.readAccounts (List.replicate 9 false) accounts
        pure (Js.Parsed.mk (.wrap (← Js.decodeU64At1 ((wrap n).pack ++ extra))) as)) := rfl
    rw [this, readAccounts_ok.2 ⟨by simpa using h, rfl⟩, ok_bind, hd, ok_bind]
    exact ⟨_, rfl⟩
  · apply unpack_rejects
    intro ix hix
    have hl := congrArg List.length hix
    have : ix.pack.head? = some 1 := by rw [← hix]; rfl
    cases ix <;> simp [pack] at this
    simp [pack, u64ToLe] at hl
    exact hx hl

/-! ## wrap -/

section
variable {env : Env} {L : Ledger}

/-- How the JavaScript client fills in what the user left out. -/
structure JsWrapResolved (env : Env) (args : Js.WrapArgs) (L : Ledger)
    (u uprog W A E rcp : Pubkey) : Prop where
  /-- the mint given, or that of the token account -/
  mint : args.unwrappedMint = some u ∨
    args.unwrappedMint = none ∧ ∃ t, (L args.unwrappedTokenAccount).data = .token t ∧ t.mint = u
  /-- the program given, or the owner of the token account -/
  prog : args.unwrappedTokenProgram = some uprog ∨
    args.unwrappedTokenProgram = none ∧ (L args.unwrappedTokenAccount).owner = uprog
  /-- the recipient given, or the payer's associated account for the wrapped mint -/
  recipient : args.recipient = some rcp ∨ args.recipient = none ∧
    associatedTokenAddress env.cr args.payer W args.wrappedTokenProgram = some rcp
  wrappedMint : wrappedMintAddress env.cr u args.wrappedTokenProgram = some W
  authority : authorityAddress env.cr W = some A
  escrow : escrowAddress env.cr u uprog args.wrappedTokenProgram = some E

/-- The transfer authority of a wrap or unwrap: the one given, or the payer, who signs. -/
def jsAuthority (given : Option Js.Authority) (payer : Pubkey) : Js.Authority := given.getD ⟨payer, true⟩

theorem js_wrap_ok {args : Js.WrapArgs} {r : Js.WrapResult} (h : Js.singleSignerWrap env args L = .ok r) :
    ∃ u uprog W A n, JsWrapResolved env args L u uprog W A r.escrow r.recipient ∧
      args.amount = (n : UInt64).toNat ∧
      r.ix = ⟨crateId,
        [.rw r.recipient false, .rw W false, .ro A false, .ro uprog false,
         .ro args.wrappedTokenProgram false, .rw args.unwrappedTokenAccount false, .ro u false,
         .rw r.escrow false,
         .ro (jsAuthority args.transferAuthority args.payer).key
           (jsAuthority args.transferAuthority args.payer).isSigner] ++ [], (wrap n).pack⟩ := by
  simp only [Js.singleSignerWrap, Js.buildWrapIx, Js.wrapIx, bind_ok_iff, okOr_ok_iff, pure_ok_iff] at h
  obtain ⟨u, hu, uprog, hp, W, hW, A, hA, rcp, hr, E, hE, ix, ⟨E', hE', b, hb, rfl⟩, rfl⟩ := h
  rw [(js_addresses env.cr u W args.wrappedTokenProgram).1] at hW
  rw [(js_addresses env.cr u W args.wrappedTokenProgram).2.1] at hA
  rw [hE] at hE'
  cases hE'
  obtain ⟨n, hn, rfl⟩ := encodeU64_ok.1 hb
  refine ⟨u, uprog, W, A, n, ⟨?_, ?_, ?_, hW, hA, ?_⟩, hn, rfl⟩
  · exact (orQuery_ok.1 hu).imp id fun h => ⟨h.1, (rpcTokenMint_ok.1 h.2).2⟩
  · exact (orQuery_ok.1 hp).imp id fun h => ⟨h.1, (rpcOwner_ok.1 h.2).2⟩
  · exact (orQuery_ok.1 hr).imp id fun h => ⟨h.1, okOr_ok_iff.1 h.2⟩
  · exact (escrowAddress_eq _ _ _ _ _ _ hW hA).trans hE

/-- **C62** Whatever happened to the chain between building and executing the instruction: if it
succeeds, the source lost the amount, and the escrow and recipient *reported in the result*, and the
wrapped supply, gained the amount less the transfer fee. -/
theorem js_wrap_effect {args : Js.WrapArgs} {r : Js.WrapResult} {L1 L2 : Ledger}
    (h : Js.singleSignerWrap env args L = .ok r)
    (hrun : processInstruction env r.ix.accounts r.ix.data L1 = .ok L2) :
    ∃ u uprog W A, JsWrapResolved env args L u uprog W A r.escrow r.recipient ∧ 0 < args.amount ∧
      (args.unwrappedTokenAccount ≠ r.escrow →
      ∃ m fee, (L1 u).data = .mint m ∧ IsMintFee m env.epoch args.amount.toNat fee ∧
        fee ≤ args.amount.toNat ∧
        balanceOf L2 args.unwrappedTokenAccount + args.amount.toNat =
          balanceOf L1 args.unwrappedTokenAccount ∧
        balanceOf L2 r.escrow = balanceOf L1 r.escrow + (args.amount.toNat - fee) ∧
        balanceOf L2 r.recipient = balanceOf L1 r.recipient + (args.amount.toNat - fee) ∧
        supplyOf L2 W = supplyOf L1 W + (args.amount.toNat - fee)) := by
  obtain ⟨u, uprog, W, A, n, hr, hn, hix⟩ := js_wrap_ok h
  have hN : args.amount.toNat = n.toNat := by rw [hn]; rfl
  rw [hix] at hrun
  refine ⟨u, uprog, W, A, hr, ?_, ?_⟩
  · have hz : n ≠ 0 := by
      rintro rfl
      rw [processInstruction_pack] at hrun
      simp [dispatch, processWrap] at hrun
    have : n.toNat ≠ 0 := fun h => hz (UInt64.toNat_inj.1 h)
    omega
  · intro hne
    rw [hN]
    exact wrap_credits_exactly_what_escrow_receives hrun hne

/-- **C62** The JavaScript client and the CLI agree: given the same arguments and the same view of the
chain, one builds an instruction exactly if the other does, and it is the same one. -/
theorem js_wrap_eq_cli {args : Js.WrapArgs} {c : CliWrapArgs} {ix : Instr}
    (hpay : c.payer.key = args.payer) (hsrc : c.unwrappedTokenAccount = args.unwrappedTokenAccount)
    (hwp : c.wrappedTokenProgram = args.wrappedTokenProgram) (ham : args.amount = c.amount.toNat)
    (hum : c.unwrappedMint = args.unwrappedMint) (hr : c.recipient = args.recipient)
    (hup : c.unwrappedTokenProgram = args.unwrappedTokenProgram)
    (hta : args.transferAuthority = c.transferAuthority.map fun s => ⟨s.key, true⟩)
    (hms : c.multisig = []) (hps : c.presigners = []) :
    (∃ r, Js.singleSignerWrap env args L = .ok r ∧ r.ix = ix) ↔
      ∃ tx, cliWrap env c L = .ok tx ∧ tx.instructions = [.call ix] := by
  have hauth : jsAuthority args.transferAuthority args.payer =
      ⟨(c.transferAuthority.getD c.payer).key, true⟩ := by
    rw [hta, jsAuthority, ← hpay]; cases c.transferAuthority <;> rfl
  have hauth' : args.transferAuthority.getD ⟨args.payer, true⟩ =
      ⟨(c.transferAuthority.getD c.payer).key, true⟩ := hauth
  have henc : Js.encodeU64 args.amount = .ok (u64ToLe c.amount) := by rw [ham]; exact encodeU64_eq _
  constructor
  · rintro ⟨r, h, rfl⟩
    simp only [Js.singleSignerWrap, Js.buildWrapIx, Js.wrapIx, bind_ok_iff, okOr_ok_iff, pure_ok_iff] at h
    obtain ⟨u, hu, uprog, hp, W, hW, A, hA, rcp, hr', E, hE, ix, ⟨E', hE', b, hb, rfl⟩, rfl⟩ := h
    rw [(js_addresses env.cr u W args.wrappedTokenProgram).1] at hW
    rw [(js_addresses env.cr u W args.wrappedTokenProgram).2.1] at hA
    rw [hE] at hE'; cases hE'
    rw [henc] at hb; cases hb
    refine ⟨⟨c.payer.key, [.call _], cliSigners c.payer (c.transferAuthority.getD c.payer) c.multisig
      c.presigners⟩, ?_, rfl⟩
    rw [cliWrap_flat, hum, hsrc, hu, ok_bind, hwp, hW, okOr_some, ok_bind, hA, okOr_some, ok_bind, hr, hpay, hr',
      ok_bind, hup, hp, ok_bind, escrowAddress_eq _ _ _ _ _ _ hW hA, hE, okOr_some, ok_bind, ← hpay]
    rw [partialSign_eq ((cliSigners_required fun k => signs_build_wrap).2 (by simp [hps]))]
    rw [hpay]
    simp only [hauth', hms, Build.wrap, pack, Js.metaOf, Meta.ro, List.map_nil, List.isEmpty_nil]
  · rintro ⟨tx, h, hins⟩
    simp only [cliWrap_flat, bind_ok_iff, okOr_ok_iff] at h
    obtain ⟨u, hu, W, hW, A, hA, rcp, hr', uprog, hp, E, hE, h⟩ := h
    obtain ⟨rfl, _⟩ := partialSign_ok h
    simp only [List.cons.injEq, ClientIx.call.injEq, and_true] at hins
    rw [hwp] at hW
    have hE' : associatedTokenAddress env.cr A u uprog = some E := by
      rw [← escrowAddress_eq _ _ _ _ _ _ hW hA, ← hwp]; exact hE
    refine ⟨⟨ix, rcp, E⟩, ?_, rfl⟩
    unfold Js.singleSignerWrap Js.buildWrapIx Js.wrapIx
    rw [← hum, ← hsrc, hu, ok_bind, ← hup, hp, ok_bind, (js_addresses _ u W _).1, hW, okOr_some,
      ok_bind, (js_addresses env.cr u W args.wrappedTokenProgram).2.1, hA, okOr_some, ok_bind, ← hr,
      ← hpay, ← hwp, hr', ok_bind, hE', okOr_some, ok_bind]
    dsimp only
    rw [ok_bind, henc, ok_bind]
    rw [← hins, hpay, hauth']
    simp only [hms, Build.wrap, pack, Js.metaOf, Meta.ro, List.map_nil, List.isEmpty_nil]
    rfl

/-- **C62** A transfer authority passed as a plain address does not sign the instruction, so the wrap
always fails (multisigs that need no signature do not exist). -/
theorem js_wrap_plain_address {args : Js.WrapArgs} {r : Js.WrapResult} {k : Pubkey} {L1 L2 : Ledger}
    (ha : args.transferAuthority = some ⟨k, false⟩)
    (hms : ∀ ms, (L1 k).data = .multisig ms → 1 ≤ ms.m)
    (h : Js.singleSignerWrap env args L = .ok r) :
    processInstruction env r.ix.accounts r.ix.data L1 ≠ .ok L2 := by
  intro hrun
  obtain ⟨u, uprog, W, A, n, hr, hn, hix⟩ := js_wrap_ok h
  rw [hix] at hrun
  obtain ⟨t, m, _, _, happ, _⟩ := wrap_authorised hrun
  have hk : jsAuthority args.transferAuthority args.payer = ⟨k, false⟩ := by rw [ha]; rfl
  simp only [hk] at happ
  have hno : ∀ s, ¬ Signs ([Meta.rw r.recipient false, .rw W false, .ro A false, .ro uprog false,
         .ro args.wrappedTokenProgram false, .rw args.unwrappedTokenAccount false, .ro u false,
         .rw r.escrow false, .ro k false] ++ []) s := by
    rintro s ⟨m, hm, _, hs⟩
    simp only [List.append_nil, List.mem_cons, List.not_mem_nil, or_false] at hm
    rcases hm with rfl | rfl | rfl | rfl | rfl | rfl | rfl | rfl | rfl <;> simp [Meta.rw, Meta.ro] at hs
  unfold Approves at happ
  simp only [Meta.ro] at happ
  split at happ
  · rename_i ms hms'
    rcases happ with h | ⟨mem, _, h2, h3⟩
    · exact hno _ h
    · have := hms ms hms'
      cases mem with
      | nil => simp at h2; omega
      | cons s _ => exact hno s (h3 s (by simp))
  · exact hno _ happ

/-! ## unwrap -/

/-- How the JavaScript client finds the accounts of an Unwrap.  The wrapped mint is that of the wrapped
token account. -/
structure JsUnwrapResolved (env : Env) (args : Js.UnwrapArgs) (L : Ledger)
    (u wprog uprog W A E : Pubkey) : Prop where
  wrappedProgram : args.wrappedTokenProgram = some wprog ∨
    args.wrappedTokenProgram = none ∧ (L args.wrappedTokenAccount).owner = wprog
  unwrappedProgram : args.unwrappedTokenProgram = some uprog ∨
    args.unwrappedTokenProgram = none ∧ (L args.recipient).owner = uprog
  mint : args.unwrappedMint = some u ∨
    args.unwrappedMint = none ∧ ∃ t, (L args.recipient).data = .token t ∧ t.mint = u
  wrappedMint : ∃ t, (L args.wrappedTokenAccount).data = .token t ∧ t.mint = W
  authority : authorityAddress env.cr W = some A
  escrow : associatedTokenAddress env.cr A u uprog = some E

theorem js_unwrap_ok {args : Js.UnwrapArgs} {ix : Instr} (h : Js.singleSignerUnwrap env args L = .ok ix) :
    ∃ u wprog uprog W A E n, JsUnwrapResolved env args L u wprog uprog W A E ∧
      args.amount = (n : UInt64).toNat ∧
      ix = ⟨crateId,
        [.rw E false, .rw args.recipient false, .ro A false, .ro u false, .ro wprog false,
         .ro uprog false, .rw args.wrappedTokenAccount false, .rw W false,
         .ro (jsAuthority args.transferAuthority args.payer).key
           (jsAuthority args.transferAuthority args.payer).isSigner] ++ [], (unwrap n).pack⟩ := by
  simp only [Js.singleSignerUnwrap, Js.buildUnwrapIx, Js.unwrapIx, bind_ok_iff, okOr_ok_iff,
    pure_ok_iff] at h
  obtain ⟨wprog, h1, uprog, h2, u, h3, W, h4, A, hA, E, hE, b, hb, rfl⟩ := h
  rw [(js_addresses env.cr u W wprog).2.1] at hA
  obtain ⟨n, hn, rfl⟩ := encodeU64_ok.1 hb
  refine ⟨u, wprog, uprog, W, A, E, n, ⟨?_, ?_, ?_, ?_, hA, hE⟩, hn, rfl⟩
  · exact (orQuery_ok.1 h1).imp id fun h => ⟨h.1, (rpcOwner_ok.1 h.2).2⟩
  · exact (orQuery_ok.1 h2).imp id fun h => ⟨h.1, (rpcOwner_ok.1 h.2).2⟩
  · exact (orQuery_ok.1 h3).imp id fun h => ⟨h.1, (rpcTokenMint_ok.1 h.2).2⟩
  · exact (rpcTokenMint_ok.1 h4).2

/-- **C62** Whatever happened to the chain since: if the built instruction succeeds, the holder, the
wrapped supply and the escrow lost the amount and the recipient gained it less the transfer fee; and
the wrapped mint read from the holder's account is the one derived from the unwrapped mint. -/
theorem js_unwrap_effect {args : Js.UnwrapArgs} {ix : Instr} {L1 L2 : Ledger}
    (h : Js.singleSignerUnwrap env args L = .ok ix)
    (hrun : processInstruction env ix.accounts ix.data L1 = .ok L2) :
    ∃ u wprog uprog W A E, JsUnwrapResolved env args L u wprog uprog W A E ∧
      wrappedMintAddress env.cr u wprog = some W ∧
      (W ≠ u → E ≠ args.recipient →
      ∃ m fee, (L1 u).data = .mint m ∧ IsMintFee m env.epoch args.amount.toNat fee ∧
        fee ≤ args.amount.toNat ∧
        balanceOf L2 args.wrappedTokenAccount + args.amount.toNat =
          balanceOf L1 args.wrappedTokenAccount ∧
        supplyOf L2 W + args.amount.toNat = supplyOf L1 W ∧
        balanceOf L2 E + args.amount.toNat = balanceOf L1 E ∧
        balanceOf L2 args.recipient = balanceOf L1 args.recipient + (args.amount.toNat - fee)) := by
  obtain ⟨u, wprog, uprog, W, A, E, n, hr, hn, rfl⟩ := js_unwrap_ok h
  have hN : args.amount.toNat = n.toNat := by rw [hn]; rfl
  refine ⟨u, wprog, uprog, W, A, E, hr, ?_, ?_⟩
  · have := hrun
    rw [processInstruction_pack] at this
    simp only [dispatch, processUnwrap, parseUnwrap, List.cons_append, List.nil_append, ok_bind,
      bind_ok_iff, okOr_ok_iff, require_ok_iff, decide_eq_true_eq] at this
    obtain ⟨_, _, W', hW', _, hEq, _⟩ := this
    exact hW'.trans (congrArg some hEq)
  · intro h1 h2
    rw [hN]
    exact unwrap_pays_one_for_one hrun h1 h2

/-- **C62** If the account to unwrap from belongs to another mint than the wrapped mint of the pair,
the instruction is refused with `WrappedMintMismatch`. -/
theorem js_unwrap_wrong_account {args : Js.UnwrapArgs} {ix : Instr} {L1 : Ledger}
    {u wprog uprog W W' A E : Pubkey} (hz : args.amount ≠ 0)
    (h : Js.singleSignerUnwrap env args L = .ok ix)
    (hr : JsUnwrapResolved env args L u wprog uprog W' A E)
    (hW : wrappedMintAddress env.cr u wprog = some W) (hne : W' ≠ W) :
    processInstruction env ix.accounts ix.data L1 = .error (wrapErr .wrappedMintMismatch) := by
  obtain ⟨u0, wprog0, uprog0, W0, A0, E0, n, hr0, hn, rfl⟩ := js_unwrap_ok h
  have e1 : u0 = u := by
    rcases hr0.mint with h | ⟨h, t', h1, h2⟩ <;> rcases hr.mint with h' | ⟨h', t, h3, h4⟩ <;>
      rw [h] at h' <;> cases h'
    · rfl
    · rw [h1] at h3; cases h3; exact h2.symm.trans h4
  have e2 : wprog0 = wprog := by
    rcases hr0.wrappedProgram with h | ⟨h, h2⟩ <;> rcases hr.wrappedProgram with h' | ⟨h', h4⟩ <;>
      rw [h] at h' <;> cases h'
    · rfl
    · exact h2.symm.trans h4
  have e3 : W0 = W' := by
    obtain ⟨t, h1, h2⟩ := hr.wrappedMint
    obtain ⟨t', h3, h4⟩ := hr0.wrappedMint
    rw [h1] at h3; cases h3; exact h4.symm.trans h2
  subst e1 e2 e3
  have hz' : n ≠ 0 := by rintro rfl; exact hz (by rw [hn]; rfl)
  exact (unwrap_account_errors hz' hW hr0.authority hr0.escrow).1 hne

/-- **C62** The client works in every situation in which the tokens can be unwrapped at all. -/
theorem js_unwrap_succeeds {args : Js.UnwrapArgs} {W A wprog uprog u E : Pubkey} {fee : Nat}
    {e d h : TokenAcct} {m w : Mint} {n : UInt64} (hid : env.programId = crateId) (hz : n ≠ 0)
    (hn : args.amount = n.toNat) (hrej : ∀ p ix sg L, env.reject p ix sg L = none)
    (hs : (jsAuthority args.transferAuthority args.payer).isSigner = true)
    (c : CanUnwrap env L E args.recipient A u wprog uprog args.wrappedTokenAccount W
      (jsAuthority args.transferAuthority args.payer).key [] n.toNat fee e d h m w)
    (hex : (L args.wrappedTokenAccount).lamports ≠ 0 ∧ (L args.recipient).lamports ≠ 0)
    (hw : OmittedOr args.wrappedTokenProgram wprog) (hu : OmittedOr args.unwrappedMint u)
    (hp : OmittedOr args.unwrappedTokenProgram uprog) :
    ∃ ix L', Js.singleSignerUnwrap env args L = .ok ix ∧
      processInstruction env ix.accounts ix.data L = .ok L' := by
  obtain ⟨L', hL'⟩ := unwrap_succeeds hid hz hrej c
  have e1 : orQuery args.wrappedTokenProgram (rpcOwner L args.wrappedTokenAccount) = .ok wprog :=
    orQuery_ok.2 (hw.symm.imp id fun h => ⟨h, rpcOwner_ok.2 ⟨hex.1, c.hOwner⟩⟩)
  have e2 : orQuery args.unwrappedTokenProgram (rpcOwner L args.recipient) = .ok uprog :=
    orQuery_ok.2 (hp.symm.imp id fun h => ⟨h, rpcOwner_ok.2 ⟨hex.2, c.rOwner⟩⟩)
  have e3 : orQuery args.unwrappedMint (rpcTokenMint L args.recipient) = .ok u :=
    orQuery_ok.2 (hu.symm.imp id fun h => ⟨h, rpcTokenMint_ok.2 ⟨hex.2, d, c.rData, c.rMint⟩⟩)
  refine ⟨_, L', ?_, hL'⟩
  unfold Js.singleSignerUnwrap Js.buildUnwrapIx Js.unwrapIx
  rw [e1, ok_bind, e2, ok_bind, e3, ok_bind, rpcTokenMint_ok.2 ⟨hex.1, h, c.hData, c.hMint⟩, ok_bind,
    (js_addresses env.cr u W wprog).2.1, c.addrA, okOr_some, ok_bind, c.addrE, okOr_some, ok_bind, hn,
    encodeU64_eq, ok_bind]
  have : args.transferAuthority.getD ⟨args.payer, true⟩ =
      jsAuthority args.transferAuthority args.payer := rfl
  rw [this, Js.metaOf, hs]
  rfl

end

/-! ## Combining offline signatures -/

section
variable {Sig : Type}

theorem keys_recordSet (r : List (Pubkey × Option Sig)) (k : Pubkey) (v : Option Sig) :
    (Js.recordSet r k v).map (·.1) = if k ∈ r.map (·.1) then r.map (·.1) else r.map (·.1) ++ [k] := by
  unfold Js.recordSet
  by_cases h : k ∈ r.map (·.1)
  · rw [if_pos (List.contains_iff_mem.2 h), if_pos h, List.map_map]
    apply List.map_congr_left
    intro e _
    by_cases he : e.1 = k <;> simp [he]
  · rw [if_neg (by rw [List.contains_iff_mem]; exact h), if_neg h]
    simp

theorem mem_recordSet {r : List (Pubkey × Option Sig)} {k : Pubkey} {v : Option Sig}
    {e : Pubkey × Option Sig} :
    e ∈ Js.recordSet r k v ↔ e = (k, v) ∨ (e ∈ r ∧ e.1 ≠ k) := by
  unfold Js.recordSet
  by_cases h : k ∈ r.map (·.1)
  · rw [if_pos (List.contains_iff_mem.2 h)]
    simp only [List.mem_map]
    constructor
    · rintro ⟨e', h1, h2⟩
      by_cases he : e'.1 = k
      · rw [if_pos he] at h2; exact .inl h2.symm
      · rw [if_neg he] at h2; subst h2; exact .inr ⟨h1, he⟩
    · rintro (rfl | ⟨h1, h2⟩)
      · obtain ⟨e', h1, h2⟩ := List.mem_map.1 h
        exact ⟨e', h1, by rw [if_pos h2]⟩
      · exact ⟨e, h1, by rw [if_neg h2]⟩
  · rw [if_neg (by rw [List.contains_iff_mem]; exact h)]
    simp only [List.mem_append, List.mem_cons, List.not_mem_nil, or_false]
    constructor
    · rintro (h1 | h1)
      · exact .inr ⟨h1, fun hk => h (hk ▸ List.mem_map_of_mem h1)⟩
      · exact .inl h1
    · rintro (h1 | ⟨h1, _⟩)
      · exact .inr h1
      · exact .inl h1

/-- Step 1: every signer of the first transaction, in order, without signature. -/
theorem init_mem (es : List (Pubkey × Option Sig)) (acc : List (Pubkey × Option Sig))
    (hacc : ∀ e ∈ acc, e.2 = none) (e : Pubkey × Option Sig) :
    e ∈ es.foldl (fun acc e => Js.recordSet acc e.1 none) acc ↔
      e.2 = none ∧ (e.1 ∈ acc.map (·.1) ∨ e.1 ∈ es.map (·.1)) := by
  induction es generalizing acc with
  | nil =>
    simp only [List.foldl_nil, List.map_nil, List.not_mem_nil, or_false]
    constructor
    · exact fun h => ⟨hacc e h, List.mem_map_of_mem h⟩
    · rintro ⟨h1, h2⟩
      obtain ⟨e', h3, h4⟩ := List.mem_map.1 h2
      have := hacc e' h3
      have : e' = e := Prod.ext h4 (this.trans h1.symm)
      exact this ▸ h3
  | cons x xs ih =>
    rw [List.foldl_cons, ih _ ?_, keys_recordSet]
    · by_cases hx : x.1 ∈ acc.map (·.1)
      · rw [if_pos hx]
        simp only [List.map_cons, List.mem_cons]
        refine and_congr_right fun _ => ⟨fun h => h.imp id .inr, ?_⟩
        rintro (h | h | h)
        · exact .inl h
        · exact .inl (h ▸ hx)
        · exact .inr h
      · rw [if_neg hx]
        simp only [List.map_cons, List.mem_cons, List.mem_append, List.not_mem_nil, or_false, or_assoc]
    · intro e he
      rcases mem_recordSet.1 he with h | ⟨h, _⟩
      · rw [h]
      · exact hacc e h

theorem init_keys (es : List (Pubkey × Option Sig)) (acc : List (Pubkey × Option Sig))
    (h : (acc.map (·.1) ++ es.map (·.1)).Nodup) :
    (es.foldl (fun acc e => Js.recordSet acc e.1 none) acc).map (·.1) = acc.map (·.1) ++ es.map (·.1) := by
  induction es generalizing acc with
  | nil => simp
  | cons x xs ih =>
    have hx : x.1 ∉ acc.map (·.1) := by
      intro hx
      rw [List.map_cons, List.nodup_append] at h
      exact h.2.2 _ hx _ (by simp) rfl
    have hk : (Js.recordSet acc x.1 (none : Option Sig)).map (·.1) = acc.map (·.1) ++ [x.1] := by
      rw [keys_recordSet, if_neg hx]
    rw [List.foldl_cons, ih _ (by rw [hk]; simpa using h), hk]
    simp

/-- Step 2. -/
theorem gather_mem (es : List (Pubkey × Option Sig)) (acc : List (Pubkey × Option Sig)) :
    (∀ k s, (k, some s) ∈ es.foldl Js.gatherOne acc → (k, some s) ∈ acc ∨ (k, some s) ∈ es) ∧
    (∀ k, (k, none) ∈ es.foldl Js.gatherOne acc ↔ (k, none) ∈ acc ∧ ∀ s, (k, some s) ∉ es) ∧
    (∀ k s, (k, some s) ∈ es → ∃ s', (k, some s') ∈ es.foldl Js.gatherOne acc) ∧
    (∀ k s, (k, some s) ∈ acc → ∃ s', (k, some s') ∈ es.foldl Js.gatherOne acc) := by
  induction es generalizing acc with
  | nil => simp; exact fun k s h => ⟨s, h⟩
  | cons x xs ih =>
    obtain ⟨kx, vx⟩ := x
    rw [List.foldl_cons]
    obtain ⟨i1, i2, i3, i4⟩ := ih (Js.gatherOne acc (kx, vx))
    cases vx with
    | none =>
      have hg : Js.gatherOne acc (kx, none) = acc := rfl
      rw [hg] at i1 i2 i3 i4 ⊢
      refine ⟨fun k s h => (i1 k s h).imp id (List.mem_cons_of_mem _), ?_, ?_, i4⟩
      · intro k
        rw [i2]
        refine and_congr_right fun _ => forall_congr' fun s => ?_
        simp
      · intro k s h
        simp only [List.mem_cons, Prod.mk.injEq, reduceCtorEq, and_false, false_or] at h
        exact i3 k s h
    | some sx =>
      have hg : Js.gatherOne acc (kx, some sx) = Js.recordSet acc kx (some sx) := rfl
      rw [hg] at i1 i2 i3 i4 ⊢
      refine ⟨?_, ?_, ?_, ?_⟩
      · intro k s h
        rcases i1 k s h with h | h
        · rcases mem_recordSet.1 h with h | ⟨h, _⟩
          · exact .inr (by rw [h]; simp)
          · exact .inl h
        · exact .inr (List.mem_cons_of_mem _ h)
      · intro k
        rw [i2, mem_recordSet]
        simp only [Prod.mk.injEq, reduceCtorEq, and_false, false_or, List.mem_cons, Option.some.injEq,
          not_or, not_and]
        constructor
        · rintro ⟨⟨h1, h2⟩, h3⟩
          exact ⟨h1, fun s => ⟨fun h => absurd h h2, h3 s⟩⟩
        · rintro ⟨h1, h2⟩
          exact ⟨⟨h1, fun h => (h2 sx).1 h rfl⟩, fun s => (h2 s).2⟩
      · intro k s h
        rcases List.mem_cons.1 h with h | h
        · rw [Prod.mk.injEq] at h
          rw [h.1]
          exact i4 kx sx (mem_recordSet.2 (.inl rfl))
        · exact i3 k s h
      · intro k s h
        by_cases hk : k = kx
        · subst hk; exact i4 k sx (mem_recordSet.2 (.inl rfl))
        · exact i4 k s (mem_recordSet.2 (.inr ⟨h, hk⟩))

theorem gather_keys (es : List (Pubkey × Option Sig)) (acc : List (Pubkey × Option Sig)) :
    acc.map (·.1) <+: (es.foldl Js.gatherOne acc).map (·.1) ∧
    ((∀ k s, (k, some s) ∈ es → k ∈ acc.map (·.1)) →
      (es.foldl Js.gatherOne acc).map (·.1) = acc.map (·.1)) := by
  induction es generalizing acc with
  | nil => simp
  | cons x xs ih =>
    obtain ⟨kx, vx⟩ := x
    rw [List.foldl_cons]
    have hk : acc.map (·.1) <+: (Js.gatherOne acc (kx, vx)).map (·.1) ∧
        ((vx.isSome → kx ∈ acc.map (·.1)) → (Js.gatherOne acc (kx, vx)).map (·.1) = acc.map (·.1)) := by
      cases vx with
      | none => exact ⟨List.prefix_rfl, fun _ => rfl⟩
      | some sx =>
        show _ <+: (Js.recordSet acc kx (some sx)).map (·.1) ∧ (_ → (Js.recordSet acc kx (some sx)).map (·.1) = _)
        rw [keys_recordSet]
        by_cases h : kx ∈ acc.map (·.1)
        · rw [if_pos h]; exact ⟨List.prefix_rfl, fun _ => rfl⟩
        · rw [if_neg h]; exact ⟨List.prefix_append _ _, fun h' => absurd (h' rfl) h⟩
    obtain ⟨i1, i2⟩ := ih (Js.gatherOne acc (kx, vx))
    refine ⟨hk.1.trans i1, fun h => ?_⟩
    have he := hk.2 (fun hs => by
      obtain ⟨s, rfl⟩ := Option.isSome_iff_exists.1 hs
      exact h kx s (by simp))
    rw [i2, he]
    intro k s hs
    rw [he]
    exact h k s (List.mem_cons_of_mem _ hs)

/-- A signature of `k` is found in one of the transactions. -/
def SignedBy (txs : List (Js.SignedTx Sig)) (k : Pubkey) (s : Sig) : Prop :=
  ∃ t ∈ txs, (k, some s) ∈ t.signatures

theorem messageBytesEqual_ok {txs : List (Js.SignedTx Sig)} {b : Bool} :
    Js.messageBytesEqual txs = .ok b →
      txs ≠ [] ∧ (b = true ↔ ∀ t ∈ txs, ∀ t' ∈ txs, t.messageBytes = t'.messageBytes) := by
  intro h
  rcases txs with _ | ⟨t, _ | ⟨t', ts⟩⟩
  · cases h
  · simp only [Js.messageBytesEqual, Except.ok.injEq] at h
    subst h
    simp
  · simp only [Js.messageBytesEqual, Except.ok.injEq] at h
    subst h
    refine ⟨by simp, ?_⟩
    rw [List.all_eq_true]
    constructor
    · intro h a ha b hb
      have h1 := of_decide_eq_true (h a ha)
      have h2 := of_decide_eq_true (h b hb)
      exact h1.symm.trans h2
    · intro h c hc
      exact decide_eq_true (h t (by simp) c hc)

theorem combine_ok {first : Js.SignedTx Sig} {rest : List (Js.SignedTx Sig)} {sigs : List (Pubkey × Sig)} :
    Js.combineSignatures (first :: rest) = .ok sigs ↔
      (∀ k ∈ first.signatures.map (·.1), ∃ s, SignedBy (first :: rest) k s) ∧
      sigs = (((first :: rest).flatMap (·.signatures)).foldl Js.gatherOne
        (first.signatures.foldl (fun acc e => Js.recordSet acc e.1 none) [])).filterMap
          (fun e => e.2.map fun s => (e.1, s)) := by
  have hflat : ∀ k s, (k, some s) ∈ (first :: rest).flatMap (·.signatures) ↔
      SignedBy (first :: rest) k s := by
    intro k s
    simp only [List.mem_flatMap, SignedBy]
  have hinit := init_mem first.signatures ([] : List (Pubkey × Option Sig)) (by simp)
  have hg := gather_mem ((first :: rest).flatMap (·.signatures))
    (first.signatures.foldl (fun acc e => Js.recordSet acc e.1 none) [])
  unfold Js.combineSignatures
  simp only
  split
  · rename_i h
    simp only [reduceCtorEq, false_iff, not_and]
    intro hall
    exfalso
    rw [List.any_eq_true] at h
    obtain ⟨⟨k, v⟩, he, hv⟩ := h
    simp only [Option.isNone_iff_eq_none] at hv
    subst hv
    obtain ⟨h1, h2⟩ := (hg.2.1 k).1 he
    have h3 := (hinit (k, none)).1 h1
    simp only [List.map_nil, List.not_mem_nil, false_or, true_and] at h3
    obtain ⟨s, hs⟩ := hall k h3
    exact h2 s ((hflat k s).2 hs)
  · rename_i h
    simp only [Except.ok.injEq]
    constructor
    · rintro rfl
      refine ⟨?_, rfl⟩
      intro k hk
      by_contra hc
      apply h
      rw [List.any_eq_true]
      refine ⟨(k, none), (hg.2.1 k).2 ⟨(hinit (k, none)).2 ⟨rfl, .inr hk⟩, ?_⟩, rfl⟩
      intro s hs
      exact hc ⟨s, (hflat k s).1 hs⟩
    · rintro ⟨_, rfl⟩; rfl

/-- **C63** Combining partially signed transactions succeeds exactly if there is at least one, all are
the same message, and every signer of the first has signed one of them. -/
theorem js_combine_iff (txs : List (Js.SignedTx Sig)) :
    (∃ r, Js.combinedMultisigTx txs = .ok r) ↔
      txs ≠ [] ∧ (∀ t ∈ txs, ∀ t' ∈ txs, t.messageBytes = t'.messageBytes) ∧
      ∀ first ∈ txs.head?, ∀ k ∈ first.signatures.map (·.1), ∃ s, SignedBy txs k s := by
  cases txs with
  | nil => simp [Js.combinedMultisigTx, Js.messageBytesEqual]
  | cons first rest =>
    have hne : ∃ b, Js.messageBytesEqual (first :: rest) = .ok b := by
      cases rest <;> exact ⟨_, rfl⟩
    obtain ⟨b, hb⟩ := hne
    have hb' := (messageBytesEqual_ok hb).2
    simp only [Js.combinedMultisigTx, hb, ok_bind, bind_ok_iff, require_ok_iff, combine_ok, pure_ok_iff]
    constructor
    · rintro ⟨r, _, h1, sigs, ⟨h2, _⟩, _⟩
      refine ⟨by simp, hb'.1 h1, ?_⟩
      simpa using h2
    · rintro ⟨_, h1, h2⟩
      refine ⟨_, (), hb'.2 h1, _, ⟨?_, rfl⟩, rfl⟩
      simpa using h2

/-- **C63** What is combined: the common message; only signatures found in the inputs; one for everyone
who signed anything; in the order of the first transaction. -/
theorem js_combine_sound {txs : List (Js.SignedTx Sig)} {msg : Bytes} {sigs : List (Pubkey × Sig)}
    (h : Js.combinedMultisigTx txs = .ok (msg, sigs)) :
    (∀ t ∈ txs, t.messageBytes = msg) ∧
    (∀ k s, (k, s) ∈ sigs → SignedBy txs k s) ∧
    (∀ k s, SignedBy txs k s → ∃ s', (k, s') ∈ sigs) ∧
    ∀ first ∈ txs.head?, (first.signatures.map (·.1)).Nodup →
      first.signatures.map (·.1) <+: sigs.map (·.1) ∧
      ((∀ t ∈ txs, ∀ k ∈ t.signatures.map (·.1), k ∈ first.signatures.map (·.1)) →
        sigs.map (·.1) = first.signatures.map (·.1)) := by
  cases txs with
  | nil => simp [Js.combinedMultisigTx, Js.messageBytesEqual] at h
  | cons first rest =>
    simp only [Js.combinedMultisigTx, bind_ok_iff, require_ok_iff, combine_ok, pure_ok_iff,
      Prod.mk.injEq] at h
    obtain ⟨b, hb, _, rfl, sigs', ⟨hall, hs⟩, rfl, rfl⟩ := h
    have hinit := init_mem first.signatures ([] : List (Pubkey × Option Sig)) (by simp)
    have hg := gather_mem ((first :: rest).flatMap (·.signatures))
      (first.signatures.foldl (fun acc e => Js.recordSet acc e.1 none) [])
    have hflat : ∀ k s, (k, some s) ∈ (first :: rest).flatMap (·.signatures) ↔
        SignedBy (first :: rest) k s := by
      intro k s
      simp only [List.mem_flatMap, SignedBy]
    have hmem : ∀ k s, (k, s) ∈ sigs' ↔ (k, some s) ∈ ((first :: rest).flatMap (·.signatures)).foldl
        Js.gatherOne (first.signatures.foldl (fun acc e => Js.recordSet acc e.1 none) []) := by
      intro k s
      rw [hs, List.mem_filterMap]
      constructor
      · rintro ⟨⟨k', v⟩, h1, h2⟩
        cases v with
        | none => simp at h2
        | some s' => simp at h2; rw [← h2.1, ← h2.2]; exact h1
      · intro h1; exact ⟨(k, some s), h1, rfl⟩
    refine ⟨?_, ?_, ?_, ?_⟩
    · intro t ht
      exact (messageBytesEqual_ok hb).2.1 rfl t ht first (by simp)
    · intro k s hk
      rcases hg.1 k s ((hmem k s).1 hk) with h | h
      · simpa using ((hinit _).1 h).1
      · exact (hflat k s).1 h
    · intro k s hk
      obtain ⟨s', h⟩ := hg.2.2.1 k s ((hflat k s).2 hk)
      exact ⟨s', (hmem k s').2 h⟩
    · intro f hf hnd
      simp only [List.head?_cons, Option.mem_def, Option.some.injEq] at hf
      subst hf
      have hik := init_keys first.signatures ([] : List (Pubkey × Option Sig)) (by simpa using hnd)
      have hgk := gather_keys ((first :: rest).flatMap (·.signatures))
        (first.signatures.foldl (fun acc e => Js.recordSet acc e.1 none) [])
      rw [hik] at hgk
      simp only [List.map_nil, List.nil_append] at hgk
      have hsk : sigs'.map (·.1) = (((first :: rest).flatMap (·.signatures)).foldl
          Js.gatherOne (first.signatures.foldl (fun acc e => Js.recordSet acc e.1 none) [])).map (·.1) := by
        have hsome : ∀ e ∈ (((first :: rest).flatMap (·.signatures)).foldl
            Js.gatherOne (first.signatures.foldl (fun acc e => Js.recordSet acc e.1 none) [])),
            e.2.isSome = true := by
          rintro ⟨k, v⟩ he
          cases v with
          | some s => rfl
          | none =>
            exfalso
            obtain ⟨h1, h2⟩ := (hg.2.1 k).1 he
            have h3 := (hinit (k, none)).1 h1
            simp only [List.map_nil, List.not_mem_nil, false_or, true_and] at h3
            obtain ⟨s, hs⟩ := hall k h3
            exact h2 s ((hflat k s).2 hs)
        rw [hs]
        generalize (((first :: rest).flatMap (·.signatures)).foldl
            Js.gatherOne (first.signatures.foldl (fun acc e => Js.recordSet acc e.1 none) [])) = l at hsome
        clear * - hsome
        induction l with
        | nil => rfl
        | cons e es ih =>
          obtain ⟨k, v⟩ := e
          cases v with
          | none => exact absurd (hsome (k, none) (by simp)) (by simp)
          | some s =>
            simp only [List.filterMap_cons, Option.map_some, List.map_cons, List.cons.injEq, true_and]
            exact ih fun e he => hsome e (List.mem_cons_of_mem _ he)
      refine ⟨hsk ▸ hgk.1, fun hsub => hsk.trans (hgk.2 ?_)⟩
      intro k s hk
      obtain ⟨t, ht, hk⟩ := List.mem_flatMap.1 hk
      exact hsub t ht k (List.mem_map_of_mem (f := (·.1)) hk)

/-- **C63** If nobody signed two different ways, the combined signatures are exactly those given, so
the order in which the partially signed transactions are passed does not matter. -/
theorem js_combine_exact {txs : List (Js.SignedTx Sig)} {msg : Bytes} {sigs : List (Pubkey × Sig)}
    (h : Js.combinedMultisigTx txs = .ok (msg, sigs))
    (hagree : ∀ k s s', SignedBy txs k s → SignedBy txs k s' → s = s') (k : Pubkey) (s : Sig) :
    (k, s) ∈ sigs ↔ SignedBy txs k s := by
  obtain ⟨_, h1, h2, _⟩ := js_combine_sound h
  refine ⟨h1 k s, fun hs => ?_⟩
  obtain ⟨s', h'⟩ := h2 k s hs
  rw [hagree k s s' hs (h1 k s' h')]
  exact h'

end

/-! ## Escrow creation and the backpointer -/

section
variable {env : Env} {L : Ledger}

/-- **C64** `createEscrowAccount` and the CLI agree: nothing exists at the escrow address - both create
the same associated account; a token account exists - both leave it alone; anything else there with
lamports makes the JavaScript client fail, where the CLI reports an existing escrow. -/
theorem js_escrow_eq_cli {payer : CliSigner} {u wprog uprog W A E : Pubkey} {m : Mint}
    (hp : uprog = splTokenId ∨ uprog = token2022Id)
    (hW : wrappedMintAddress env.cr u wprog = some W) (hA : authorityAddress env.cr W = some A)
    (hE : associatedTokenAddress env.cr A u uprog = some E)
    (hul : (L u).lamports ≠ 0) (huo : (L u).owner = uprog) (hud : (L u).data = .mint m) :
    ((L E).lamports = 0 →
      Js.createEscrowAccount env payer.key u wprog L = .ok (.create E [.createAta payer.key A u uprog]) ∧
      ∃ tx, cliCreateEscrow env payer u wprog true L = .ok (some tx) ∧
        tx.instructions = [.createAta payer.key A u uprog]) ∧
    (∀ t, (L E).lamports ≠ 0 → (L E).data = .token t →
      Js.createEscrowAccount env payer.key u wprog L = .ok (.alreadyExists t) ∧
      cliCreateEscrow env payer u wprog true L = .ok none) ∧
    ((L E).lamports ≠ 0 → (∀ t, (L E).data ≠ .token t) →
      Js.createEscrowAccount env payer.key u wprog L = .error .codec ∧
      cliCreateEscrow env payer u wprog true L = .ok none) := by
  have hE' : escrowAddress env.cr u uprog wprog = some E :=
    (escrowAddress_eq _ _ _ _ _ _ hW hA).trans hE
  have j : Js.createEscrowAccount env payer.key u wprog L =
      match rpcAccount L E with
      | .ok a => match a.data with
        | .token t => pure (.alreadyExists t)
        | _ => .error .codec
      | .error _ => pure (.create E [.createAta payer.key A u uprog]) := by
    unfold Js.createEscrowAccount
    rw [(js_addresses env.cr u W wprog).1, hW, okOr_some, ok_bind,
      (js_addresses env.cr u W wprog).2.1, hA, okOr_some, ok_bind, rpcOwner_ok.2 ⟨hul, huo⟩, ok_bind,
      hE, okOr_some, ok_bind]
    rfl
  have c : cliCreateEscrow env payer u wprog true L =
      match rpcAccount L E with
      | .ok _ => pure none
      | .error _ => (do
          let tx ← partialSign payer.key [.createAta payer.key A u uprog] [payer]
          pure (some tx)) := by
    unfold cliCreateEscrow
    rw [rpcAssertMint_ok hul (huo ▸ hp) hud, ok_bind, rpcOwner_ok.2 ⟨hul, huo⟩, ok_bind, hW, okOr_some,
      ok_bind, hA, okOr_some, ok_bind, hE', okOr_some, ok_bind]
    rfl
  rw [j, c]
  refine ⟨?_, ?_, ?_⟩
  · intro h0
    have : rpcAccount L E = .error .accountNotFound := by simp [rpcAccount, h0]
    rw [this]
    refine ⟨rfl, ⟨payer.key, [.createAta payer.key A u uprog], [payer]⟩, ?_, rfl⟩
    dsimp only
    rw [partialSign_eq (by simp [requiredSigners, ClientIx.signerKeys]), ok_bind]
    rfl
  · intro t h0 ht
    rw [rpcAccount_ok.2 ⟨h0, rfl⟩]
    simp only [ht]
    exact ⟨rfl, rfl⟩
  · intro h0 ht
    rw [rpcAccount_ok.2 ⟨h0, rfl⟩]
    refine ⟨?_, rfl⟩
    dsimp only
    cases hd : (L E).data with
    | token t => exact absurd hd (ht t)
    | _ => rfl

theorem fetchBackpointerFromSeeds_ok {cr : Crypto} {raw : Js.Raw} {L : Ledger} {X B k : Pubkey}
    (haddr : Js.findBackpointerPda cr X = some B) :
    Js.fetchBackpointerFromSeeds cr raw X L = .ok k ↔
      (L B).lamports ≠ 0 ∧ readKey ((raw.of (L B).data).take 32) = some k := by
  unfold Js.fetchBackpointerFromSeeds Js.fetchMaybeBackpointerFromSeeds Js.fetchMaybeBackpointer
    Js.fetchEncodedAccount
  rw [haddr, okOr_some, ok_bind]
  by_cases hl : (L B).lamports = 0
  · rw [if_pos hl]
    simp [Js.decodeBackpointer, ok_bind, Js.assertExists, hl]
  · rw [if_neg hl]
    unfold Js.decodeBackpointer
    dsimp only
    cases readKey ((raw.of (L B).data).take 32) with
    | none => simp [error_bind]
    | some k' => simp [ok_bind, Js.assertExists, hl]

/-- **C64** In every history, reading the backpointer of a wrapped mint through the JavaScript client
gives the unwrapped mint, once the wrapped mint exists, and nothing before. -/
theorem js_backpointer {cr : Crypto} {s : Setting cr} {ok : Act → Ledger → Prop} {L0 L : Ledger}
    {trace : List Act} {raw : Js.Raw}
    (h0 : Fresh s L0) (h : History cr ok L0 trace L) :
    (¬ Blank L s.W → Js.fetchBackpointerFromSeeds cr raw s.W L = .ok s.u) ∧
    (∀ k, Js.fetchBackpointerFromSeeds cr raw s.W L = .ok k → k = s.u ∧ ¬ Blank L s.W) := by
  obtain ⟨_, hWB, hB⟩ := backpointer_integrity h0 h
  have haddr : Js.findBackpointerPda cr s.W = some s.B := by
    rw [(js_addresses cr s.W s.W s.W).2.2]; exact s.rB.1
  have hread : (L s.B).data = .bytes s.u.bytes → (L s.B).lamports ≠ 0 →
      Js.fetchBackpointerFromSeeds cr raw s.W L = .ok s.u := by
    intro hd hl
    refine (fetchBackpointerFromSeeds_ok haddr).2 ⟨hl, ?_⟩
    rw [hd, raw.bytes]
    have : s.u.bytes.take 32 = s.u.bytes := List.take_of_length_le (by rw [s.u.len])
    rw [this]
    exact readKey_some_iff.2 rfl
  have hlam : ¬ Blank L s.B → (L s.B).lamports ≠ 0 := by
    intro hb
    rcases (h.inv' h0).w with ⟨_, hb'⟩ | hw
    · exact absurd hb' hb
    · have := hw.bLam; omega
  refine ⟨fun hw => hread (hB (fun hb => hw (hWB.2 hb))).2 (hlam fun hb => hw (hWB.2 hb)), ?_⟩
  intro k hk
  obtain ⟨hl, hr⟩ := (fetchBackpointerFromSeeds_ok haddr).1 hk
  by_cases hb : Blank L s.B
  · rw [hb.2, raw.bytes] at hr
    simp [readKey] at hr
  · rw [hread (hB hb).2 hl] at hk
    exact ⟨(Except.ok.inj hk).symm, fun hw => hb (hWB.1 hw)⟩

end

/-! ## The hypotheses are met -/

namespace Example

open TokenWrap.Js

/-- The builders produce the bytes on the wire. -/
example : (match wrapIx crateId rcp W A token2022Id splTokenId src u E ⟨user, true⟩ [] 258 with
    | .ok ix => ix.data | .error _ => []) = [1, 2, 1, 0, 0, 0, 0, 0, 0] := by decide +kernel
/-- Amounts that do not fit are refused. -/
example : wrapIx crateId rcp W A token2022Id splTokenId src u E ⟨user, true⟩ [] (2 ^ 64) =
    .error .codec ∧ wrapIx crateId rcp W A token2022Id splTokenId src u E ⟨user, true⟩ [] (-1) =
    .error .codec := by decide +kernel

/-- The sync without optional accounts succeeds in both forms. -/
example : ok (processInstruction env (Build.syncMetadataToToken2022 crateId Ws As u none none).accounts
      (Build.syncMetadataToToken2022 crateId Ws As u none none).data (Lsync [.tokenMetadata oldMd])) = true ∧
    ok (processInstruction env (sync22Ix crateId Ws As u none none none).accounts
      (sync22Ix crateId Ws As u none none none).data (Lsync [.tokenMetadata oldMd])) = true := by
  decide +kernel

/-- An executed wrap is parsed to its amount and its nine accounts. -/
example : (parse wrapAccounts (wrap 1000).pack).toBool = true ∧
    (match parse wrapAccounts (wrap 1000).pack with
      | .ok p => decide (p.args = .wrap 1000 ∧ p.accounts = (wrapAccounts.take 9).map some)
      | .error _ => false) = true := by decide +kernel
/-- A sync built by the Rust builder without optional accounts is not parsed; with placeholders it is,
and they are reported as omitted. -/
example : parse (Build.syncMetadataToToken2022 crateId Ws As u none none).accounts
      syncMetadataToToken2022.pack = .error .insufficientAccounts ∧
    (match parse (sync22Ix crateId Ws As u none none none).accounts syncMetadataToToken2022.pack with
      | .ok p => decide (p.accounts.drop 4 = [none, none])
      | .error _ => false) = true := by decide +kernel
example : parse wrapAccounts (setCanonicalPointer user).pack = .error .unidentified := by decide +kernel

def jsW : WrapArgs :=
  { payer := user, unwrappedTokenAccount := src, wrappedTokenProgram := splTokenId, amount := 1000
    recipient := some rcp }
def jsWRes : WrapResult :=
  ⟨Build.wrap crateId rcp W A token2022Id splTokenId src u E user [] 1000, rcp, E⟩

example : singleSignerWrap env jsW L0 = .ok jsWRes := by decide +kernel
example : ok (processInstruction env jsWRes.ix.accounts jsWRes.ix.data L0) = true := by decide +kernel
/-- The same with the owner given as a plain address is refused by the program. -/
example : (match singleSignerWrap env { jsW with transferAuthority := some ⟨user, false⟩ } L0 with
    | .ok r => ok (processInstruction env r.ix.accounts r.ix.data L0) | .error _ => true) = false := by
  decide +kernel

def jsU : UnwrapArgs :=
  { payer := user, wrappedTokenAccount := rcp, amount := 7, recipient := src }
def jsUIx : Instr := Build.unwrap crateId E src A u splTokenId token2022Id rcp W user [] 7

example : singleSignerUnwrap env jsU L0 = .ok jsUIx := by decide +kernel
example : ok (processInstruction env jsUIx.accounts jsUIx.data L0) = true := by decide +kernel
/-- Unwrapping "from" an account of another mint. -/
def jsU' : UnwrapArgs :=
  { payer := user, wrappedTokenAccount := src, amount := 7, recipient := src
    wrappedTokenProgram := some splTokenId }
example : (match singleSignerUnwrap env jsU' L0 with
    | .ok ix => fails (processInstruction env ix.accounts ix.data L0) (wrapErr .wrappedMintMismatch)
    | .error _ => false) = true := by decide +kernel

/-- Two members signed separately; the payer signed the second copy only. -/
def jsTx1 : SignedTx Nat := ⟨[1, 2, 3], [(user, none), (.lit 41, some 41), (.lit 42, none)]⟩
def jsTx2 : SignedTx Nat := ⟨[1, 2, 3], [(user, some 7), (.lit 41, none), (.lit 42, some 42)]⟩

example : combinedMultisigTx [jsTx1, jsTx2] =
    .ok ([1, 2, 3], [(user, 7), (.lit 41, 41), (.lit 42, 42)]) := by decide +kernel
example : combinedMultisigTx [jsTx2, jsTx1] = combinedMultisigTx [jsTx1, jsTx2] := by decide +kernel
example : combinedMultisigTx [jsTx1] = .error .missingSignatures := by decide +kernel
example : combinedMultisigTx [jsTx1, { jsTx2 with messageBytes := [1, 2] }] = .error .notAllSame := by
  decide +kernel
example : combinedMultisigTx ([] : List (SignedTx Nat)) = .error .noTransactions := by decide +kernel
/-- Their signers are unique and the same. -/
example : (jsTx1.signatures.map (·.1)).Nodup ∧
    jsTx2.signatures.map (·.1) = jsTx1.signatures.map (·.1) := by decide +kernel

example : (match createEscrowAccount env user u splTokenId LnoEsc with
    | .ok (.create k ixs) => decide (k = E ∧ ixs = [.createAta user A u token2022Id])
    | _ => false) = true := by decide +kernel
example : (match createEscrowAccount env user u splTokenId L0 with
    | .ok (.alreadyExists t) => decide (t.owner = A) | _ => false) = true := by decide +kernel
/-- Five lamports at the escrow address make it throw. -/
example : (match createEscrowAccount env user u splTokenId (L0.set E ⟨5, systemId, .bytes []⟩) with
    | .error e => decide (e = .codec) | _ => false) = true := by decide +kernel

end Example

end TokenWrap
