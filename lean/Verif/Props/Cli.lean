import Verif.Props.CreateMint
import Verif.CliCommands
import Verif.Props.Wrap
import Verif.Props.Unwrap
import Verif.Props.Liveness
import Verif.Props.Close
import Verif.Props.Source
import Verif.Props.Sync22
import Verif.Props.SyncSpl
import Verif.Props.Pda
/-!
# The CLI commands (C55 - C59)
-/

namespace TokenWrap

open TokenWrapInstruction

/-! ## Vocabulary -/

/-- Every signature the transaction needs is there. -/
def CliTx.FullySigned (tx : CliTx) : Prop :=
  ∀ k ∈ requiredSigners tx.payer tx.instructions, tx.hasSignature k = true

/-- An optional argument is left out or has this value. -/
def OmittedOr (arg : Option Pubkey) (k : Pubkey) : Prop := arg = none ∨ arg = some k

/-- Every signature handed in belongs to somebody who has to sign: the payer, the single authority, or a
multisig member. -/
def SignaturesFit (payer authority : Pubkey) (members : List Pubkey) (presigners : List CliSigner) :
    Prop :=
  ∀ p ∈ presigners, p.key = payer ∨ (members = [] ∧ p.key = authority) ∨ p.key ∈ members

theorem SignaturesFit.nil {payer authority : Pubkey} {members : List Pubkey} :
    SignaturesFit payer authority members [] := by
  intro p hp; cases hp

/-! ## Signatures -/

theorem partialSign_ok {payer : Pubkey} {ixs : List ClientIx} {signers : List CliSigner} {tx : CliTx}
    (h : partialSign payer ixs signers = .ok tx) :
    tx = ⟨payer, ixs, signers⟩ ∧ ∀ s ∈ signers, s.key ∈ requiredSigners payer ixs := by
  simp only [partialSign, bind_ok_iff, require_ok_iff, List.all_eq_true, List.contains_iff_mem,
    pure_ok_iff, exists_const] at h
  exact ⟨h.2.symm, h.1⟩

theorem partialSign_eq {payer : Pubkey} {ixs : List ClientIx} {signers : List CliSigner}
    (h : ∀ s ∈ signers, s.key ∈ requiredSigners payer ixs) :
    partialSign payer ixs signers = .ok ⟨payer, ixs, signers⟩ := by
  have : (signers.all fun s => (requiredSigners payer ixs).contains s.key) = true := by
    simp only [List.all_eq_true, List.contains_iff_mem]; exact h
  simp only [partialSign, this, require_true, ok_bind]
  rfl

theorem hasSignature_of {tx : CliTx} {a b : List CliSigner} {k : Pubkey}
    (hs : tx.signers = a ++ b) (hk : k ∈ tx.signers.map (·.key)) (hb : ∀ s ∈ b, s.real = true)
    (ha : ∀ s ∈ a, s.real = true ∨ ∃ p ∈ b, p.key = s.key) : tx.hasSignature k = true := by
  unfold CliTx.hasSignature
  rw [hs, List.reverse_append, List.find?_append]
  rw [hs, List.map_append, List.mem_append] at hk
  cases hf : b.reverse.find? (fun s => decide (s.key = k)) with
  | some s =>
    simp only [Option.some_or]
    exact hb s (List.mem_reverse.1 (List.mem_of_find?_eq_some hf))
  | none =>
    simp only [Option.none_or]
    have hnb : ∀ s ∈ b, s.key ≠ k := by
      intro s hs
      have := List.find?_eq_none.1 hf s (List.mem_reverse.2 hs)
      simpa using this
    have hka : k ∈ a.map (·.key) := by
      rcases hk with h | h
      · exact h
      · obtain ⟨s, h1, h2⟩ := List.mem_map.1 h
        exact absurd h2 (hnb s h1)
    cases hg : a.reverse.find? (fun s => decide (s.key = k)) with
    | some s =>
      have hm := List.mem_reverse.1 (List.mem_of_find?_eq_some hg)
      have hkey : s.key = k := by simpa using List.find?_some hg
      rcases ha s hm with h | ⟨p, hp, h⟩
      · exact h
      · exact absurd (h.trans hkey) (hnb p hp)
    | none =>
      obtain ⟨s, h1, h2⟩ := List.mem_map.1 hka
      have := List.find?_eq_none.1 hg s (List.mem_reverse.2 h1)
      simp [h2] at this

/-- What `cliSigners` adds: payer, the authority (or the multisig members), and the presigners. -/
theorem mem_cliSigners_key {payer authority : CliSigner} {multisig presigners : List CliSigner}
    {k : Pubkey} :
    k ∈ (cliSigners payer authority multisig presigners).map (·.key) ↔
      k = payer.key ∨ (multisig = [] ∧ k = authority.key) ∨ k ∈ multisig.map (·.key) ∨
        k ∈ presigners.map (·.key) := by
  unfold cliSigners
  cases multisig with
  | cons m ms => simp [or_assoc]
  | nil =>
    by_cases h : payer.key = authority.key
    · simp only [List.isEmpty_nil, h, ne_eq, not_true_eq_false, false_and, if_false, List.map_append,
        List.map_cons, List.map_nil, List.append_nil, List.mem_append, List.mem_cons,
        List.not_mem_nil, or_false, true_and, false_or]
      rw [← or_assoc, or_self]
    · simp [h]

theorem requiredSigners_call {payer : Pubkey} {ix : Instr} {k : Pubkey} :
    k ∈ requiredSigners payer [.call ix] ↔ k = payer ∨ Signs ix.accounts k := by
  simp only [requiredSigners, List.flatMap_cons, List.flatMap_nil, List.append_nil,
    ClientIx.signerKeys, List.mem_cons, List.mem_map, List.mem_filter, Signs]
  constructor
  · rintro (h | ⟨m, ⟨h1, h2⟩, h3⟩)
    · exact .inl h
    · exact .inr ⟨m, h1, h3, h2⟩
  · rintro (h | ⟨m, h1, h2, h3⟩)
    · exact .inl h
    · exact .inr ⟨m, ⟨h1, h3⟩, h2⟩

theorem signs_build_wrap {rcp W A uprog wprog src u E tauth : Pubkey} {members : List Pubkey}
    {amount : UInt64} {k : Pubkey} :
    Signs (Build.wrap crateId rcp W A uprog wprog src u E tauth members amount).accounts k ↔
      (members = [] ∧ k = tauth) ∨ k ∈ members := by
  simp only [Signs, Build.wrap, List.mem_append, List.mem_cons, List.not_mem_nil, or_false,
    List.mem_map, Meta.rw, Meta.ro]
  constructor
  · rintro ⟨m, h | ⟨s, h1, rfl⟩, h2, h3⟩
    · rcases h with rfl | rfl | rfl | rfl | rfl | rfl | rfl | rfl | rfl <;> simp at h3
      exact .inl ⟨h3, h2.symm⟩
    · exact .inr (h2 ▸ h1)
  · rintro (⟨rfl, rfl⟩ | h)
    · exact ⟨⟨k, true, false⟩, by simp, rfl, rfl⟩
    · exact ⟨⟨k, true, false⟩, .inr ⟨k, h, rfl⟩, rfl, rfl⟩

theorem signs_build_unwrap {E rcp A u wprog uprog holder W tauth : Pubkey} {members : List Pubkey}
    {amount : UInt64} {k : Pubkey} :
    Signs (Build.unwrap crateId E rcp A u wprog uprog holder W tauth members amount).accounts k ↔
      (members = [] ∧ k = tauth) ∨ k ∈ members := by
  simp only [Signs, Build.unwrap, List.mem_append, List.mem_cons, List.not_mem_nil, or_false,
    List.mem_map, Meta.rw, Meta.ro]
  constructor
  · rintro ⟨m, h | ⟨s, h1, rfl⟩, h2, h3⟩
    · rcases h with rfl | rfl | rfl | rfl | rfl | rfl | rfl | rfl | rfl <;> simp at h3
      exact .inl ⟨h3, h2.symm⟩
    · exact .inr (h2 ▸ h1)
  · rintro (⟨rfl, rfl⟩ | h)
    · exact ⟨⟨k, true, false⟩, by simp, rfl, rfl⟩
    · exact ⟨⟨k, true, false⟩, .inr ⟨k, h, rfl⟩, rfl, rfl⟩

/-- The signer list matches what a wrap or unwrap instruction asks for. -/
theorem cliSigners_required {payer authority : CliSigner} {multisig presigners : List CliSigner}
    {ix : Instr}
    (hix : ∀ k, Signs ix.accounts k ↔
      (multisig.map (·.key) = [] ∧ k = authority.key) ∨ k ∈ multisig.map (·.key)) :
    (∀ k ∈ requiredSigners payer.key [.call ix],
        k ∈ (cliSigners payer authority multisig presigners).map (·.key)) ∧
    ((∀ s ∈ presigners, s.key ∈ requiredSigners payer.key [.call ix]) →
      ∀ s ∈ cliSigners payer authority multisig presigners,
        s.key ∈ requiredSigners payer.key [.call ix]) := by
  simp only [requiredSigners_call, hix, List.map_eq_nil_iff]
  refine ⟨?_, ?_⟩
  · rintro k (h | ⟨h1, h2⟩ | h)
    · exact mem_cliSigners_key.2 (.inl h)
    · exact mem_cliSigners_key.2 (.inr (.inl ⟨h1, h2⟩))
    · exact mem_cliSigners_key.2 (.inr (.inr (.inl h)))
  · intro hp s hs
    rcases mem_cliSigners_key.1 (List.mem_map_of_mem hs) with h | ⟨h1, h2⟩ | h | h
    · exact .inl h
    · exact .inr (.inl ⟨h1, h2⟩)
    · exact .inr (.inr h)
    · obtain ⟨p, h1, h2⟩ := List.mem_map.1 h
      exact h2 ▸ hp p h1

theorem cliSigners_split {payer authority : CliSigner} {multisig presigners : List CliSigner} :
    ∃ a, cliSigners payer authority multisig presigners = a ++ presigners ∧
      ∀ s ∈ a, s = payer ∨ (multisig = [] ∧ s = authority) ∨ s ∈ multisig := by
  refine ⟨_, rfl, ?_⟩
  intro s hs
  simp only [List.mem_append, List.mem_cons, List.not_mem_nil, or_false] at hs
  rcases hs with (h | h) | h
  · exact .inl h
  · split at h
    · rename_i hc
      exact .inr (.inl ⟨by simpa using hc.2, by simpa using h⟩)
    · simp at h
  · exact .inr (.inr h)

/-! ## wrap -/

section
variable {env : Env} {L : Ledger} {tx : CliTx}

theorem cliWrap_flat (env : Env) (args : CliWrapArgs) (L : Ledger) :
    cliWrap env args L = (do
      let u ← orQuery args.unwrappedMint (rpcTokenMint L args.unwrappedTokenAccount)
      let w ← okOr (wrappedMintAddress env.cr u args.wrappedTokenProgram) .panicked
      let auth ← okOr (authorityAddress env.cr w) .panicked
      let rcp ← orQuery args.recipient
        (okOr (associatedTokenAddress env.cr args.payer.key w args.wrappedTokenProgram) .panicked)
      let uprog ← orQuery args.unwrappedTokenProgram (rpcOwner L args.unwrappedTokenAccount)
      let escrow ← okOr (escrowAddress env.cr u uprog args.wrappedTokenProgram) .panicked
      partialSign args.payer.key
        [.call (Build.wrap crateId rcp w auth uprog args.wrappedTokenProgram
          args.unwrappedTokenAccount u escrow (args.transferAuthority.getD args.payer).key
          (args.multisig.map (·.key)) args.amount)]
        (cliSigners args.payer (args.transferAuthority.getD args.payer) args.multisig
          args.presigners)) := by
  simp only [cliWrap, cliWrapAddrs, cliWrapIx, bind_assoc, pure_bind]

/-- How the CLI fills in what the user left out. -/
structure CliWrapResolved (env : Env) (args : CliWrapArgs) (L : Ledger)
    (u uprog W A E rcp : Pubkey) : Prop where
  /-- the mint given, or that of the token account -/
  mint : args.unwrappedMint = some u ∨
    args.unwrappedMint = none ∧ ∃ t, (L args.unwrappedTokenAccount).data = .token t ∧ t.mint = u
  /-- the program given, or the owner of the token account -/
  prog : args.unwrappedTokenProgram = some uprog ∨
    args.unwrappedTokenProgram = none ∧ (L args.unwrappedTokenAccount).owner = uprog
  /-- the recipient given, or the payer's associated account for the wrapped mint -/
  recipient : args.recipient = some rcp ∨ args.recipient = none ∧
    associatedTokenAddress env.cr args.payer.key W args.wrappedTokenProgram = some rcp
  wrappedMint : wrappedMintAddress env.cr u args.wrappedTokenProgram = some W
  authority : authorityAddress env.cr W = some A
  escrow : escrowAddress env.cr u uprog args.wrappedTokenProgram = some E

theorem rpcOwner_ok {k o : Pubkey} :
    rpcOwner L k = .ok o ↔ (L k).lamports ≠ 0 ∧ (L k).owner = o := by
  unfold rpcOwner rpcAccount
  split <;> simp_all [-bind_pure_comp]

theorem rpcTokenMint_ok {k o : Pubkey} :
    rpcTokenMint L k = .ok o ↔
      (L k).lamports ≠ 0 ∧ ∃ t, (L k).data = .token t ∧ t.mint = o := by
  unfold rpcTokenMint rpcAccount
  split
  · simp_all
  · simp only [ok_bind]
    split
    · rename_i h1 _ t h2; simp [h1, h2]
    · rename_i h1 _ h2
      simp only [reduceCtorEq, false_iff, not_and]
      rintro _ ⟨t, ht, _⟩
      exact h2 t ht

theorem orQuery_ok {arg : Option Pubkey} {q : Except ClientErr Pubkey} {k : Pubkey} :
    orQuery arg q = .ok k ↔ arg = some k ∨ arg = none ∧ q = .ok k := by
  unfold orQuery
  cases arg <;> simp

/-- **C55** The transaction `wrap` sends is one Wrap instruction on the derived addresses; it is paid
for by the fee payer and needs exactly the signatures it collects. -/
theorem cli_wrap_transaction {args : CliWrapArgs} (h : cliWrap env args L = .ok tx) :
    ∃ u uprog W A E rcp, CliWrapResolved env args L u uprog W A E rcp ∧
      tx.payer = args.payer.key ∧
      tx.instructions = [.call (Build.wrap crateId rcp W A uprog args.wrappedTokenProgram
        args.unwrappedTokenAccount u E (args.transferAuthority.getD args.payer).key
        (args.multisig.map (·.key)) args.amount)] ∧
      ∀ k, k ∈ requiredSigners tx.payer tx.instructions ↔ k ∈ tx.signers.map (·.key) := by
  simp only [cliWrap_flat, bind_ok_iff, okOr_ok_iff] at h
  obtain ⟨u, hu, W, hW, A, hA, rcp, hr, uprog, hp, E, hE, h⟩ := h
  obtain ⟨rfl, hall⟩ := partialSign_ok h
  refine ⟨u, uprog, W, A, E, rcp, ⟨?_, ?_, ?_, hW, hA, hE⟩, rfl, rfl, ?_⟩
  · exact (orQuery_ok.1 hu).imp id fun h => ⟨h.1, (rpcTokenMint_ok.1 h.2).2⟩
  · exact (orQuery_ok.1 hp).imp id fun h => ⟨h.1, (rpcOwner_ok.1 h.2).2⟩
  · exact (orQuery_ok.1 hr).imp id fun h => ⟨h.1, okOr_ok_iff.1 h.2⟩
  · intro k
    refine ⟨(cliSigners_required (fun k => signs_build_wrap)).1 k, ?_⟩
    intro hk
    obtain ⟨s, h1, h2⟩ := List.mem_map.1 hk
    exact h2 ▸ hall s h1

/-- **C55** The transaction is fully signed when every key it collected is either present or
presigned; so the multisig flow of collecting `PUBKEY=SIGNATURE` arguments works. -/
theorem cli_wrap_fully_signed {args : CliWrapArgs} (h : cliWrap env args L = .ok tx)
    (hp : ∀ s ∈ args.presigners, s.real = true)
    (ha : ∀ s, s = args.payer ∨ (args.multisig = [] ∧ args.transferAuthority = some s) ∨
      s ∈ args.multisig → s.real = true ∨ ∃ p ∈ args.presigners, p.key = s.key) :
    tx.FullySigned := by
  obtain ⟨u, uprog, W, A, E, rcp, _, hpay, hins, hk⟩ := cli_wrap_transaction h
  intro k hkr
  obtain ⟨a, h1, h2⟩ := cliSigners_split (payer := args.payer)
    (authority := args.transferAuthority.getD args.payer) (multisig := args.multisig)
    (presigners := args.presigners)
  have hs : tx.signers = a ++ args.presigners := by
    simp only [cliWrap_flat, bind_ok_iff, okOr_ok_iff] at h
    obtain ⟨u, hu, W, hW, A, hA, rcp, hr, uprog, hp, E, hE, h⟩ := h
    obtain ⟨rfl, _⟩ := partialSign_ok h
    exact h1
  refine hasSignature_of hs ((hk k).1 hkr) hp ?_
  intro s hsa
  rcases h2 s hsa with h | ⟨h, h'⟩ | h
  · exact ha s (.inl h)
  · cases ht : args.transferAuthority with
    | none => rw [ht] at h'; exact ha s (.inl h')
    | some t => rw [ht] at h'; exact ha s (.inr (.inl ⟨h, by rw [ht, h']; rfl⟩))
  · exact ha s (.inr (.inr h))

theorem runClient_call {ix : Instr} {L L' : Ledger} :
    runClient env [.call ix] L = .ok L' ↔ processInstruction env ix.accounts ix.data L = .ok L' := by
  simp [runClient, runClientIx]

/-- **C55** Whatever happened to the chain between looking up the accounts and executing the
transaction: if it succeeds, the source account lost the amount, and the escrow of the resolved pair,
the recipient and the wrapped supply gained the amount less the transfer fee. -/
theorem cli_wrap_effect {args : CliWrapArgs} {L1 L2 : Ledger} (h : cliWrap env args L = .ok tx)
    (hrun : runClient env tx.instructions L1 = .ok L2) :
    ∃ u uprog W A E rcp, CliWrapResolved env args L u uprog W A E rcp ∧
      (args.unwrappedTokenAccount ≠ E →
      ∃ m fee, (L1 u).data = .mint m ∧ IsMintFee m env.epoch args.amount.toNat fee ∧
        fee ≤ args.amount.toNat ∧
        balanceOf L2 args.unwrappedTokenAccount + args.amount.toNat =
          balanceOf L1 args.unwrappedTokenAccount ∧
        balanceOf L2 E = balanceOf L1 E + (args.amount.toNat - fee) ∧
        balanceOf L2 rcp = balanceOf L1 rcp + (args.amount.toNat - fee) ∧
        supplyOf L2 W = supplyOf L1 W + (args.amount.toNat - fee)) := by
  obtain ⟨u, uprog, W, A, E, rcp, hr, hpay, hins, hk⟩ := cli_wrap_transaction h
  refine ⟨u, uprog, W, A, E, rcp, hr, ?_⟩
  rw [hins, runClient_call] at hrun
  intro hne
  exact wrap_credits_exactly_what_escrow_receives hrun hne

/-- **C55** The command works in every situation in which the tokens can be wrapped at all: arguments
may be left out or given correctly. -/
theorem cli_wrap_succeeds {args : CliWrapArgs} {rcp W A uprog u E : Pubkey} {fee : Nat}
    {s d r : TokenAcct} {m w : Mint} (hid : env.programId = crateId) (hz : args.amount ≠ 0)
    (hrej : ∀ p ix sg L, env.reject p ix sg L = none)
    (c : CanWrap env L rcp W A uprog args.wrappedTokenProgram args.unwrappedTokenAccount u E
      (args.transferAuthority.getD args.payer).key (args.multisig.map (·.key)) args.amount.toNat fee
      s d r m w)
    (hex : (L args.unwrappedTokenAccount).lamports ≠ 0)
    (hu : OmittedOr args.unwrappedMint u) (hp : OmittedOr args.unwrappedTokenProgram uprog)
    (hr : args.recipient = some rcp ∨ args.recipient = none ∧
      associatedTokenAddress env.cr args.payer.key W args.wrappedTokenProgram = some rcp)
    (hpre : SignaturesFit args.payer.key (args.transferAuthority.getD args.payer).key
      (args.multisig.map (·.key)) args.presigners) :
    ∃ tx L', cliWrap env args L = .ok tx ∧ runClient env tx.instructions L = .ok L' := by
  obtain ⟨L', hL'⟩ := wrap_succeeds hid hz hrej c
  have e1 : orQuery args.unwrappedMint (rpcTokenMint L args.unwrappedTokenAccount) = .ok u :=
    orQuery_ok.2 (hu.symm.imp id fun h => ⟨h, rpcTokenMint_ok.2 ⟨hex, s, c.srcData, c.srcMint⟩⟩)
  have e2 : orQuery args.unwrappedTokenProgram (rpcOwner L args.unwrappedTokenAccount) = .ok uprog :=
    orQuery_ok.2 (hp.symm.imp id fun h => ⟨h, rpcOwner_ok.2 ⟨hex, c.srcOwner⟩⟩)
  have e3 : orQuery args.recipient (okOr (associatedTokenAddress env.cr args.payer.key W
      args.wrappedTokenProgram) .panicked) = .ok rcp :=
    orQuery_ok.2 (hr.imp id fun h => ⟨h.1, okOr_ok_iff.2 h.2⟩)
  have hE : escrowAddress env.cr u uprog args.wrappedTokenProgram = some E :=
    (escrowAddress_eq _ _ _ _ _ _ c.addrW c.addrA).trans c.addrE
  refine ⟨⟨args.payer.key, [.call _], cliSigners args.payer (args.transferAuthority.getD args.payer)
    args.multisig args.presigners⟩, L', ?_, runClient_call.2 hL'⟩
  · rw [cliWrap_flat, e1, ok_bind, c.addrW, okOr_some, ok_bind, c.addrA, okOr_some, ok_bind, e3, ok_bind, e2, ok_bind,
      hE, okOr_some, ok_bind]
    exact partialSign_eq ((cliSigners_required fun k => signs_build_wrap).2 fun s hs =>
      requiredSigners_call.2 ((hpre s hs).imp id signs_build_wrap.2))

/-! ## unwrap -/

/-- How the CLI finds the accounts of an Unwrap: everything is looked up, and an argument that
disagrees with the chain is refused. -/
structure CliUnwrapResolved (env : Env) (args : CliUnwrapArgs) (L : Ledger)
    (u wprog uprog W A E : Pubkey) : Prop where
  /-- the owner of the wrapped token account -/
  wrappedProgram : (L args.wrappedTokenAccount).owner = wprog ∧ OmittedOr args.wrappedTokenProgram wprog
  /-- the mint of the recipient account -/
  mint : (∃ t, (L args.recipient).data = .token t ∧ t.mint = u) ∧ OmittedOr args.unwrappedMint u
  /-- the owner of that mint -/
  unwrappedProgram : (L u).owner = uprog ∧ OmittedOr args.unwrappedTokenProgram uprog
  wrappedMint : wrappedMintAddress env.cr u wprog = some W
  authority : authorityAddress env.cr W = some A
  escrow : escrowAddress env.cr u uprog wprog = some E

theorem cliUnwrap_flat (env : Env) (args : CliUnwrapArgs) (L : Ledger) :
    cliUnwrap env args L = (do
      let wprog ← cliAgree args.wrappedTokenProgram (← rpcOwner L args.wrappedTokenAccount)
      let u ← cliAgree args.unwrappedMint (← rpcTokenMint L args.recipient)
      let uprog ← cliAgree args.unwrappedTokenProgram (← rpcOwner L u)
      let w ← okOr (wrappedMintAddress env.cr u wprog) .panicked
      let auth ← okOr (authorityAddress env.cr w) .panicked
      let escrow ← okOr (escrowAddress env.cr u uprog wprog) .panicked
      partialSign args.payer.key
        [.call (Build.unwrap crateId escrow args.recipient auth u wprog uprog
          args.wrappedTokenAccount w (args.transferAuthority.getD args.payer).key
          (args.multisig.map (·.key)) args.amount)]
        (cliSigners args.payer (args.transferAuthority.getD args.payer) args.multisig
          args.presigners)) := by
  simp only [cliUnwrap, cliUnwrapAddrs, cliUnwrapIx, bind_assoc, pure_bind]

theorem cliAgree_ok {arg : Option Pubkey} {q k : Pubkey} :
    cliAgree arg q = .ok k ↔ q = k ∧ OmittedOr arg k := by
  unfold cliAgree OmittedOr
  cases arg with
  | none => simp
  | some a =>
    by_cases h : a = q
    · subst h; simp
    · simp only [ne_eq, h, not_false_eq_true, if_true, reduceCtorEq, Option.some.injEq, false_or,
        false_iff, not_and]
      intro h1 h2; exact h (h2.trans h1.symm)

/-- **C56** The transaction `unwrap` sends is one Unwrap instruction on the derived addresses; it is
paid for by the fee payer and needs exactly the signatures it collects. -/
theorem cli_unwrap_transaction {args : CliUnwrapArgs} (h : cliUnwrap env args L = .ok tx) :
    ∃ u wprog uprog W A E, CliUnwrapResolved env args L u wprog uprog W A E ∧
      tx.payer = args.payer.key ∧
      tx.instructions = [.call (Build.unwrap crateId E args.recipient A u wprog uprog
        args.wrappedTokenAccount W (args.transferAuthority.getD args.payer).key
        (args.multisig.map (·.key)) args.amount)] ∧
      ∀ k, k ∈ requiredSigners tx.payer tx.instructions ↔ k ∈ tx.signers.map (·.key) := by
  simp only [cliUnwrap_flat, bind_ok_iff, okOr_ok_iff, cliAgree_ok, rpcOwner_ok, rpcTokenMint_ok] at h
  obtain ⟨q1, h1, wprog, h2, q2, h3, u, h4, q3, h5, uprog, h6, W, hW, A, hA, E, hE, h⟩ := h
  obtain ⟨rfl, hall⟩ := partialSign_ok h
  obtain ⟨rfl, h2⟩ := h2
  obtain ⟨rfl, h4⟩ := h4
  obtain ⟨rfl, h6⟩ := h6
  refine ⟨q2, q1, q3, W, A, E, ⟨⟨h1.2, h2⟩, ⟨h3.2, h4⟩, ⟨h5.2, h6⟩, hW, hA, hE⟩, rfl, rfl, ?_⟩
  intro k
  refine ⟨(cliSigners_required (fun k => signs_build_unwrap)).1 k, ?_⟩
  intro hk
  obtain ⟨s, h1, h2⟩ := List.mem_map.1 hk
  exact h2 ▸ hall s h1

/-- **C56** The transaction is fully signed when every key it collected is either present or
presigned. -/
theorem cli_unwrap_fully_signed {args : CliUnwrapArgs} (h : cliUnwrap env args L = .ok tx)
    (hp : ∀ s ∈ args.presigners, s.real = true)
    (ha : ∀ s, s = args.payer ∨ (args.multisig = [] ∧ args.transferAuthority = some s) ∨
      s ∈ args.multisig → s.real = true ∨ ∃ p ∈ args.presigners, p.key = s.key) :
    tx.FullySigned := by
  obtain ⟨u, wprog, uprog, W, A, E, _, hpay, hins, hk⟩ := cli_unwrap_transaction h
  intro k hkr
  obtain ⟨a, h1, h2⟩ := cliSigners_split (payer := args.payer)
    (authority := args.transferAuthority.getD args.payer) (multisig := args.multisig)
    (presigners := args.presigners)
  have hs : tx.signers = a ++ args.presigners := by
    simp only [cliUnwrap_flat, bind_ok_iff, okOr_ok_iff] at h
    obtain ⟨_, _, _, _, _, _, _, _, _, _, _, _, _, _, _, _, _, _, h⟩ := h
    obtain ⟨rfl, _⟩ := partialSign_ok h
    exact h1
  refine hasSignature_of hs ((hk k).1 hkr) hp ?_
  intro s hsa
  rcases h2 s hsa with h | ⟨h, h'⟩ | h
  · exact ha s (.inl h)
  · cases ht : args.transferAuthority with
    | none => rw [ht] at h'; exact ha s (.inl h')
    | some t => rw [ht] at h'; exact ha s (.inr (.inl ⟨h, by rw [ht, h']; rfl⟩))
  · exact ha s (.inr (.inr h))

/-- **C56** An argument that contradicts the chain is refused before anything is sent. -/
theorem cli_unwrap_refuses {args : CliUnwrapArgs}
    (h : (∃ p, args.wrappedTokenProgram = some p ∧ p ≠ (L args.wrappedTokenAccount).owner) ∨
      (∃ k t, args.unwrappedMint = some k ∧ (L args.recipient).data = .token t ∧ k ≠ t.mint) ∨
      (∃ p t, args.unwrappedTokenProgram = some p ∧ (L args.recipient).data = .token t ∧
        p ≠ (L t.mint).owner)) :
    ∀ tx, cliUnwrap env args L ≠ .ok tx := by
  intro tx ht
  obtain ⟨u, wprog, uprog, W, A, E, r, _⟩ := cli_unwrap_transaction ht
  obtain ⟨⟨t, ht1, ht2⟩, hu⟩ := r.mint
  rcases h with ⟨p, h1, h2⟩ | ⟨k, t', h1, h2, h3⟩ | ⟨p, t', h1, h2, h3⟩
  · rcases r.wrappedProgram.2 with h | h <;> rw [h1] at h <;> cases h
    exact h2 r.wrappedProgram.1.symm
  · rw [ht1] at h2; cases h2
    rcases hu with h | h <;> rw [h1] at h <;> cases h
    exact h3 ht2.symm
  · rw [ht1] at h2; cases h2
    rcases r.unwrappedProgram.2 with h | h <;> rw [h1] at h <;> cases h
    rw [ht2] at h3
    exact h3 r.unwrappedProgram.1.symm

/-- **C56** Whatever happened to the chain since: if the transaction succeeds, the holder, the wrapped
supply and the escrow of the resolved pair lost the amount and the recipient gained the amount less
the transfer fee. -/
theorem cli_unwrap_effect {args : CliUnwrapArgs} {L1 L2 : Ledger} (h : cliUnwrap env args L = .ok tx)
    (hrun : runClient env tx.instructions L1 = .ok L2) :
    ∃ u wprog uprog W A E, CliUnwrapResolved env args L u wprog uprog W A E ∧
      (W ≠ u → E ≠ args.recipient →
      ∃ m fee, (L1 u).data = .mint m ∧ IsMintFee m env.epoch args.amount.toNat fee ∧
        fee ≤ args.amount.toNat ∧
        balanceOf L2 args.wrappedTokenAccount + args.amount.toNat =
          balanceOf L1 args.wrappedTokenAccount ∧
        supplyOf L2 W + args.amount.toNat = supplyOf L1 W ∧
        balanceOf L2 E + args.amount.toNat = balanceOf L1 E ∧
        balanceOf L2 args.recipient = balanceOf L1 args.recipient + (args.amount.toNat - fee)) := by
  obtain ⟨u, wprog, uprog, W, A, E, hr, hpay, hins, hk⟩ := cli_unwrap_transaction h
  refine ⟨u, wprog, uprog, W, A, E, hr, ?_⟩
  rw [hins, runClient_call] at hrun
  intro h1 h2
  exact unwrap_pays_one_for_one hrun h1 h2

/-- **C56** The command works in every situation in which the tokens can be unwrapped at all. -/
theorem cli_unwrap_succeeds {args : CliUnwrapArgs} {W A wprog uprog u E : Pubkey} {fee : Nat}
    {e d h : TokenAcct} {m w : Mint} (hid : env.programId = crateId) (hz : args.amount ≠ 0)
    (hrej : ∀ p ix sg L, env.reject p ix sg L = none)
    (c : CanUnwrap env L E args.recipient A u wprog uprog args.wrappedTokenAccount W
      (args.transferAuthority.getD args.payer).key (args.multisig.map (·.key)) args.amount.toNat fee
      e d h m w)
    (hex : (L args.wrappedTokenAccount).lamports ≠ 0 ∧ (L args.recipient).lamports ≠ 0 ∧
      (L u).lamports ≠ 0)
    (hw : OmittedOr args.wrappedTokenProgram wprog) (hu : OmittedOr args.unwrappedMint u)
    (hp : OmittedOr args.unwrappedTokenProgram uprog)
    (hpre : SignaturesFit args.payer.key (args.transferAuthority.getD args.payer).key
      (args.multisig.map (·.key)) args.presigners) :
    ∃ tx L', cliUnwrap env args L = .ok tx ∧ runClient env tx.instructions L = .ok L' := by
  obtain ⟨L', hL'⟩ := unwrap_succeeds hid hz hrej c
  have hE : escrowAddress env.cr u uprog wprog = some E :=
    (escrowAddress_eq _ _ _ _ _ _ c.addrW c.addrA).trans c.addrE
  refine ⟨⟨args.payer.key, [.call _], cliSigners args.payer (args.transferAuthority.getD args.payer)
    args.multisig args.presigners⟩, L', ?_, runClient_call.2 hL'⟩
  · rw [cliUnwrap_flat, rpcOwner_ok.2 ⟨hex.1, c.hOwner⟩, ok_bind, cliAgree_ok.2 ⟨rfl, hw⟩, ok_bind,
      rpcTokenMint_ok.2 ⟨hex.2.1, d, c.rData, c.rMint⟩, ok_bind, cliAgree_ok.2 ⟨rfl, hu⟩, ok_bind,
      rpcOwner_ok.2 ⟨hex.2.2, c.mintOwner⟩, ok_bind, cliAgree_ok.2 ⟨rfl, hp⟩, ok_bind,
      c.addrW, okOr_some, ok_bind, c.addrA, okOr_some, ok_bind, hE, okOr_some, ok_bind]
    exact partialSign_eq ((cliSigners_required fun k => signs_build_unwrap).2 fun s hs =>
      requiredSigners_call.2 ((hpre s hs).imp id signs_build_unwrap.2))

/-! ## create-escrow-account -/

theorem rpcAccount_ok {k : Pubkey} {a : Account} :
    rpcAccount L k = .ok a ↔ (L k).lamports ≠ 0 ∧ L k = a := by
  unfold rpcAccount
  split <;> simp_all

theorem rpcAssertMint_ok {k : Pubkey} {m : Mint} (h : (L k).lamports ≠ 0)
    (ho : (L k).owner = splTokenId ∨ (L k).owner = token2022Id) (hm : (L k).data = .mint m) :
    rpcAssertMint L k = .ok () := by
  unfold rpcAssertMint
  rw [rpcAccount_ok.2 ⟨h, rfl⟩, ok_bind]
  have : ((L k).owner = splTokenId || (L k).owner = token2022Id) = true := by simpa using ho
  simp only [this, require_true, ok_bind, hm]
  rfl

/-- An escrow in which deposits of any fee can arrive. -/
structure FreshEscrow (L : Ledger) (u uprog A E : Pubkey) (m : Mint) (t : TokenAcct) : Prop where
  owner : (L E).owner = uprog
  data : (L E).data = .token t
  mint : t.mint = u
  tokenOwner : t.owner = A
  delegate : t.delegate = none
  closeAuthority : t.closeAuthority = none
  thawed : (uprog = token2022Id → m.defaultFrozen = false) → t.frozen = false
  exts : uprog = token2022Id → (m.exts.map MintExt.tag).Nodup → HasRequiredExts t m
  /-- empty, except that a wrapped-SOL escrow starts with the lamports beyond rent already there -/
  amount : u ∉ nativeMints → t.amount = 0

/-- **C57** If nothing exists at the escrow address, `create-escrow-account` creates the escrow: a
token account of the unwrapped mint, owned by the mint authority of the wrapped mint, with exactly
the extensions the mint requires and exactly the rent-exempt minimum for its size, which the payer
loses; nothing else changes; one signature, the payer's. -/
theorem cli_create_escrow {payer : CliSigner} {u wprog uprog W A E : Pubkey} {idem : Bool} {m : Mint}
    (hreal : payer.real = true) (hp : uprog = splTokenId ∨ uprog = token2022Id)
    (hW : wrappedMintAddress env.cr u wprog = some W) (hA : authorityAddress env.cr W = some A)
    (hE : associatedTokenAddress env.cr A u uprog = some E)
    (hul : (L u).lamports ≠ 0) (huo : (L u).owner = uprog) (hud : (L u).data = .mint m)
    (hspl : uprog = splTokenId → m.exts = [])
    (hnone : (L E).lamports = 0 ∧ (L E).owner = systemId ∧ (L E).data = .bytes [])
    (hpay : (L payer.key).owner = systemId ∧ (L payer.key).data = .bytes []) (hpe : payer.key ≠ E)
    (hl : env.rentMin (ataLen uprog u L) ≤ (L payer.key).lamports) :
    ∃ tx L' t, cliCreateEscrow env payer u wprog idem L = .ok (some tx) ∧ tx.FullySigned ∧
      runClient env tx.instructions L = .ok L' ∧ FreshEscrow L' u uprog A E m t ∧
      (L' E).lamports = env.rentMin (tokenAccountLen t.exts) ∧
      L' payer.key = { L payer.key with
        lamports := (L payer.key).lamports - env.rentMin (tokenAccountLen t.exts) } ∧
      OnlyChanged [E, payer.key] L L' := by
  have hE' : escrowAddress env.cr u uprog wprog = some E :=
    (escrowAddress_eq _ _ _ _ _ _ hW hA).trans hE
  have hata := ataCreatePaid_ok (env := env) (payer := payer.key) (wallet := A) (mint := u)
    (prog := uprog) (k := E) (m := m) (L := L) hp hE hnone.2.1 hnone.2.2 huo hud hspl hpay.1 hpay.2 hpe
    (by omega)
  have hlen : ataLen uprog u L = tokenAccountLen (newAcctExts uprog m [.immutableOwner]) := by
    unfold ataLen; rw [hud]
  refine ⟨⟨payer.key, [.createAta payer.key A u uprog], [payer]⟩, _,
    newTokenAcct (env.rentMin (ataLen uprog u L)) uprog (max (L E).lamports
      (env.rentMin (ataLen uprog u L))) u m A [.immutableOwner], ?_, ?_,
    by simpa only [runClient, runClientIx, bind_ok_iff, Except.ok.injEq, exists_eq_right] using hata,
    ?_, ?_, ?_, ?_⟩
  · unfold cliCreateEscrow
    rw [rpcAssertMint_ok hul (huo ▸ hp) hud, ok_bind, rpcOwner_ok.2 ⟨hul, huo⟩, ok_bind, hW, okOr_some,
      ok_bind, hA, okOr_some, ok_bind, hE', okOr_some, ok_bind]
    have : rpcAccount L E = .error .accountNotFound := by simp [rpcAccount, hnone.1]
    rw [this]
    dsimp only
    rw [partialSign_eq (by simp [requiredSigners, ClientIx.signerKeys]), ok_bind]
    rfl
  · intro k hk
    have : k = payer.key := by
      simpa [requiredSigners, ClientIx.signerKeys] using hk
    subst this
    simp [CliTx.hasSignature, hreal]
  · constructor
    case data => rw [Ledger.set_same]
    case owner => rw [Ledger.set_same]
    case mint => rfl
    case tokenOwner => rfl
    case delegate => rfl
    case closeAuthority => rfl
    case thawed =>
      intro h
      simp only [newTokenAcct]
      by_cases hq : uprog = token2022Id
      · simp [h hq]
      · simp [hq]
    case exts =>
      rintro rfl hnd
      obtain ⟨k, t, hk, hd, _, _, _, hreq⟩ := fresh_ata_goodState (ataCreate_ok (env := env) hp hE
        hnone.2.1 hnone.2.2 huo hud hspl) hud hnd
      rw [hE] at hk; cases hk
      rw [Ledger.set_same] at hd
      injection hd with hd
      rw [← hd] at hreq
      exact hreq
    case amount => intro h; simp [newTokenAcct, h]
  · rw [Ledger.set_same]
    show max (L E).lamports _ = env.rentMin (tokenAccountLen (newAcctExts uprog m [.immutableOwner]))
    rw [← hlen, hnone.1, Nat.zero_max]
  · rw [Ledger.set_ne _ _ hpe]
    show _ = { L payer.key with
      lamports := (L payer.key).lamports -
        env.rentMin (tokenAccountLen (newAcctExts uprog m [.immutableOwner])) }
    rw [← hlen, hnone.1, Nat.sub_zero]
    simp
  · intro k hk
    simp only [List.mem_cons, List.not_mem_nil, or_false, not_or] at hk
    rw [Ledger.set_ne _ _ hk.1, Ledger.setLamports_apply, if_neg hk.2]

/-- **C57** ... after which every otherwise well-formed Wrap succeeds. -/
theorem fresh_escrow_accepts {rcp W A uprog wprog src u E tauth : Pubkey} {members : List Pubkey}
    {amount : UInt64} {fee : Nat} {s r t : TokenAcct} {m w : Mint} (hid : env.programId = crateId)
    (hz : amount ≠ 0) (hrej : ∀ p ix sg L, env.reject p ix sg L = none)
    (hf : FreshEscrow L u uprog A E m t) (hdf : uprog = token2022Id → m.defaultFrozen = false)
    (hnd : (m.exts.map MintExt.tag).Nodup) (hnat : u ∉ nativeMints)
    (c : CanWrapInto env L rcp W A uprog wprog src u E tauth members amount.toNat fee s r m w) :
    ∃ L', processInstruction env
      (Build.wrap crateId rcp W A uprog wprog src u E tauth members amount).accounts
      (Build.wrap crateId rcp W A uprog wprog src u E tauth members amount).data L = .ok L' := by
  refine wrap_succeeds (d := t) hid hz hrej
    ⟨c, hf.owner, hf.data, hf.mint, hf.tokenOwner, hf.thawed hdf, ?_, ?_⟩
  · rcases c.uprogOk with h | h
    · left
      have := c.feeEq
      simp only [feeOf, h, spl_ne_2022, if_false] at this
      simpa using this.symm
    · by_cases hcfg : ∃ cfg, MintExt.transferFeeConfig cfg ∈ m.exts
      · obtain ⟨cfg, hcfg⟩ := hcfg
        exact .inr ((hf.exts h hnd _).2 (.fee hcfg))
      · left
        have := c.feeEq
        have hn : m.transferFee? = none := by
          unfold Mint.transferFee?
          rw [List.findSome?_eq_none_iff]
          intro x hx
          split
          · rename_i cfg; exact absurd ⟨cfg, hx⟩ hcfg
          · rfl
        simp only [feeOf, h, if_true, hn] at this
        simpa using this.symm
  · have := c.feeLe
    have ha : amount.toNat < 2 ^ 64 := amount.toNat_lt
    rw [hf.amount hnat]
    simp only [u64Max]
    omega

/-- **C57** (exception) Anything with lamports at the escrow address counts as an existing escrow: the
command then sends nothing with `--idempotent` and fails without, even if no token account is there,
in which case Wrap keeps failing. -/
theorem cli_create_escrow_dust {payer : CliSigner} {u wprog uprog W A E : Pubkey} {idem : Bool}
    {m : Mint} (hp : uprog = splTokenId ∨ uprog = token2022Id)
    (hW : wrappedMintAddress env.cr u wprog = some W) (hA : authorityAddress env.cr W = some A)
    (hE : associatedTokenAddress env.cr A u uprog = some E)
    (hul : (L u).lamports ≠ 0) (huo : (L u).owner = uprog) (hud : (L u).data = .mint m)
    (hdust : (L E).lamports ≠ 0) :
    cliCreateEscrow env payer u wprog idem L =
        (if idem then .ok none else .error .alreadyExists) ∧
    ((∀ t, (L E).data ≠ .token t) → ∀ rcp auth src tauth rest amount L' (w : Meta) (esc : Meta),
      esc.key = E → processInstruction env ([rcp, w, auth, .ro uprog false, .ro wprog false, src,
        .ro u false, esc, tauth] ++ rest) (wrap amount).pack L ≠ .ok L') := by
  have hE' : escrowAddress env.cr u uprog wprog = some E :=
    (escrowAddress_eq _ _ _ _ _ _ hW hA).trans hE
  constructor
  · unfold cliCreateEscrow
    rw [rpcAssertMint_ok hul (huo ▸ hp) hud, ok_bind, rpcOwner_ok.2 ⟨hul, huo⟩, ok_bind, hW, okOr_some,
      ok_bind, hA, okOr_some, ok_bind, hE', okOr_some, ok_bind, rpcAccount_ok.2 ⟨hdust, rfl⟩]
    rfl
  · intro hno rcp auth src tauth rest amount L' w esc he h
    obtain ⟨_, _, _, ⟨t, ht, _⟩, _⟩ := wrap_accounts_derived h
    rw [he] at ht
    exact hno t ht

/-! ## close-stuck-escrow -/

/-- **C57** `close-stuck-escrow` is refused for mints that are not Token-2022; otherwise it sends one
CloseStuckEscrow on the derived addresses, signed by the payer only. -/
theorem cli_close_transaction {payer : CliSigner} {u dest wprog : Pubkey}
    (h : cliCloseStuckEscrow env payer u dest wprog L = .ok tx) :
    (L u).owner = token2022Id ∧ ∃ W A E, wrappedMintAddress env.cr u wprog = some W ∧
      authorityAddress env.cr W = some A ∧ escrowAddress env.cr u token2022Id wprog = some E ∧
      tx = ⟨payer.key, [.call (Build.closeStuckEscrow crateId E dest u W A)], [payer]⟩ ∧
      (payer.real = true → tx.FullySigned) := by
  simp only [cliCloseStuckEscrow, bind_ok_iff, okOr_ok_iff, require_ok_iff, rpcOwner_ok,
    decide_eq_true_eq] at h
  obtain ⟨_, ⟨h1, rfl⟩, _, h2, W, hW, A, hA, E, hE, h⟩ := h
  rw [h2] at hE
  obtain ⟨rfl, _⟩ := partialSign_ok h
  refine ⟨h2, W, A, E, hW, hA, hE, rfl, ?_⟩
  intro hreal k hk
  have : k = payer.key := by
    simpa [requiredSigners, ClientIx.signerKeys, Build.closeStuckEscrow, Meta.rw, Meta.ro] using hk
  subst this
  simp [CliTx.hasSignature, hreal]

/-- **C57** The command closes any stuck escrow. -/
theorem cli_close_succeeds {payer : CliSigner} {u wprog W A E dest : Pubkey} {t : TokenAcct}
    {m : Mint} (hid : env.programId = crateId) (hrej : ∀ p ix sg L, env.reject p ix sg L = none)
    (c : StuckEscrow env L u wprog W A E t m) (hd1 : dest ≠ E) (hd2 : dest ≠ u)
    (hul : (L u).lamports ≠ 0) :
    ∃ tx L', cliCloseStuckEscrow env payer u dest wprog L = .ok tx ∧
      runClient env tx.instructions L = .ok L' ∧ L' E = Account.empty ∧
      (L' dest).lamports = (L dest).lamports + (L E).lamports := by
  have hE' : escrowAddress env.cr u token2022Id wprog = some E :=
    (escrowAddress_eq _ _ _ _ _ _ c.addrW c.addrA).trans c.addrE
  refine ⟨⟨payer.key, [.call (Build.closeStuckEscrow crateId E dest u W A)], [payer]⟩,
    closeOut L E dest, ?_, runClient_call.2 (close_succeeds hid hrej c hd1 hd2), closeOut_same _ _ _, ?_⟩
  · unfold cliCloseStuckEscrow
    rw [rpcOwner_ok.2 ⟨hul, c.uOwner⟩, ok_bind]
    simp only [decide_true, require_true, ok_bind, c.addrW, okOr_some, c.addrA, hE']
    exact partialSign_eq (by simp [requiredSigners])
  · rw [closeOut_dst _ (Ne.symm hd1)]

/-! ## Metadata sync -/

/-- **C58** The source account the CLI works out by itself is right: whenever some choice of source
account and owner program makes the metadata readable, the CLI's choice of source account, with the
same owner program, yields the same metadata. -/
theorem cli_source_complete {u : Pubkey} {sk op : Option Pubkey} {md : TokenMetadata}
    (hul : (L u).lamports ≠ 0) (hpda : (metaplexPda env.cr u).isSome)
    (h : MetadataSource env L u sk op md) :
    ∃ k, cliResolveSource env u L = .ok k ∧ MetadataSource env L u k op md := by
  obtain ⟨pda, hpda⟩ := Option.isSome_iff_exists.1 hpda
  have ptr : ∀ {p}, HasPointer L u p → cliResolveSource env u L =
      .ok (match p with | some (some addr) => if addr = u then none else some addr | _ => some pda) := by
    rintro p ⟨ho, m, hm, hp⟩
    unfold cliResolveSource
    rw [rpcAccount_ok.2 ⟨hul, rfl⟩, ok_bind, hpda, okOr_some, ok_bind, ho, if_neg (Ne.symm spl_ne_2022),
      if_pos rfl, hm]
    dsimp only
    subst hp
    rcases m.metadataPointer? with _ | ⟨a, _ | b⟩
    · rfl
    · rfl
    · simp only [Option.map_some]
      split <;> rfl
  cases h with
  | metaplexPda h1 h2 h3 h4 =>
    rw [hpda] at h2; cases h2
    refine ⟨some pda, ?_, .metaplexPda h1 hpda h3 h4⟩
    rcases h1 with h1 | h1
    · unfold cliResolveSource
      rw [rpcAccount_ok.2 ⟨hul, rfl⟩, ok_bind, hpda, okOr_some, ok_bind, if_pos h1]
      rfl
    · exact ptr h1
  | self h1 h2 h3 =>
    exact ⟨none, by rw [ptr h1]; simp, .self h1 h2 h3⟩
  | pointed h1 h2 h3 h4 =>
    exact ⟨_, by rw [ptr h1]; simp [h2], .pointed h1 h2 h3 h4⟩
  | external h1 h2 h3 h4 h5 h6 =>
    exact ⟨_, by rw [ptr h1]; simp [h2], .external h1 h2 h3 h4 h5 h6⟩

/-- **C58** (exception) For a mint whose metadata pointer is unset the CLI sends a transaction naming
the Metaplex account, but no transaction can succeed: the program refuses unset pointers. -/
theorem cli_source_unset {u : Pubkey} {pda : Pubkey} (hul : (L u).lamports ≠ 0)
    (hpda : metaplexPda env.cr u = some pda) (h : HasPointer L u (some none)) :
    cliResolveSource env u L = .ok (some pda) ∧
      ∀ accounts source op, extractTokenMetadata env accounts u source op L =
        .error (wrapErr .metadataPointerUnset) := by
  refine ⟨?_, fun accounts source op => source_errors.2.1 h⟩
  obtain ⟨ho, m, hm, hp⟩ := h
  obtain ⟨⟨pa, pb⟩, hq, hq'⟩ := Option.map_eq_some_iff.1 hp
  dsimp only at hq'; subst hq'
  unfold cliResolveSource
  rw [rpcAccount_ok.2 ⟨hul, rfl⟩, ok_bind, hpda, okOr_some, ok_bind, ho, if_neg (Ne.symm spl_ne_2022),
    if_pos rfl, hm]
  dsimp only
  rw [hq]
  rfl

/-- **C58** With no arguments `sync-metadata-to-token2022` succeeds whenever the metadata is readable
without a third-party program and the wrapped mint is as CreateMint and earlier syncs leave it. -/
theorem cli_sync22_succeeds {payer : CliSigner} {u W A : Pubkey} {sk : Option Pubkey} {m : Mint}
    {src : TokenMetadata} (hid : env.programId = crateId) (hord : FairOrder env)
    (hacc : AcceptsMetadata env)
    (hW : wrappedMintAddress env.cr u token2022Id = some W)
    (hA : authorityAddress env.cr W = some A) (hpda : (metaplexPda env.cr u).isSome)
    (hul : (L u).lamports ≠ 0)
    (hsrc : MetadataSource env L u sk none src)
    (ho : (L W).owner = token2022Id) (hd : (L W).data = .mint m)
    (hma : m.mintAuthority = some A) (hptr : m.metadataPointer?.isSome = true)
    (hmd : ∀ md, m.tokenMetadata? = some md →
      md.updateAuthority = some A ∧ (md.additional.map (·.1)).Nodup) :
    ∃ tx L', cliSync22 env payer u none none L = .ok tx ∧
      runClient env tx.instructions L = .ok L' := by
  obtain ⟨k, hk, hs⟩ := cli_source_complete hul hpda hsrc
  obtain ⟨L', hL'⟩ := sync22_succeeds hid hord hacc (by simp) hW hA hs ho hd hma hptr hmd
  refine ⟨⟨payer.key, [.call (Build.syncMetadataToToken2022 crateId W A u k none)], [payer]⟩, L', ?_,
    runClient_call.2 hL'⟩
  unfold cliSync22
  simp only [Option.isNone_none, Bool.true_or, require_true, ok_bind, hW, okOr_some, hA, hk]
  exact partialSign_eq (by simp [requiredSigners])

/-! ## find-pdas -/

/-- **C59** The addresses printed by `find-pdas` are the only ones the program accepts for the pair:
any successful Wrap, Unwrap or CreateMint for it uses them. -/
theorem cli_find_pdas {u wprog : Pubkey} {out : PdasOutput} (h : cliFindPdas env u wprog L = .ok out) :
    wrappedMintAddress env.cr u wprog = some out.wrappedMint ∧
    authorityAddress env.cr out.wrappedMint = some out.authority ∧
    backpointerAddress env.cr out.wrappedMint = some out.backpointer ∧
    escrowAddress env.cr u (L u).owner wprog = some out.escrow ∧
    (∀ (recipient wmint auth uprog wp src umint escrow tauth : Meta) rest amount L',
      umint.key = u → wp.key = wprog →
      processInstruction env ([recipient, wmint, auth, uprog, wp, src, umint, escrow, tauth] ++ rest)
        (wrap amount).pack L = .ok L' →
      wmint.key = out.wrappedMint ∧ auth.key = out.authority ∧ escrow.key = out.escrow) ∧
    (∀ (escrow recipient auth umint wp uprog holder wmint tauth : Meta) rest amount L',
      umint.key = u → wp.key = wprog → uprog.key = (L u).owner →
      processInstruction env ([escrow, recipient, auth, umint, wp, uprog, holder, wmint, tauth] ++ rest)
        (unwrap amount).pack L = .ok L' →
      wmint.key = out.wrappedMint ∧ auth.key = out.authority ∧ escrow.key = out.escrow) ∧
    (∀ (wmint bp umint sys wp : Meta) rest idem L', umint.key = u → wp.key = wprog →
      processInstruction env ([wmint, bp, umint, sys, wp] ++ rest) (createMint idem).pack L = .ok L' →
      wmint.key = out.wrappedMint ∧ bp.key = out.backpointer) := by
  simp only [cliFindPdas, bind_ok_iff, okOr_ok_iff, rpcOwner_ok, pure_ok_iff] at h
  obtain ⟨W, hW, B, hB, A, hA, uprog, ⟨_, rfl⟩, E, hE, rfl⟩ := h
  refine ⟨hW, hA, hB, hE, ?_, ?_, ?_⟩
  · rintro recipient wmint auth uprog wp src umint escrow tauth rest amount L' rfl rfl h
    obtain ⟨h1, h2, h3, _, _, h4, _⟩ := wrap_accounts_derived h
    rw [hW] at h1; cases h1
    rw [hA] at h2; cases h2
    rw [h4] at hE
    rw [hE] at h3; cases h3
    exact ⟨rfl, rfl, rfl⟩
  · rintro escrow recipient auth umint wp uprog holder wmint tauth rest amount L' rfl rfl hu h
    obtain ⟨h1, h2, h3, _⟩ := unwrap_accounts_derived h
    rw [hW] at h1; cases h1
    rw [hA] at h2; cases h2
    rw [hu] at h3
    rw [hE] at h3; cases h3
    exact ⟨rfl, rfl, rfl⟩
  · rintro wmint bp umint sys wp rest idem L' rfl rfl h
    obtain ⟨h1, h2, _⟩ := createMint_validates h
    rw [hW] at h1; cases h1
    rw [hB] at h2; cases h2
    exact ⟨rfl, rfl⟩

end

/-! ## Concrete instances -/

namespace Example

def userS : CliSigner := ⟨user, true⟩

/-- `wrap` of 1000 tokens with everything but the recipient left to be looked up. -/
def cliW : CliWrapArgs :=
  { payer := userS, unwrappedTokenAccount := src, wrappedTokenProgram := splTokenId, amount := 1000
    recipient := some rcp }

def txW : CliTx :=
  ⟨user, [.call (Build.wrap crateId rcp W A token2022Id splTokenId src u E user [] 1000)], [userS]⟩

example : cliWrap env cliW L0 = .ok txW := by decide +kernel
example : txW.FullySigned := cli_wrap_fully_signed (env := env) (L := L0) (args := cliW)
  (by decide +kernel) (by simp [cliW]) (by simp [cliW, userS])
example : ok (runClient env txW.instructions L0) = true := by decide +kernel
example : balanceOf (get (runClient env txW.instructions L0)) src = 4000 ∧
    balanceOf (get (runClient env txW.instructions L0)) rcp = 1000 := by decide +kernel

/-- A multisig wrap: two members named by address only, one of which signed beforehand. -/
def cliWm : CliWrapArgs :=
  { cliW with transferAuthority := some ⟨.lit 40, false⟩, multisig := [⟨.lit 41, false⟩, ⟨.lit 42, true⟩]
              presigners := [⟨.lit 41, true⟩] }

example : (cliWrap env cliWm L0).toBool = true := by decide +kernel
example (tx : CliTx) (h : cliWrap env cliWm L0 = .ok tx) : tx.FullySigned :=
  cli_wrap_fully_signed h (by simp [cliWm]) (by simp [cliWm, cliW, userS])
/-- Without the presigner the member's signature is still missing, ... -/
example : (match cliWrap env { cliWm with presigners := [] } L0 with
    | .ok tx => tx.hasSignature (.lit 41) | .error _ => true) = false := by decide +kernel
/-- ... and a presigner who is not a signer of the transaction makes signing panic. -/
example : cliWrap env { cliWm with presigners := [⟨.lit 43, true⟩] } L0 = .error .panicked := by
  decide +kernel

def cliU : CliUnwrapArgs :=
  { payer := userS, wrappedTokenAccount := rcp, recipient := src, amount := 7 }

def txU : CliTx :=
  ⟨user, [.call (Build.unwrap crateId E src A u splTokenId token2022Id rcp W user [] 7)], [userS]⟩

example : cliUnwrap env cliU L0 = .ok txU := by decide +kernel
example : ok (runClient env txU.instructions L0) = true := by decide +kernel
example : cliUnwrap env { cliU with wrappedTokenProgram := some token2022Id } L0 =
    .error .argumentMismatch := by decide +kernel
example : (∃ p, ({ cliU with wrappedTokenProgram := some token2022Id } : CliUnwrapArgs).wrappedTokenProgram
    = some p ∧ p ≠ (L0 rcp).owner) := ⟨token2022Id, rfl, by decide +kernel⟩

/-- The escrow does not exist yet. -/
def LnoEsc : Ledger := (L0.set E Account.empty).set user ⟨1000, systemId, .bytes []⟩

def txE : CliTx := ⟨user, [.createAta user A u token2022Id], [userS]⟩

example : cliCreateEscrow env userS u splTokenId false LnoEsc = .ok (some txE) := by decide +kernel
example : ∃ tx L' t, cliCreateEscrow env userS u splTokenId false LnoEsc = .ok (some tx) ∧
    tx.FullySigned ∧ runClient env tx.instructions LnoEsc = .ok L' ∧
    FreshEscrow L' u token2022Id A E (uMint [.transferFeeConfig feeCfg]) t ∧
    (L' E).lamports = env.rentMin (tokenAccountLen t.exts) ∧
    L' user = { LnoEsc user with
      lamports := (LnoEsc user).lamports - env.rentMin (tokenAccountLen t.exts) } ∧
    OnlyChanged [E, user] LnoEsc L' :=
  cli_create_escrow (W := W) rfl (.inr rfl) (by decide +kernel) (by decide +kernel) (by decide +kernel)
    (by decide +kernel) (by decide +kernel) (by decide +kernel) (by decide)
    ⟨by decide +kernel, by decide +kernel, by decide +kernel⟩ ⟨by decide +kernel, by decide +kernel⟩
    (by decide +kernel) (by decide +kernel)
/-- Five lamports at the escrow address are enough for "already exists". -/
example : cliCreateEscrow env userS u splTokenId true (L0.set E ⟨5, systemId, .bytes []⟩) = .ok none := by
  decide +kernel
/-- The escrow created by the command accepts the deposit. -/
example : ok (runClient env (txE.instructions ++ txW.instructions) LnoEsc) = true := by decide +kernel

example : (cliCloseStuckEscrow env userS u user splTokenId Lstuck).toBool = true := by decide +kernel
example : ∃ tx L', cliCloseStuckEscrow env userS u user splTokenId Lstuck = .ok tx ∧
    runClient env tx.instructions Lstuck = .ok L' ∧ L' E = Account.empty ∧
    (L' user).lamports = (Lstuck user).lamports + (Lstuck E).lamports :=
  cli_close_succeeds (A := A) (W := W) (t := acct u A 0 [.immutableOwner])
    (m := uMint [.transferFeeConfig feeCfg]) rfl (fun _ _ _ _ => rfl)
    (by
      constructor
      case noDup => exact ⟨by decide, by decide⟩
      case differs =>
        intro h
        have := (h .transferFeeAmount).2 (.fee (c := feeCfg) (by simp [uMint]))
        simp [acct] at this
      all_goals decide +kernel) (by decide +kernel) (by decide +kernel) (by decide +kernel)

example : cliResolveSource env u Lself = .ok none := by decide +kernel
example : cliResolveSource env u Lext = .ok (some src) := by decide +kernel
example : cliResolveSource env u Lunset = .ok (metaplexPda toyCrypto u) ∧
    (metaplexPda toyCrypto u).isSome := by decide +kernel
example : HasPointer Lunset u (some none) :=
  ⟨by decide +kernel, uMint [.metadataPointer none none], by decide +kernel, by decide +kernel⟩
/-- The whole command on a wrapped mint with stale metadata. -/
example : (match cliSync22 env userS u none none (Lsync [.tokenMetadata oldMd]) with
    | .ok tx => ok (runClient env tx.instructions (Lsync [.tokenMetadata oldMd]))
    | .error _ => false) = true := by decide +kernel

example : cliFindPdas env u splTokenId L0 = .ok ⟨W, A, B, E⟩ := by decide +kernel

end Example

end TokenWrap
