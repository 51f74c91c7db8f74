import Verif.Props.Wrap
import Verif.Props.Unwrap
/-!
# What the program does *not* guarantee (C42, C51)

Witnesses showing that two conditions used elsewhere cannot be dropped.
-/

namespace TokenWrap

open TokenWrapInstruction

namespace Example

/-- A world whose unwrapped mint has a permanent delegate (`issuer`), 10 tokens escrowed and 10
wrapped. -/
def pdWorld : Ledger := world [.permanentDelegate (some issuer)] 10 [.immutableOwner] 10

/-- Wrap accounts with the escrow itself as the source, signed by the permanent delegate. -/
def pdAccounts : List Meta :=
  (Build.wrap crateId rcp W A token2022Id splTokenId E u E issuer [] 10).accounts

/-- A world in which 10 wrapped tokens sit in an account owned by `owner`. -/
def nobodyWorld (owner : Pubkey) : Ledger :=
  (world [] 10 [.immutableOwner] 10).setData rcp (.token (acct W owner 10 []))

/-- Unwrap accounts naming the recipient's owner as authority. -/
def nobodyAccounts : List Meta :=
  (Build.unwrap crateId E src A u splTokenId token2022Id rcp W user [] 7).accounts

end Example

open Example

/-- **C42** There is a fully backed state (supply = escrowed tokens) from which one Wrap, signed only
by the unwrapped mint's permanent delegate and taking the escrow itself as the source, mints wrapped
tokens without depositing anything: afterwards the wrapped supply exceeds the escrowed tokens. -/
theorem permanent_delegate_breaks_backing :
    ∃ (env : Env) (L L' : Ledger) (recipient wmint auth uprog wprog src umint escrow tauth : Meta)
      (amount : UInt64) (m : Mint),
      env.programId = crateId ∧
      supplyOf L wmint.key = balanceOf L escrow.key ∧
      (L umint.key).data = .mint m ∧ m.permanentDelegate? = some tauth.key ∧
      src.key = escrow.key ∧
      (∀ k, Signs [recipient, wmint, auth, uprog, wprog, src, umint, escrow, tauth] k → k = tauth.key) ∧
      processInstruction env [recipient, wmint, auth, uprog, wprog, src, umint, escrow, tauth]
        (wrap amount).pack L = .ok L' ∧
      balanceOf L' escrow.key = balanceOf L escrow.key ∧
      supplyOf L' wmint.key = supplyOf L wmint.key + amount.toNat ∧
      balanceOf L' escrow.key < supplyOf L' wmint.key := by
  refine ⟨env, pdWorld, get (processInstruction env pdAccounts (wrap 10).pack pdWorld),
    .rw rcp false, .rw W false, .ro A false, .ro token2022Id false, .ro splTokenId false,
    .rw E false, .ro u false, .rw E false, .ro issuer true, 10,
    uMint [.permanentDelegate (some issuer)], rfl, ?_, ?_, ?_, rfl, ?_, get_eq ?_, ?_, ?_, ?_⟩
  · decide +kernel
  · decide +kernel
  · decide +kernel
  · rintro k ⟨m, hm, rfl, hs⟩
    simp only [List.mem_cons, List.not_mem_nil, or_false] at hm
    rcases hm with rfl | rfl | rfl | rfl | rfl | rfl | rfl | rfl | rfl <;>
      first | (cases hs; done) | rfl
  · decide +kernel
  · decide +kernel
  · decide +kernel
  · decide +kernel

/-- **C51** For each of the two addresses nobody can sign for (the system program and the
incinerator) there is a state and an Unwrap that pays out escrowed tokens against wrapped tokens
held by that address, although the only signer is neither the owner nor a delegate of the wrapped
account, nor a permanent delegate of the wrapped mint. -/
theorem unowned_wrapped_tokens_redeemable_by_anyone :
    ∀ owner ∈ [systemId, incineratorId],
    ∃ (env : Env) (L L' : Ledger) (escrow recipient auth umint wprog uprog holder wmint tauth : Meta)
      (amount : UInt64) (t : TokenAcct) (w : Mint),
      env.programId = crateId ∧
      (L holder.key).data = .token t ∧ t.owner = owner ∧ t.delegate = none ∧
      (L wmint.key).data = .mint w ∧ w.permanentDelegate? = none ∧
      (∀ k, Signs [escrow, recipient, auth, umint, wprog, uprog, holder, wmint, tauth] k →
        k = tauth.key) ∧
      tauth.key ≠ owner ∧ (∀ ms, (L tauth.key).data ≠ .multisig ms) ∧
      processInstruction env [escrow, recipient, auth, umint, wprog, uprog, holder, wmint, tauth]
        (unwrap amount).pack L = .ok L' ∧
      balanceOf L' holder.key < balanceOf L holder.key ∧
      balanceOf L' recipient.key = balanceOf L recipient.key + amount.toNat := by
  intro owner ho
  have hs : ∀ k, Signs [Meta.rw E false, .rw src false, .ro A false, .ro u false,
      .ro splTokenId false, .ro token2022Id false, .rw rcp false, .rw W false, .ro user true] k →
      k = user := by
    rintro k ⟨m, hm, rfl, hs⟩
    simp only [List.mem_cons, List.not_mem_nil, or_false] at hm
    rcases hm with rfl | rfl | rfl | rfl | rfl | rfl | rfl | rfl | rfl <;>
      first | (cases hs; done) | rfl
  simp only [List.mem_cons, List.not_mem_nil, or_false] at ho
  have hd : ∀ o, (nobodyWorld o user).data = .bytes [] := by
    intro o
    have h1 : user ≠ rcp := by decide +kernel
    unfold nobodyWorld
    rw [Ledger.setData_ne _ _ h1]
    decide +kernel
  rcases ho with rfl | rfl
  · refine ⟨env, nobodyWorld systemId,
      get (processInstruction env nobodyAccounts (unwrap 7).pack (nobodyWorld systemId)),
      .rw E false, .rw src false, .ro A false, .ro u false, .ro splTokenId false,
      .ro token2022Id false, .rw rcp false, .rw W false, .ro user true, 7, acct W systemId 10 [],
      wMint 10, rfl, ?_, rfl, rfl, ?_, rfl, hs, ?_, ?_, get_eq ?_, ?_, ?_⟩
    · decide +kernel
    · decide +kernel
    · decide +kernel
    · intro ms h
      rw [show (Meta.ro user true).key = user from rfl, hd] at h
      cases h
    · decide +kernel
    · decide +kernel
    · decide +kernel
  · refine ⟨env, nobodyWorld incineratorId,
      get (processInstruction env nobodyAccounts (unwrap 7).pack (nobodyWorld incineratorId)),
      .rw E false, .rw src false, .ro A false, .ro u false, .ro splTokenId false,
      .ro token2022Id false, .rw rcp false, .rw W false, .ro user true, 7,
      acct W incineratorId 10 [],
      wMint 10, rfl, ?_, rfl, rfl, ?_, rfl, hs, ?_, ?_, get_eq ?_, ?_, ?_⟩
    · decide +kernel
    · decide +kernel
    · decide +kernel
    · intro ms h
      rw [show (Meta.ro user true).key = user from rfl, hd] at h
      cases h
    · decide +kernel
    · decide +kernel
    · decide +kernel

end TokenWrap
