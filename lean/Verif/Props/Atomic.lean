import Verif.Props.Wrap
import Verif.Props.Unwrap
/-!
# Atomicity (C45)

The runtime executes the instructions of a transaction in order and keeps the result only if every
one of them succeeded.
-/

namespace TokenWrap

open TokenWrapInstruction

/-- One top-level call of the program: account list and instruction data. -/
structure Call where
  accounts : List Meta
  data : Bytes

/-- Executing the instructions of a transaction in order (the runtime's message processor;
external to /repo, trusted). -/
def runCalls (env : Env) : List Call → Ledger → Res Ledger
  | [], L => .ok L
  | c :: rest, L => do
    let L1 ← processInstruction env c.accounts c.data L
    runCalls env rest L1

/-- What the runtime keeps of a transaction: the result, or the old ledger if it failed. -/
def committed (L : Ledger) (r : Res Ledger) : Ledger :=
  match r with
  | .ok L' => L'
  | .error _ => L

/-- `trace` is the list of ledgers after each instruction, each one being the result of a
successful instruction run on the previous ledger. -/
inductive Trace (env : Env) : Ledger → List Call → Ledger → Prop
  | nil (L : Ledger) : Trace env L [] L
  | cons {L L1 L2 : Ledger} {c : Call} {rest : List Call}
      (first : processInstruction env c.accounts c.data L = .ok L1)
      (more : Trace env L1 rest L2) : Trace env L (c :: rest) L2

theorem runCalls_ok_iff {env : Env} {cs : List Call} {L L' : Ledger} :
    runCalls env cs L = .ok L' ↔ Trace env L cs L' := by
  induction cs generalizing L with
  | nil =>
    simp only [runCalls, Except.ok.injEq]
    exact ⟨fun h => h ▸ .nil _, fun h => by cases h; rfl⟩
  | cons c rest ih =>
    simp only [runCalls, bind_ok_iff]
    constructor
    · rintro ⟨L1, h1, h2⟩
      exact .cons h1 (ih.mp h2)
    · rintro (_ | ⟨h1, h2⟩)
      exact ⟨_, h1, ih.mpr h2⟩

/-- **C45** A transaction of Token Wrap instructions either goes through completely (every
instruction succeeded on the result of the one before) or some instruction failed, after any number
of successful ones, and then the ledger is exactly as before the transaction. -/
theorem transaction_atomic (env : Env) (cs : List Call) (L : Ledger) :
    Trace env L cs (committed L (runCalls env cs L)) ∨
    (committed L (runCalls env cs L) = L ∧
      ∃ done c rest L1 e, cs = done ++ c :: rest ∧ Trace env L done L1 ∧
        processInstruction env c.accounts c.data L1 = .error e) := by
  cases h : runCalls env cs L with
  | ok L' => exact .inl (runCalls_ok_iff.mp h)
  | error e =>
    refine .inr ⟨rfl, ?_⟩
    induction cs generalizing L with
    | nil => cases h
    | cons c rest ih =>
      simp only [runCalls] at h
      cases h1 : processInstruction env c.accounts c.data L with
      | error e' => exact ⟨[], c, rest, L, e', rfl, .nil _, h1⟩
      | ok L1 =>
        rw [h1, ok_bind] at h
        obtain ⟨done, c', rest', L2, e', rfl, ht, he⟩ := ih L1 h
        exact ⟨c :: done, c', rest', L2, e', rfl, .cons h1 ht, he⟩

section
variable {env : Env} {L : Ledger} {amount : UInt64}

/-- **C45** A Wrap is never half done: after it, whatever its outcome, either nothing at all has
changed, or the source paid, the escrow received and the wrapped supply and the recipient grew by
exactly what the escrow received. In particular no failure of the minting step can leave the
deposit taken. -/
theorem wrap_never_half_done
    {recipient wmint auth uprog wprog src umint escrow tauth : Meta} {rest : List Meta}
    (hne : src.key ≠ escrow.key) :
    let L' := committed L (processInstruction env ([recipient, wmint, auth, uprog, wprog, src, umint,
      escrow, tauth] ++ rest) (wrap amount).pack L)
    L' = L ∨
    ∃ received ≤ amount.toNat, balanceOf L' src.key + amount.toNat = balanceOf L src.key ∧
      balanceOf L' escrow.key = balanceOf L escrow.key + received ∧
      balanceOf L' recipient.key = balanceOf L recipient.key + received ∧
      supplyOf L' wmint.key = supplyOf L wmint.key + received := by
  intro L'
  cases h : processInstruction env ([recipient, wmint, auth, uprog, wprog, src, umint,
      escrow, tauth] ++ rest) (wrap amount).pack L with
  | error e => left; simp only [L', h, committed]
  | ok L1 =>
    right
    have hL : L' = L1 := by simp only [L', h, committed]
    obtain ⟨m, fee, _, _, _, h1, h2, h3, h4⟩ := wrap_credits_exactly_what_escrow_receives h hne
    rw [hL]
    exact ⟨amount.toNat - fee, Nat.sub_le _ _, h1, h2, h3, h4⟩

/-- **C45** An Unwrap is never half done: either nothing has changed, or the wrapped tokens were
burned and the escrow paid the same amount. No failure of the payment can leave the tokens burned. -/
theorem unwrap_never_half_done
    {escrow recipient auth umint wprog uprog holder wmint tauth : Meta} {rest : List Meta}
    (hwu : wmint.key ≠ umint.key) (hne : escrow.key ≠ recipient.key) :
    let L' := committed L (processInstruction env ([escrow, recipient, auth, umint, wprog, uprog,
      holder, wmint, tauth] ++ rest) (unwrap amount).pack L)
    L' = L ∨
    ∃ paid ≤ amount.toNat, balanceOf L' holder.key + amount.toNat = balanceOf L holder.key ∧
      supplyOf L' wmint.key + amount.toNat = supplyOf L wmint.key ∧
      balanceOf L' escrow.key + amount.toNat = balanceOf L escrow.key ∧
      balanceOf L' recipient.key = balanceOf L recipient.key + paid := by
  intro L'
  cases h : processInstruction env ([escrow, recipient, auth, umint, wprog, uprog,
      holder, wmint, tauth] ++ rest) (unwrap amount).pack L with
  | error e => left; simp only [L', h, committed]
  | ok L1 =>
    right
    have hL : L' = L1 := by simp only [L', h, committed]
    obtain ⟨m, fee, _, _, _, h1, h2, h3, h4⟩ := unwrap_pays_one_for_one h hwu hne
    rw [hL]
    exact ⟨amount.toNat - fee, Nat.sub_le _ _, h1, h2, h3, h4⟩

end

/-! ## The intermediate steps really can succeed before the failure -/

namespace Example

/-- The healthy world with the recipient's wrapped account frozen. -/
def frozenRcp : Ledger :=
  L0.setData rcp (.token { acct W user 10 [] with frozen := true })

/-- The healthy world with the user's unwrapped account frozen. -/
def frozenSrc : Ledger :=
  L0.setData src (.token { acct u user 5000 [.transferFeeAmount] with frozen := true })

-- the deposit goes through and then minting fails: everything is undone
example : ok (wrapTransfer env wrapAccounts
      ⟨.rw rcp false, .rw W false, .ro A false, .ro token2022Id false, .ro splTokenId false,
        .rw src false, .ro u false, .rw E false, .ro user true, []⟩
      (uMint [.transferFeeConfig feeCfg]) 1000 10 frozenRcp) = true ∧
    fails (processInstruction env wrapAccounts (wrap 1000).pack frozenRcp)
      (.token .accountFrozen) = true := by decide +kernel

example : committed frozenRcp (processInstruction env wrapAccounts (wrap 1000).pack frozenRcp) =
    frozenRcp := by
  rcases wrap_never_half_done (env := env) (L := frozenRcp) (amount := 1000)
    (recipient := .rw rcp false) (wmint := .rw W false) (auth := .ro A false)
    (uprog := .ro token2022Id false) (wprog := .ro splTokenId false) (src := .rw src false)
    (umint := .ro u false) (escrow := .rw E false) (tauth := .ro user true) (rest := [])
    (by decide +kernel) with h | ⟨r, h0, h1, h2, h3, h4⟩
  · exact h
  · exact absurd h1 (by decide +kernel)

-- the tokens are burned and then the payment fails: everything is undone
example : ok (invokeToken env unwrapAccounts [] [] splTokenId (.burn rcp W user [] 7) frozenSrc) =
      true ∧
    fails (processInstruction env unwrapAccounts (unwrap 7).pack frozenSrc)
      (.token .accountFrozen) = true := by decide +kernel

-- a transaction of two calls, the second of which fails after the first succeeded
example : ok (runCalls env [⟨wrapAccounts, (wrap 1000).pack⟩] L0) = true ∧
    ok (runCalls env [⟨wrapAccounts, (wrap 1000).pack⟩, ⟨wrapAccounts, (wrap 5000).pack⟩] L0) =
      false := by decide +kernel
-- ... and one that goes through
example : ok (runCalls env [⟨wrapAccounts, (wrap 1000).pack⟩, ⟨unwrapAccounts, (unwrap 990).pack⟩]
    L0) = true := by decide +kernel

end Example

end TokenWrap
