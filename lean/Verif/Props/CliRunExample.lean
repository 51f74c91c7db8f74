import Verif.Props.CliOffline
import Verif.Props.Offline
/-!
# Concrete runs of the CLI (C80, C81)

A toy signature scheme that depends on the key and on the message, and a two-of-three multisig.
-/

namespace TokenWrap.Example.CliRunEx

open TokenWrap TokenWrap.Example TokenWrap.Example.Offline

/-- A toy "signature": a one, the key, and a checksum of the message. -/
def mark (k : Pubkey) (m : Bytes) : Signature :=
  ⟨1 :: (k.bytes ++ m.foldl (fun a b => 3 * a + b) 7 :: List.replicate 30 0), by simp [k.len]⟩

def toyWire : Wire where
  pub secret := .lit (secret.headD 0)
  sign secret m := mark (.lit (secret.headD 0)) m
  verify k m s := s = mark k m
  encode msg bh := bh.bytes ++ msg.payer.bytes ++
    msg.instructions.flatMap fun ix => match ix with
      | .call i => i.programId.bytes ++ i.data ++ i.accounts.flatMap fun a => a.key.bytes
      | _ => []
  correct _ _ := by simp
  empty k m := by
    rw [decide_eq_false_iff_not]
    intro h
    have := congrArg (fun s : Signature => s.bytes.head?) h
    simp [mark, Signature.zero, List.replicate_succ] at this

def bh : Pubkey := .lit 77

def cl : Cluster := ⟨env, toyWire, [], bh, fun k => k = bh⟩

def key (n : UInt8) : Signer := .keypair [n]

/-- The user's own configuration. -/
def cfg : CliConfig := { payer := key 4 }

/-! ## Plain runs -/

def wrapCmd : WrapCmd :=
  { unwrappedTokenAccount := src, wrappedTokenProgram := splTokenId, amount := 1000, recipient := some rcp }

def isOk (o : Outcome) : Bool := match o.result with | .ok _ => true | .error _ => false
def refused (o : Outcome) : Bool := match o.result with | .error .refused => true | _ => false

example : isOk ((Command.wrap wrapCmd).run cl cfg L0 L0) = true := by decide +kernel
example : balanceOf ((Command.wrap wrapCmd).run cl cfg L0 L0).ledger src = 4000 ∧
    balanceOf ((Command.wrap wrapCmd).run cl cfg L0 L0).ledger E = 10 + 990 := by decide +kernel
/-- `cli_wrap_run` applies to it. -/
example : ∃ out, ((Command.wrap wrapCmd).run cl cfg L0 L0).result = .ok out := by
  generalize h : ((Command.wrap wrapCmd).run cl cfg L0 L0).result = r
  cases r with
  | ok out => exact ⟨out, rfl⟩
  | error e =>
    have : isOk ((Command.wrap wrapCmd).run cl cfg L0 L0) = true := by decide +kernel
    simp only [isOk, h] at this
    cases this
/-- The recorded effects are visible at the addresses the output names. -/
example : (match ((Command.wrap wrapCmd).run cl cfg L0 L0).result with
    | .ok (.wrap o) => decide (o.unwrappedMint = u ∧ o.wrappedMint = W ∧ o.escrow = E ∧
        o.recipient = rcp ∧ o.signatures.length = 1)
    | _ => false) = true := by decide +kernel

/-- The tokens were spent between the query and the sending: an error, and nothing happens. -/
def Lspent : Ledger := L0.set src ⟨200, token2022Id, .token (acct u user 10 [.transferFeeAmount])⟩

example : refused ((Command.wrap wrapCmd).run cl cfg L0 Lspent) = true := by decide +kernel
/-- A dry run of the same says "Simulation succeeded" and ends well. -/
example : ((Command.wrap wrapCmd).run cl { cfg with dryRun := true } L0 Lspent).printed =
      [.simulationSucceeded] ∧
    isOk ((Command.wrap wrapCmd).run cl { cfg with dryRun := true } L0 Lspent) = true := by
  decide +kernel
/-- Only the log of a verbose dry run tells. -/
example : ((Command.wrap wrapCmd).run cl { cfg with dryRun := true, format := .verbose } L0 Lspent).printed =
      [.simulationLog false, .simulationSucceeded] := by decide +kernel
/-- A blockhash that is not accepted any more. -/
example : refused ((Command.wrap { wrapCmd with blockhash := some (.lit 1) }).run cl cfg L0 L0) = true := by
  decide +kernel

def unwrapCmd : UnwrapCmd := { wrappedTokenAccount := rcp, recipient := src, amount := 7 }

example : isOk ((Command.unwrap unwrapCmd).run cl cfg L0 L0) = true ∧
    balanceOf ((Command.unwrap unwrapCmd).run cl cfg L0 L0).ledger src = 5000 + 6 := by decide +kernel

example : isOk ((Command.createEscrow u splTokenId false).run cl cfg LnoEsc LnoEsc) = true := by
  decide +kernel
/-- Idempotent and there already: no transaction. -/
example : isOk ((Command.createEscrow u splTokenId true).run cl cfg L0 L0) = true := by decide +kernel
example : isOk ((Command.createEscrow u splTokenId false).run cl cfg L0 L0) = false := by decide +kernel
example : isOk ((Command.closeEscrow u user splTokenId).run cl cfg Lstuck Lstuck) = true := by
  decide +kernel
example : isOk ((Command.findPdas u splTokenId).run cl cfg L0 L0) = true := by decide +kernel
example : isOk ((Command.sync22 u none none).run cl cfg (Lsync [.tokenMetadata oldMd])
    (Lsync [.tokenMetadata oldMd])) = true := by decide +kernel
/-- The fee payer must be there to sign. -/
example : isOk ((Command.closeEscrow u user splTokenId).run cl { cfg with payer := .absent user }
    Lstuck Lstuck) = false := by decide +kernel

/-! ## Two of three, offline -/

/-- The wrap as everybody types it, with their own key pairs where they have them. -/
def msCmd (k1 k3 : Signer) : WrapCmd :=
  { unwrappedTokenAccount := src, wrappedTokenProgram := splTokenId, amount := 1000
    transferAuthority := some (.absent msKey), unwrappedMint := some u, recipient := some rcp
    unwrappedTokenProgram := some token2022Id, multisig := [k1, k3], blockhash := some bh }

/-- The first member, with nothing but an empty chain in view; the fee payer is named by key. -/
def cmd1 : WrapCmd := { msCmd (key 41) (.absent m3) with signOnly := true }
def cfg1 : CliConfig := { payer := .absent user }
def cmd3 : WrapCmd := { msCmd (.absent m1) (key 43) with signOnly := true }
/-- The fee payer sends. -/
def cmdP : WrapCmd := msCmd (.absent m1) (.absent m3)

def nothing : Ledger := fun _ => Account.empty

def lines : List (List Char) :=
  printedLines ((Command.wrap cmd1).run cl cfg1 nothing nothing) ++
    printedLines ((Command.wrap cmd3).run cl cfg1 nothing nothing)

def addrs : WrapAddrs := ⟨u, W, A, rcp, token2022Id, E⟩

def bytes1 : Bytes := toyWire.encode (cmdP.message cl cfg addrs) bh

/-- What the members print: their own line each. -/
example : lines = [signerLine m1 (mark m1 bytes1), signerLine m3 (mark m3 bytes1)] := by decide +kernel

/-- And the others are reported as absent (`cli_wrap_sign_only_report`). -/
example : (match ((Command.wrap cmd1).run cl cfg1 nothing nothing).result with
    | .ok (.wrap o) => o.signOnly.map fun d => (d.absent, d.badSig)
    | _ => none) = some ([Serde.toBase58 user, Serde.toBase58 m3], []) := by decide +kernel

/-- The sending run, as in `cli_wrap_offline`, ends well ... -/
def lastRun : Outcome :=
  (Command.wrap { cmdP with presigners := (lines.mapM parsePresigner).getD [] }).run cl cfg Lms Lms

theorem lastRun_ok : isOk lastRun = true ∧ balanceOf lastRun.ledger src = 4000 ∧
    balanceOf lastRun.ledger rcp = 1000 := by decide +kernel

/-- ... and all hypotheses of the theorem are met. -/
example : ∃ pre, lines.mapM parsePresigner = some pre ∧
    ∃ o, (Command.wrap { cmdP with presigners := pre }).run cl cfg Lms Lms =
      ⟨[], .ok (.wrap o), get ((cmdP.message cl cfg addrs).run env [] Lms)⟩ := by
  refine cli_wrap_offline (a := addrs) (bh := bh) (by decide +kernel) rfl (by decide +kernel) rfl rfl
    (by decide +kernel) ?_ ?_ ?_ (get_eq (by decide +kernel))
  · intro s hs k g h
    subst h
    simp [ownSigners, cmdP, msCmd, cfg, key] at hs
  · intro l hl
    rcases List.mem_append.1 hl with h | h
    · exact ⟨cfg1, cmd1, nothing, nothing, addrs, h, by decide +kernel, by decide +kernel, rfl⟩
    · exact ⟨cfg1, cmd3, nothing, nothing, addrs, h, by decide +kernel, by decide +kernel, rfl⟩
  · have hm : lines = [signerLine m1 (mark m1 bytes1), signerLine m3 (mark m3 bytes1)] := by
      decide +kernel
    intro k hk
    rcases hk with h | ⟨h, _⟩ | h
    · refine .inr ⟨⟨[4], by simp [ownSigners, cfg, key], h.symm⟩, ?_⟩
      intro s hs hk
      simp only [ownSigners, List.mem_append, List.mem_cons, List.not_mem_nil, or_false] at hs
      rcases hs with (rfl | hs) | hs
      · exact ⟨[4], rfl⟩
      · simp [cmdP, msCmd] at hs
      · simp only [cmdP, msCmd, List.mem_cons, List.not_mem_nil, or_false] at hs
        rw [h] at hk
        rcases hs with rfl | rfl <;> exact absurd hk (by decide)
    · simp [cmdP, msCmd] at h
    · have : k = m1 ∨ k = m3 := by simpa [cmdP, msCmd, Signer.key] using h
      rw [hm]
      rcases this with rfl | rfl
      · exact .inl ⟨mark m1 bytes1, by simp⟩
      · exact .inl ⟨mark m3 bytes1, by simp⟩

/-- Without the third member's line the sending run is refused: `cli_wrap_missing_signature`. -/
example : ∃ e, (Command.wrap { cmdP with presigners := [(m1, mark m1 bytes1)] }).run cl cfg Lms Lms =
    ⟨[], .error e, Lms⟩ := by
  refine cli_wrap_missing_signature (k := m3) rfl rfl (.inr (.inr (by decide +kernel))) ⟨?_, ?_⟩
  · intro s hs hk
    simp only [ownSigners, List.mem_append, List.mem_cons, List.not_mem_nil, or_false] at hs
    rcases hs with (rfl | hs) | hs
    · exact absurd hk (by decide)
    · simp [cmdP, msCmd] at hs
    · simp only [cmdP, msCmd, List.mem_cons, List.not_mem_nil, or_false] at hs
      rcases hs with rfl | rfl
      · exact absurd hk (by decide)
      · rfl
  · simp [m1, m3, Pubkey.lit]

/-- A signature of another message (another amount) makes signing panic. -/
example : (match ((Command.wrap { cmdP with
      amount := 999, presigners := (lines.mapM parsePresigner).getD [] }).run cl cfg Lms Lms).result with
    | .error .panicked => true | _ => false) = true := by decide +kernel

/-- The same flow for an unwrap, with the chain in view everywhere. -/
def msUnwrap (k1 k3 : Signer) : UnwrapCmd :=
  { wrappedTokenAccount := rcp, recipient := src, amount := 7, transferAuthority := some (.absent msKey)
    multisig := [k1, k3], blockhash := some bh }

def ulines : List (List Char) :=
  printedLines ((Command.unwrap { msUnwrap (key 41) (.absent m3) with signOnly := true }).run cl cfg1
    Lmsu Lmsu) ++
  printedLines ((Command.unwrap { msUnwrap (.absent m1) (key 43) with signOnly := true }).run cl cfg1
    Lmsu Lmsu)

example : ulines.length = 2 ∧ isOk ((Command.unwrap { msUnwrap (.absent m1) (.absent m3) with
    presigners := (ulines.mapM parsePresigner).getD [] }).run cl cfg Lmsu Lmsu) = true := by
  decide +kernel

/-- Unwrapping with nothing in view fails, however much is given. -/
example : isOk ((Command.unwrap { unwrapCmd with
    unwrappedMint := some u, wrappedTokenProgram := some splTokenId
    unwrappedTokenProgram := some token2022Id, blockhash := some bh, signOnly := true }).run cl cfg
      nothing nothing) = false := by decide +kernel

end TokenWrap.Example.CliRunEx
