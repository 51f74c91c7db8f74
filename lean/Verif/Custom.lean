import Verif.World
/-!
# Builds of the program with another mint customizer

`processor.rs:15,898` names the customizer that CreateMint uses; the README (lines 112-121, "please fork!") invites to
exchange it.  Everything else in the program stays the same.
-/

namespace TokenWrap

/-- `process_instruction` (/repo/program/src/processor.rs:888-927) in a build in which
`processor.rs:898` names the customizer `C` (/repo/README.md:112-121). -/
def processInstructionWith (C : Customizer) (env : Env) (accounts : List Meta) (input : Bytes)
    (L : Ledger) : Res Ledger := do
  match ← TokenWrapInstruction.unpack input with
  | .createMint idempotent => processCreateMint env C accounts idempotent L
  | .wrap amount => processWrap env accounts amount L
  | .unwrap amount => processUnwrap env accounts amount L
  | .closeStuckEscrow => processCloseStuckEscrow env accounts L
  | .syncMetadataToToken2022 => processSyncToToken2022 env accounts L
  | .syncMetadataToSplToken => processSyncToSplToken env accounts L
  | .setCanonicalPointer newProgramId => processSetCanonicalPointer env accounts newProgramId L

/-- The published build. -/
theorem processInstructionWith_default :
    processInstructionWith defaultToken2022Customizer = processInstruction := rfl

/-- `Step` for the build with customizer `C`. -/
inductive BuildStep (C : Customizer) (cr : Crypto) (ok : Act → Ledger → Prop) :
    Act → Ledger → Ledger → Prop
  | base {act : Act} {L L' : Ledger} (h : BaseStep cr act L L') : BuildStep C cr ok act L L'
  | tokenWrap {env : Env} {accounts : List Meta} {data : Bytes} {L L' : Ledger}
      (hcr : env.cr = cr) (hid : env.programId = crateId)
      (hs : ∀ k, Signs accounts k → CanSign cr k)
      (h : processInstructionWith C env accounts data L = .ok L') (hr : ∀ n, 0 < env.rentMin n) :
      BuildStep C cr ok (.tokenWrap env accounts data) L L'
  /-- Wrap with a transfer hook running other programs' instructions in between -/
  | wrapHooked {env : Env} {accounts : List Meta} {amount : UInt64} {hook : Ledger → Ledger}
      {L L' : Ledger} (hcr : env.cr = cr) (hid : env.programId = crateId)
      (hs : ∀ k, Signs accounts k → CanSign cr k)
      (hhook : ∀ L1, Run cr ok L1 (hook L1))
      (h : processWrapHooked env accounts amount hook L = .ok L') (hr : ∀ n, 0 < env.rentMin n) :
      BuildStep C cr ok (.tokenWrap env accounts (TokenWrapInstruction.wrap amount).pack) L L'

/-- `History` for the build with customizer `C`. -/
inductive BuildHistory (C : Customizer) (cr : Crypto) (ok : Act → Ledger → Prop) (L0 : Ledger) :
    List Act → Ledger → Prop
  | start : BuildHistory C cr ok L0 [] L0
  | step {trace : List Act} {act : Act} {L L' : Ledger} (h : BuildHistory C cr ok L0 trace L)
      (hok : ok act L) (hs : BuildStep C cr ok act L L') : BuildHistory C cr ok L0 (act :: trace) L'

section
variable {C : Customizer} {cr : Crypto} {ok : Act → Ledger → Prop} {L0 L L' : Ledger} {act : Act}
  {trace : List Act}

/-- The steps of the published build are those of `World.lean`. -/
theorem buildStep_default :
    BuildStep defaultToken2022Customizer cr ok act L L' ↔ Step cr ok act L L' := by
  constructor
  · intro h
    cases h with
    | base h => exact .base h
    | tokenWrap a b c d e => exact .tokenWrap a b c d e
    | wrapHooked a b c d e f => exact .wrapHooked a b c d e f
  · intro h
    cases h with
    | base h => exact .base h
    | tokenWrap a b c d e => exact .tokenWrap a b c d e
    | wrapHooked a b c d e f => exact .wrapHooked a b c d e f

theorem buildHistory_default :
    BuildHistory defaultToken2022Customizer cr ok L0 trace L ↔ History cr ok L0 trace L := by
  constructor
  · intro h
    induction h with
    | start => exact .start
    | step _ h1 h2 ih => exact .step ih h1 (buildStep_default.1 h2)
  · intro h
    induction h with
    | start => exact .start
    | step _ h1 h2 ih => exact .step ih h1 (buildStep_default.2 h2)

end

end TokenWrap
