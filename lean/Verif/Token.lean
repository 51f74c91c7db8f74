import Verif.Instruction
import Verif.State
import Verif.Borsh
/-!
# The token programs (environment model)

Executable model of the spl-token / spl-token-2022 instructions that Token Wrap calls by CPI, and of
those third parties can use around it.  The source of these programs is not part of /repo; this
file is trusted (see DESIGN.md).  Behaviour of extensions that can only *reject* an instruction
(transfer hooks, pausable, memo required, CPI guard, non-transferable, ...) is the arbitrary
parameter `Env.reject`.
-/

namespace TokenWrap

/-- `spl_token_metadata_interface::state::Field`. -/
inductive Field
  | name | symbol | uri
  | key (k : String)
deriving DecidableEq, Repr

/-- `AuthorityType` values covered by the model. -/
inductive AuthorityType
  | mintTokens | freezeAccount | accountOwner | closeAccount
  | closeMint | permanentDelegate | metadataPointer | confidentialTransferMint
  | transferFeeConfig | withheldWithdraw | transferHookProgramId | pause
deriving DecidableEq, Repr

/-- Token-program instructions. `signers` are the extra accounts passed for multisig owners. -/
inductive TokenIx
  | transfer (src dst auth : Pubkey) (signers : List Pubkey) (amount : Nat)
  | transferChecked (src mint dst auth : Pubkey) (signers : List Pubkey) (amount : Nat)
      (decimals : UInt8)
  | transferCheckedWithFee (src mint dst auth : Pubkey) (signers : List Pubkey) (amount : Nat)
      (decimals : UInt8) (fee : Nat)
  | mintTo (mint dst auth : Pubkey) (signers : List Pubkey) (amount : Nat)
  | burn (acct mint auth : Pubkey) (signers : List Pubkey) (amount : Nat)
  | closeAccount (acct dst auth : Pubkey) (signers : List Pubkey)
  | approve (src delegate auth : Pubkey) (signers : List Pubkey) (amount : Nat)
  | revoke (src auth : Pubkey) (signers : List Pubkey)
  | setAuthority (acct : Pubkey) (kind : AuthorityType) (new : Option Pubkey) (auth : Pubkey)
      (signers : List Pubkey)
  | freezeAccount (acct mint auth : Pubkey) (signers : List Pubkey) (freeze : Bool)
  | initMintExt (mint : Pubkey) (ext : MintExt)
  | initializeMint2 (mint mintAuthority : Pubkey) (freezeAuthority : Option Pubkey)
      (decimals : UInt8)
  | initializeAccount3 (acct mint owner : Pubkey) (extra : List AcctExt)
  | initializeMultisig (acct : Pubkey) (signers : List Pubkey) (m : Nat)
  | addAcctExt (acct auth : Pubkey) (signers : List Pubkey) (ext : AcctExt)
  | syncNative (acct : Pubkey)
  | setTransferFee (mint auth : Pubkey) (signers : List Pubkey) (bps maxFee : Nat)
  | withdrawWithheld (mint src dst auth : Pubkey) (signers : List Pubkey)
  | harvestWithheld (mint src : Pubkey)
  | withdrawWithheldFromMint (mint dst auth : Pubkey) (signers : List Pubkey)
  | updateMintExt (mint auth : Pubkey) (signers : List Pubkey) (ext : MintExt)
  | withdrawExcessLamports (src dst auth : Pubkey) (signers : List Pubkey)
  | unwrapLamports (src dst auth : Pubkey) (signers : List Pubkey) (amount : Option Nat)
  | updateMetadataPointer (mint auth : Pubkey) (signers : List Pubkey) (address : Option Pubkey)
  | confidentialDeposit (acct mint auth : Pubkey) (signers : List Pubkey) (amount : Nat)
  | confidentialWithdraw (acct mint auth : Pubkey) (signers : List Pubkey) (amount : Nat)
  | confidentialTransfer (src mint dst auth : Pubkey) (signers : List Pubkey) (amount : Nat)
  | initializeMetadata (mint updateAuthority mintAuthority : Pubkey) (name symbol uri : String)
  | updateField (mint updateAuthority : Pubkey) (field : Field) (value : String)
  | removeKey (mint updateAuthority : Pubkey) (key : String) (idempotent : Bool)
  | updateMetadataAuthority (mint updateAuthority : Pubkey) (new : Option Pubkey)
deriving DecidableEq, Repr

/-- What the program reads from its surroundings, plus the parameters that stand for code outside
the model. All theorems quantify over it. -/
structure Env where
  cr : Crypto
  /-- the address the program is deployed at (the runtime's executing program id) -/
  programId : Pubkey
  /-- `Clock::get()?.epoch` -/
  epoch : Nat
  /-- `Rent::get()?.minimum_balance(space)` -/
  rentMin : Nat → Nat
  /-- any further rejection by a token program (see file header) -/
  reject : Pubkey → TokenIx → (Pubkey → Bool) → Ledger → Option TokenErr
  /-- any further rejection by the Metaplex program (length limits, share sums, changes of verified
  collections, ...) -/
  mplReject : (Pubkey → Bool) → Pubkey → DataV2 → Ledger → Option Nat
  /-- Metaplex pads strings to their maximal length before storing them -/
  mplPad : String → String
  /-- lamports Metaplex takes from the payer to create a metadata account (rent not yet covered by
  the account's own lamports, given as argument, plus its fee) -/
  mplCost : Nat → Nat
  /-- edition nonce and token standard Metaplex records for a mint when creating its metadata -/
  mplExtra : Pubkey → Option UInt8 × Option TokenStandard
  /-- result of an external metadata program's `Emit` on an account: `error` if the CPI fails,
  otherwise the runtime's return data: none, or the program that set it with the bytes -/
  emit : Pubkey → Pubkey → Ledger → Except Nat (Option (Pubkey × Bytes))
  /-- iteration order of a `std::collections::HashMap` with these keys -/
  hashOrder : List String → List String
  /-- serde_json for the three types that are parsed back -/
  jsonCreators : List Creator → String
  parseCreators : String → Option (List Creator)
  jsonCollection : Collection → String
  parseCollection : String → Option Collection
  jsonUses : Uses → String
  parseUses : String → Option Uses
  /-- serde_json for the types that are only printed -/
  jsonKey : Nat → String
  jsonTokenStandard : TokenStandard → String
  jsonCollectionDetails : CollectionDetails → String
  jsonProgrammableConfig : ProgrammableConfig → String

/-! ## Loading accounts -/

/-- A token account that the executing token program owns. -/
def getToken (prog : Pubkey) (L : Ledger) (k : Pubkey) : Res TokenAcct :=
  if (L k).owner = prog then
    match (L k).data with
    | .token t => .ok t
    | _ => .error (.token .invalidAccountData)
  else .error (.token .incorrectProgramId)

/-- A mint that the executing token program owns. SPL Token's `Mint::unpack` insists on 82 bytes,
i.e. no extensions. -/
def getMint (prog : Pubkey) (L : Ledger) (k : Pubkey) : Res Mint :=
  if (L k).owner = prog then
    match (L k).data with
    | .mint m =>
      if prog = splTokenId ∧ m.exts ≠ [] then .error (.token .invalidAccountData) else .ok m
    | _ => .error (.token .invalidAccountData)
  else .error (.token .incorrectProgramId)

@[simp] theorem getToken_ok_iff {prog : Pubkey} {L : Ledger} {k : Pubkey} {t : TokenAcct} :
    getToken prog L k = .ok t ↔ (L k).owner = prog ∧ (L k).data = .token t := by
  unfold getToken
  split
  · split <;> simp_all
  · simp_all

@[simp] theorem getMint_ok_iff {prog : Pubkey} {L : Ledger} {k : Pubkey} {m : Mint} :
    getMint prog L k = .ok m ↔
      (L k).owner = prog ∧ (L k).data = .mint m ∧ (prog = splTokenId → m.exts = []) := by
  unfold getMint
  by_cases h1 : (L k).owner = prog
  · rw [if_pos h1]
    cases hd : (L k).data with
    | mint m' =>
      dsimp only
      by_cases hs : prog = splTokenId ∧ m'.exts ≠ []
      · rw [if_pos hs]
        simp only [h1, reduceCtorEq, Data.mint.injEq, true_and, false_iff, not_and]
        rintro rfl h
        exact hs.2 (h hs.1)
      · rw [if_neg hs]
        simp only [h1, Except.ok.injEq, Data.mint.injEq, true_and]
        refine ⟨?_, fun h => h.1⟩
        rintro rfl
        exact ⟨rfl, fun h => Decidable.byContradiction fun h' => hs ⟨h, h'⟩⟩
    | _ => simp
  · simp [h1]

/-! ## Authorisation -/

/-- The multisig stored at `k`, when the executing token program owns it. -/
def multisigAt (prog : Pubkey) (L : Ledger) (k : Pubkey) : Option Multisig :=
  if (L k).owner = prog then
    match (L k).data with
    | .multisig ms => some ms
    | _ => none
  else none

/-- `Processor::validate_owner`: the authority must be the expected one and have signed; if it is a
multisig, every provided member must have signed and there must be at least `m` of them. -/
def validateOwner (prog : Pubkey) (L : Ledger) (expected auth : Pubkey) (signers : List Pubkey)
    (signed : Pubkey → Bool) : Res Unit :=
  if expected = auth then
    match multisigAt prog L auth with
    | some ms =>
      let matched := ms.signers.filter (· ∈ signers)
      if matched.all signed ∧ ms.m ≤ matched.length then .ok ()
      else .error (.token .missingRequiredSignature)
    | none =>
      if signed auth then .ok () else .error (.token .missingRequiredSignature)
  else .error (.token .ownerMismatch)

/-- `owner` is an address nobody can sign for but whose accounts anyone may burn from or close
(`is_owned_by_system_program_or_incinerator`). -/
def ownedByNobody (t : TokenAcct) : Bool := t.owner = systemId || t.owner = incineratorId

/-- Authority check for moving `amount` out of `t` (transfer and burn): permanent delegate first,
then delegate (consuming its allowance), then owner.  Returns the account with the allowance
updated. -/
def spendAuth (prog : Pubkey) (L : Ledger) (t : TokenAcct) (pd : Option Pubkey) (auth : Pubkey)
    (signers : List Pubkey) (signed : Pubkey → Bool) (amount : Nat) : Res TokenAcct :=
  if pd = some auth then do
    validateOwner prog L auth auth signers signed
    pure t
  else if t.delegate = some auth then do
    validateOwner prog L auth auth signers signed
    require (amount ≤ t.delegatedAmount) (.token .insufficientFunds)
    pure { t with
      delegatedAmount := t.delegatedAmount - amount
      delegate := if t.delegatedAmount - amount = 0 then none else t.delegate }
  else do
    validateOwner prog L t.owner auth signers signed
    pure t

/-! ## Transfers -/

/-- Move lamports between two different accounts. -/
def moveLamports (L : Ledger) (src dst : Pubkey) (n : Nat) : Res Ledger := do
  require (n ≤ (L src).lamports) (.token .insufficientFunds)
  let L1 := L.setLamports src ((L src).lamports - n)
  pure (L1.setLamports dst ((L1 dst).lamports + n))

/-- Permanent delegate of a mint as seen by `prog`: only Token-2022 knows extensions. -/
def pdOf (prog : Pubkey) (m : Mint) : Option Pubkey :=
  if prog = token2022Id then m.permanentDelegate? else none

/-- Fee that `prog` charges for a transfer of `amount` of mint `m`. -/
def feeOf (prog : Pubkey) (epoch : Nat) (m : Mint) (amount : Nat) : Res Nat :=
  if prog = token2022Id then
    match m.transferFee? with
    | some c => okOr (c.calculateEpochFee epoch amount) (.token .overflow)
    | none => .ok 0
  else .ok 0

/-- The mint-dependent part of a checked transfer: mint and decimals must match; gives the fee and
the permanent delegate. -/
def checkMint (env : Env) (prog : Pubkey) (L : Ledger) (s : TokenAcct) (mint : Pubkey)
    (decimals : UInt8) (amount : Nat) : Res (Nat × Option Pubkey) := do
  require (s.mint = mint) (.token .mintMismatch)
  let m ← getMint prog L mint
  require (decimals = m.decimals) (.token .mintDecimalsMismatch)
  let fee ← feeOf prog env.epoch m amount
  pure (fee, pdOf prog m)

/-- The state change of a transfer between different accounts. -/
def transferMove (L : Ledger) (src dst : Pubkey) (s d : TokenAcct) (amount fee : Nat) :
    Res Ledger := do
  require (fee ≤ amount) (.token .overflow)
  require (d.amount + (amount - fee) ≤ u64Max) (.token .overflow)
  require (fee = 0 || AcctExt.transferFeeAmount ∈ d.exts) (.token .invalidState)
  let L1 := L.setData src (.token { s with amount := s.amount - amount })
  let L2 := L1.setData dst (.token
    { d with amount := d.amount + (amount - fee), withheld := d.withheld + fee })
  if s.isNative.isSome then moveLamports L2 src dst amount else pure L2

/-- Fee and permanent delegate of a transfer; an unchecked transfer is refused for accounts of
fee-bearing mints and knows no permanent delegate. -/
def transferCheck (env : Env) (prog : Pubkey) (L : Ledger) (s : TokenAcct) (amount : Nat)
    (chk : Option (Pubkey × UInt8)) : Res (Nat × Option Pubkey) :=
  match chk with
  | some (mint, decimals) => checkMint env prog L s mint decimals amount
  | none => do
    require (AcctExt.transferFeeAmount ∉ s.exts) (.token .mintRequiredForTransfer)
    pure (0, none)

/-- `process_transfer` for `Transfer` (`chk = none`), `TransferChecked` and
`TransferCheckedWithFee` (`expectedFee = some _`). -/
def transferExec (env : Env) (prog : Pubkey) (signed : Pubkey → Bool) (L : Ledger)
    (src dst auth : Pubkey) (signers : List Pubkey) (amount : Nat)
    (chk : Option (Pubkey × UInt8)) (expectedFee : Option Nat) : Res Ledger := do
  let s ← getToken prog L src
  let d ← getToken prog L dst
  require (!s.frozen && !d.frozen) (.token .accountFrozen)
  require (amount ≤ s.amount) (.token .insufficientFunds)
  require (s.mint = d.mint) (.token .mintMismatch)
  let feePd ← transferCheck env prog L s amount chk
  require (expectedFee = none || expectedFee = some feePd.1) (.token .feeMismatch)
  let s' ← spendAuth prog L s feePd.2 auth signers signed amount
  if src = dst then pure L
  else transferMove L src dst s' d amount feePd.1

/-! ## Mint and burn -/

/-- `process_mint_to`. -/
def mintToExec (prog : Pubkey) (signed : Pubkey → Bool) (L : Ledger) (mint dst auth : Pubkey)
    (signers : List Pubkey) (amount : Nat) : Res Ledger := do
  let d ← getToken prog L dst
  require (!d.frozen) (.token .accountFrozen)
  require d.isNative.isNone (.token .nativeNotSupported)
  require (d.mint = mint) (.token .mintMismatch)
  let m ← getMint prog L mint
  let ma ← okOr m.mintAuthority (.token .fixedSupply)
  validateOwner prog L ma auth signers signed
  require (d.amount + amount ≤ u64Max) (.token .overflow)
  require (m.supply + amount ≤ u64Max) (.token .overflow)
  pure ((L.setData dst (.token { d with amount := d.amount + amount })).setData mint
    (.mint { m with supply := m.supply + amount }))

/-- `process_burn`. -/
def burnExec (prog : Pubkey) (signed : Pubkey → Bool) (L : Ledger) (acct mint auth : Pubkey)
    (signers : List Pubkey) (amount : Nat) : Res Ledger := do
  let s ← getToken prog L acct
  let m ← getMint prog L mint
  require (!s.frozen) (.token .accountFrozen)
  require s.isNative.isNone (.token .nativeNotSupported)
  require (s.mint = mint) (.token .mintMismatch)
  require (amount ≤ s.amount) (.token .insufficientFunds)
  let s' ← (if ownedByNobody s then .ok s
    else spendAuth prog L s (pdOf prog m) auth signers signed amount)
  require (amount ≤ m.supply) (.token .overflow)
  pure ((L.setData acct (.token { s' with amount := s.amount - amount })).setData mint
    (.mint { m with supply := m.supply - amount }))

/-! ## Closing accounts -/

/-- What closing leaves behind: the account is deleted and its lamports are at `dst`. -/
def closeOut (L : Ledger) (acct dst : Pubkey) : Ledger :=
  (L.setLamports dst ((L dst).lamports + (L acct).lamports)).set acct Account.empty

/-- `process_close_account` for token accounts and (Token-2022) mints. -/
def closeAccountExec (prog : Pubkey) (signed : Pubkey → Bool) (L : Ledger)
    (acct dst auth : Pubkey) (signers : List Pubkey) : Res Ledger := do
  require (acct ≠ dst) (.token .invalidAccountData)
  require ((L acct).owner = prog) (.token .incorrectProgramId)
  match (L acct).data with
  | .token t => do
    require (t.isNative.isSome || t.amount = 0) (.token .nonNativeHasBalance)
    (if ownedByNobody t then require (dst = incineratorId) (.token .invalidAccountData)
    else validateOwner prog L (t.closeAuthority.getD t.owner) auth signers signed)
    require (t.withheld = 0) (.token .accountHasWithheldFees)
    require (t.confidential = 0) (.token .nonNativeHasBalance)
    pure (closeOut L acct dst)
  | .mint m => do
    require (prog = token2022Id) (.token .invalidAccountData)
    let ca ← okOr m.closeAuthority? (.token .authorityTypeNotSupported)
    validateOwner prog L ca auth signers signed
    require (m.supply = 0) (.token .mintHasSupply)
    pure (closeOut L acct dst)
  | _ => .error (.token .uninitializedAccount)

/-! ## Delegation, authorities, freezing -/

/-- `process_approve`. -/
def approveExec (prog : Pubkey) (signed : Pubkey → Bool) (L : Ledger) (src delegate auth : Pubkey)
    (signers : List Pubkey) (amount : Nat) : Res Ledger := do
  let t ← getToken prog L src
  require (!t.frozen) (.token .accountFrozen)
  validateOwner prog L t.owner auth signers signed
  pure (L.setData src (.token { t with delegate := some delegate, delegatedAmount := amount }))

/-- `process_revoke`. -/
def revokeExec (prog : Pubkey) (signed : Pubkey → Bool) (L : Ledger) (src auth : Pubkey)
    (signers : List Pubkey) : Res Ledger := do
  let t ← getToken prog L src
  require (!t.frozen) (.token .accountFrozen)
  validateOwner prog L (if t.delegate = some auth then auth else t.owner) auth signers signed
  pure (L.setData src (.token { t with delegate := none, delegatedAmount := 0 }))

/-- Current holder of an extension authority and the extension with the authority replaced. -/
def MintExt.authorityUpdate (kind : AuthorityType) (new : Option Pubkey) :
    MintExt → Option (Option Pubkey × MintExt)
  | .mintCloseAuthority a => if kind = .closeMint then some (a, .mintCloseAuthority new) else none
  | .permanentDelegate d => if kind = .permanentDelegate then some (d, .permanentDelegate new) else none
  | .metadataPointer a p =>
    if kind = .metadataPointer then some (a, .metadataPointer new p) else none
  | .confidentialTransferMint a ap au =>
    if kind = .confidentialTransferMint then some (a, .confidentialTransferMint new ap au) else none
  | .transferFeeConfig c =>
    if kind = .transferFeeConfig then some (c.authority, .transferFeeConfig { c with authority := new })
    else if kind = .withheldWithdraw then
      some (c.withdrawAuthority, .transferFeeConfig { c with withdrawAuthority := new })
    else none
  | .transferHook a p =>
    if kind = .transferHookProgramId then some (a, .transferHook new p) else none
  | .pausable a p => if kind = .pause then some (a, .pausable new p) else none
  | _ => none

/-- Update the first extension whose authority is of the given kind, if `auth` currently holds it;
gives the holder and the new extension list. -/
def updateExtAuthority (kind : AuthorityType) (new : Option Pubkey) :
    List MintExt → Option (Option Pubkey × List MintExt)
  | [] => none
  | e :: rest =>
    match e.authorityUpdate kind new with
    | some (cur, e') => some (cur, e' :: rest)
    | none => (updateExtAuthority kind new rest).map fun r => (r.1, e :: r.2)

/-- `process_set_authority`. -/
def setAuthorityExec (prog : Pubkey) (signed : Pubkey → Bool) (L : Ledger) (acct : Pubkey)
    (kind : AuthorityType) (new : Option Pubkey) (auth : Pubkey) (signers : List Pubkey) :
    Res Ledger := do
  require ((L acct).owner = prog) (.token .incorrectProgramId)
  match (L acct).data with
  | .token t => do
    require (!t.frozen) (.token .accountFrozen)
    if kind = .accountOwner then do
      require (AcctExt.immutableOwner ∉ t.exts) (.token .immutableOwner)
      validateOwner prog L t.owner auth signers signed
      let o ← okOr new (.token .authorityTypeNotSupported)
      pure (L.setData acct (.token { t with
        owner := o, delegate := none, delegatedAmount := 0,
        closeAuthority := if t.isNative.isSome then none else t.closeAuthority }))
    else if kind = .closeAccount then do
      validateOwner prog L (t.closeAuthority.getD t.owner) auth signers signed
      pure (L.setData acct (.token { t with closeAuthority := new }))
    else .error (.token .authorityTypeNotSupported)
  | .mint m =>
    if kind = .mintTokens then do
      let cur ← okOr m.mintAuthority (.token .fixedSupply)
      validateOwner prog L cur auth signers signed
      pure (L.setData acct (.mint { m with mintAuthority := new }))
    else if kind = .freezeAccount then do
      let cur ← okOr m.freezeAuthority (.token .mintCannotFreeze)
      validateOwner prog L cur auth signers signed
      pure (L.setData acct (.mint { m with freezeAuthority := new }))
    else do
      let (cur, exts) ← okOr (updateExtAuthority kind new m.exts) (.token .authorityTypeNotSupported)
      let cur ← okOr cur (.token .authorityTypeNotSupported)
      validateOwner prog L cur auth signers signed
      pure (L.setData acct (.mint { m with exts := exts }))
  | _ => .error (.token .invalidAccountData)

/-- `process_toggle_freeze_account`. -/
def freezeExec (prog : Pubkey) (signed : Pubkey → Bool) (L : Ledger) (acct mint auth : Pubkey)
    (signers : List Pubkey) (freeze : Bool) : Res Ledger := do
  let t ← getToken prog L acct
  require (t.frozen ≠ freeze) (.token .invalidState)
  require (t.mint = mint) (.token .mintMismatch)
  let m ← getMint prog L mint
  let f ← okOr m.freezeAuthority (.token .mintCannotFreeze)
  validateOwner prog L f auth signers signed
  pure (L.setData acct (.token { t with frozen := freeze }))

/-! ## Initialisation -/

/-- Well-formedness the token program enforces when an extension is initialised. -/
def MintExt.initOk : MintExt → Bool
  | .transferFeeConfig c =>
    decide (c.older.bps ≤ 10000) && decide (c.newer.bps ≤ 10000) && decide (c.withheld = 0)
  | .tokenMetadata _ => false
  | _ => true

/-- Discriminator of a mint extension, to reject initialising the same extension twice. -/
def MintExt.tag : MintExt → Nat
  | .transferFeeConfig _ => 1
  | .mintCloseAuthority _ => 3
  | .confidentialTransferMint .. => 4
  | .defaultAccountState _ => 6
  | .nonTransferable => 9
  | .permanentDelegate _ => 12
  | .transferHook .. => 14
  | .metadataPointer .. => 18
  | .tokenMetadata _ => 19
  | .pausable .. => 26
  | .other n => 100 + n

/-- Initialise one extension on an uninitialised Token-2022 mint. -/
def initMintExtExec (prog : Pubkey) (L : Ledger) (mint : Pubkey) (ext : MintExt) : Res Ledger := do
  require (prog = token2022Id) .incorrectProgramId
  require ((L mint).owner = prog) (.token .incorrectProgramId)
  require ext.initOk (.token .invalidAccountData)
  match (L mint).data with
  | .bytes b => do
    require (b.all (· = 0)) (.token .alreadyInUse)
    require (mintAccountLen [ext.valueLen] ≤ b.length) (.token .invalidAccountData)
    pure (L.setData mint (.preMint b.length [ext]))
  | .preMint space exts => do
    require (exts.all (·.tag ≠ ext.tag)) (.token .alreadyInUse)
    require (mintAccountLen ((exts ++ [ext]).map MintExt.valueLen) ≤ space)
      (.token .invalidAccountData)
    pure (L.setData mint (.preMint space (exts ++ [ext])))
  | _ => .error (.token .alreadyInUse)

/-- The extensions of a mint about to be initialised: none for a zeroed account; in both cases the
account's size must be exactly the one its extensions need. -/
def preMintExts (d : Data) : Res (List MintExt) :=
  match d with
  | .bytes b => do
    require (b.all (· = 0)) (.token .alreadyInUse)
    require (b.length = mintAccountLen []) (.token .invalidAccountData)
    pure []
  | .preMint space exts => do
    require (space = mintAccountLen (exts.map MintExt.valueLen)) (.token .invalidAccountData)
    pure exts
  | _ => .error (.token .alreadyInUse)

/-- `process_initialize_mint2`: the account must be rent exempt, zeroed (or have only initialised
extensions), and its size must be exactly that of its extensions. -/
def initializeMint2Exec (env : Env) (prog : Pubkey) (L : Ledger) (mint mintAuthority : Pubkey)
    (freezeAuthority : Option Pubkey) (decimals : UInt8) : Res Ledger := do
  require ((L mint).owner = prog) (.token .incorrectProgramId)
  require (env.rentMin (L mint).data.len ≤ (L mint).lamports) (.token .notRentExempt)
  let exts ← preMintExts (L mint).data
  pure (L.setData mint (.mint
    { mintAuthority := some mintAuthority, supply := 0, decimals, freezeAuthority, exts }))

/-- The two native-SOL mints. -/
def nativeMints : List Pubkey :=
  [⟨[6, 155, 136, 87, 254, 171, 129, 132, 251, 104, 127, 99, 70, 24, 192, 53, 218, 196, 57, 220, 26, 235, 59, 85, 152, 160, 240, 0, 0, 0, 0, 1], rfl⟩,
   ⟨[131, 13, 252, 159, 222, 95, 230, 184, 170, 124, 4, 164, 118, 233, 30, 138, 198, 187, 38, 74, 173, 144, 250, 25, 201, 223, 73, 216, 92, 62, 91, 94], rfl⟩]

/-- Does the mint create accounts frozen (`DefaultAccountState`)? -/
def Mint.defaultFrozen (m : Mint) : Bool :=
  m.exts.any fun | .defaultAccountState f => f | _ => false

/-- Extensions of a new token account: those requested first (e.g. `ImmutableOwner` by the ATA
program), then those the mint requires. -/
def newAcctExts (prog : Pubkey) (m : Mint) (extra : List AcctExt) : List AcctExt :=
  if prog = token2022Id then extra ++ m.requiredAccountExts.filter (· ∉ extra) else []

/-- The freshly initialised token account; `rent` is the rent-exempt minimum for its size, which a
native account keeps in reserve. -/
def newTokenAcct (rent : Nat) (prog : Pubkey) (lamports : Nat) (mint : Pubkey) (m : Mint)
    (owner : Pubkey) (extra : List AcctExt) : TokenAcct :=
  { mint, owner
    amount := if mint ∈ nativeMints then lamports - rent else 0
    delegate := none
    delegatedAmount := 0
    frozen := prog = token2022Id && m.defaultFrozen
    isNative := if mint ∈ nativeMints then some rent else none
    closeAuthority := none
    exts := newAcctExts prog m extra
    withheld := 0
    confidential := 0 }

/-- `process_initialize_account3` on a zeroed account of the token program. -/
def initializeAccount3Exec (env : Env) (prog : Pubkey) (L : Ledger) (acct mint owner : Pubkey)
    (extra : List AcctExt) : Res Ledger := do
  require ((L acct).owner = prog) (.token .incorrectProgramId)
  match (L acct).data with
  | .bytes b => do
    require (b.all (· = 0)) (.token .alreadyInUse)
    require (env.rentMin b.length ≤ (L acct).lamports) (.token .notRentExempt)
    let m ← getMint prog L mint
    require (roomFor prog (newAcctExts prog m extra) b.length) (.token .invalidAccountData)
    pure (L.setData acct (.token
      (newTokenAcct (env.rentMin b.length) prog (L acct).lamports mint m owner extra)))
  | _ => .error (.token .alreadyInUse)

/-- `process_initialize_multisig`. -/
def initializeMultisigExec (prog : Pubkey) (L : Ledger) (acct : Pubkey) (signers : List Pubkey)
    (m : Nat) : Res Ledger := do
  require ((L acct).owner = prog) (.token .incorrectProgramId)
  require (decide (1 ≤ m) && decide (m ≤ signers.length) && decide (signers.length ≤ 11))
    (.token .invalidNumber)
  match (L acct).data with
  | .bytes b => do
    require (b.all (· = 0) && decide (b.length = 355)) (.token .alreadyInUse)
    pure (L.setData acct (.multisig { m, signers }))
  | _ => .error (.token .alreadyInUse)

/-! ## Other account operations -/

/-- `Reallocate` / `EnableRequiredMemoTransfers` / `CpiGuard::Enable` /
`ConfidentialTransfer::ConfigureAccount`: the owner adds an account extension. -/
def addAcctExtExec (prog : Pubkey) (signed : Pubkey → Bool) (L : Ledger) (acct auth : Pubkey)
    (signers : List Pubkey) (ext : AcctExt) : Res Ledger := do
  let t ← getToken prog L acct
  require (prog = token2022Id) (.token .invalidAccountData)
  validateOwner prog L t.owner auth signers signed
  pure (L.setData acct (.token { t with exts := if ext ∈ t.exts then t.exts else t.exts ++ [ext] }))

/-- `process_sync_native`. -/
def syncNativeExec (prog : Pubkey) (L : Ledger) (acct : Pubkey) : Res Ledger := do
  let t ← getToken prog L acct
  let rent ← okOr t.isNative (.token .nativeNotSupported)
  require (t.amount ≤ (L acct).lamports - rent) (.token .invalidState)
  require ((L acct).lamports - rent ≤ u64Max) (.token .overflow)
  pure (L.setData acct (.token { t with amount := (L acct).lamports - rent }))

/-- Replace the first transfer-fee configuration. -/
def mapFee (f : TransferFeeConfig → TransferFeeConfig) : List MintExt → List MintExt
  | [] => []
  | .transferFeeConfig c :: rest => .transferFeeConfig (f c) :: rest
  | e :: rest => e :: mapFee f rest

/-- `transfer_fee::SetTransferFee`: the new fee takes effect two epochs later. -/
def setTransferFeeExec (env : Env) (prog : Pubkey) (signed : Pubkey → Bool) (L : Ledger)
    (mint auth : Pubkey) (signers : List Pubkey) (bps maxFee : Nat) : Res Ledger := do
  let m ← getMint prog L mint
  let c ← okOr m.transferFee? (.token .extensionNotFound)
  let a ← okOr c.authority (.token .authorityTypeNotSupported)
  validateOwner prog L a auth signers signed
  require (bps ≤ 10000) (.token .invalidNumber)
  let c' : TransferFeeConfig := { c with
    older := if c.newer.epoch ≤ env.epoch then c.newer else c.older
    newer := { epoch := env.epoch + 2, maximumFee := maxFee, bps } }
  pure (L.setData mint (.mint { m with exts := mapFee (fun _ => c') m.exts }))

/-- `transfer_fee::WithdrawWithheldTokensFromAccounts` for one source account. -/
def withdrawWithheldExec (prog : Pubkey) (signed : Pubkey → Bool) (L : Ledger)
    (mint src dst auth : Pubkey) (signers : List Pubkey) : Res Ledger := do
  let m ← getMint prog L mint
  let c ← okOr m.transferFee? (.token .extensionNotFound)
  let a ← okOr c.withdrawAuthority (.token .authorityTypeNotSupported)
  validateOwner prog L a auth signers signed
  let s ← getToken prog L src
  require (s.mint = mint) (.token .mintMismatch)
  let L1 := L.setData src (.token { s with withheld := 0 })
  let d ← getToken prog L1 dst
  require (d.mint = mint) (.token .mintMismatch)
  require (!d.frozen) (.token .accountFrozen)
  require (d.amount + s.withheld ≤ u64Max) (.token .overflow)
  pure (L1.setData dst (.token { d with amount := d.amount + s.withheld }))

/-- `transfer_fee::HarvestWithheldTokensToMint` for one source account. -/
def harvestWithheldExec (prog : Pubkey) (L : Ledger) (mint src : Pubkey) : Res Ledger := do
  let m ← getMint prog L mint
  let _ ← okOr m.transferFee? (.token .extensionNotFound)
  let s ← getToken prog L src
  require (s.mint = mint) (.token .mintMismatch)
  let L1 := L.setData src (.token { s with withheld := 0 })
  pure (L1.setData mint (.mint { m with
    exts := mapFee (fun c => { c with withheld := c.withheld + s.withheld }) m.exts }))

/-- `transfer_fee::WithdrawWithheldTokensFromMint`. -/
def withdrawWithheldFromMintExec (prog : Pubkey) (signed : Pubkey → Bool) (L : Ledger)
    (mint dst auth : Pubkey) (signers : List Pubkey) : Res Ledger := do
  let m ← getMint prog L mint
  let c ← okOr m.transferFee? (.token .extensionNotFound)
  let a ← okOr c.withdrawAuthority (.token .authorityTypeNotSupported)
  validateOwner prog L a auth signers signed
  let d ← getToken prog L dst
  require (d.mint = mint) (.token .mintMismatch)
  require (!d.frozen) (.token .accountFrozen)
  require (d.amount + c.withheld ≤ u64Max) (.token .overflow)
  pure ((L.setData dst (.token { d with amount := d.amount + c.withheld })).setData mint (.mint { m with
    exts := mapFee (fun c => { c with withheld := 0 }) m.exts }))

/-- The authority over the settings of an extension, and the extension with the settings of `new`:
`transfer_hook::Update`, `pausable::Pause` / `Resume`, `confidential_transfer::UpdateMint`,
`default_account_state::Update` (whose authority is the mint's freeze authority). -/
def MintExt.settingsUpdate (freeze : Option Pubkey) (new old : MintExt) :
    Option (Option Pubkey × MintExt) :=
  match old, new with
  | .transferHook a _, .transferHook _ p => some (a, .transferHook a p)
  | .pausable a _, .pausable _ p => some (a, .pausable a p)
  | .confidentialTransferMint a _ _, .confidentialTransferMint _ ap au =>
    some (a, .confidentialTransferMint a ap au)
  | .defaultAccountState _, .defaultAccountState f => some (freeze, .defaultAccountState f)
  | _, _ => none

/-- Update the settings of the first extension of `new`'s kind; gives the authority that must
approve and the new extension list. -/
def updateExtSettings (freeze : Option Pubkey) (new : MintExt) :
    List MintExt → Option (Option Pubkey × List MintExt)
  | [] => none
  | e :: rest =>
    match MintExt.settingsUpdate freeze new e with
    | some (cur, e') => some (cur, e' :: rest)
    | none => (updateExtSettings freeze new rest).map fun r => (r.1, e :: r.2)

/-- The instructions that change the settings of a mint extension (see `settingsUpdate`). -/
def updateMintExtExec (prog : Pubkey) (signed : Pubkey → Bool) (L : Ledger)
    (mint auth : Pubkey) (signers : List Pubkey) (ext : MintExt) : Res Ledger := do
  require (prog = token2022Id) (.token .invalidAccountData)
  let m ← getMint prog L mint
  let r ← okOr (updateExtSettings m.freezeAuthority ext m.exts) (.token .extensionNotFound)
  let a ← okOr r.1 (.token .authorityTypeNotSupported)
  validateOwner prog L a auth signers signed
  pure (L.setData mint (.mint { m with exts := r.2 }))

/-- The key that may take the excess lamports of an account of the token program: the owner of a
(non-native) token account, the authority of a mint (the mint itself if it has none), a multisig
itself. -/
def excessAuthority (acct : Pubkey) : Data → Res Pubkey
  | .token t => do
    require t.isNative.isNone (.token .nativeNotSupported)
    pure t.owner
  | .mint m => pure (m.mintAuthority.getD acct)
  | .multisig _ => pure acct
  | _ => .error (.token .invalidState)

/-- `process_withdraw_excess_lamports`: everything above the rent-exempt minimum goes to `dst`. -/
def withdrawExcessLamportsExec (env : Env) (prog : Pubkey) (signed : Pubkey → Bool) (L : Ledger)
    (src dst auth : Pubkey) (signers : List Pubkey) : Res Ledger := do
  require (isTokenProgram prog) .incorrectProgramId
  require ((L src).owner = prog) (.token .incorrectProgramId)
  require (src ≠ dst) (.token .invalidState)
  let a ← excessAuthority src (L src).data
  validateOwner prog L a auth signers signed
  require (env.rentMin (L src).data.len ≤ (L src).lamports) (.token .notRentExempt)
  pure ((L.setLamports src (env.rentMin (L src).data.len)).setLamports dst
    ((L dst).lamports + ((L src).lamports - env.rentMin (L src).data.len)))

/-- `process_unwrap_lamports`: the owner of a wrapped-SOL account takes lamports out of it, all of them by
default.  (A frozen account is refused here; the native mints have no freeze authority, so there are none.) -/
def unwrapLamportsExec (prog : Pubkey) (signed : Pubkey → Bool) (L : Ledger)
    (src dst auth : Pubkey) (signers : List Pubkey) (amount : Option Nat) : Res Ledger := do
  let t ← getToken prog L src
  require t.isNative.isSome (.token .nativeNotSupported)
  require (!t.frozen) (.token .accountFrozen)
  validateOwner prog L t.owner auth signers signed
  require (amount.getD t.amount ≤ t.amount) (.token .insufficientFunds)
  if src = dst then
    pure L
  else
    moveLamports (L.setData src (.token { t with amount := t.amount - amount.getD t.amount })) src dst
      (amount.getD t.amount)

/-- Replace the first metadata pointer's address. -/
def setPointer (address : Option Pubkey) : List MintExt → List MintExt
  | [] => []
  | .metadataPointer a _ :: rest => .metadataPointer a address :: rest
  | e :: rest => e :: setPointer address rest

/-- `metadata_pointer::Update`. -/
def updateMetadataPointerExec (prog : Pubkey) (signed : Pubkey → Bool) (L : Ledger)
    (mint auth : Pubkey) (signers : List Pubkey) (address : Option Pubkey) : Res Ledger := do
  let m ← getMint prog L mint
  let p ← okOr m.metadataPointer? (.token .extensionNotFound)
  let a ← okOr p.1 (.token .authorityTypeNotSupported)
  validateOwner prog L a auth signers signed
  pure (L.setData mint (.mint { m with exts := setPointer address m.exts }))

/-- Confidential-transfer deposit / withdraw / transfer, with the encrypted balance as a ghost
number (soundness of the zero-knowledge proofs is assumed).  Wrapped SOL is refused ("lamports cannot
be vanished"). -/
def confidentialExec (prog : Pubkey) (signed : Pubkey → Bool) (L : Ledger) (acct mint auth : Pubkey)
    (signers : List Pubkey) (amount : Nat) (deposit : Bool) : Res Ledger := do
  require (prog = token2022Id) (.token .invalidAccountData)
  let t ← getToken prog L acct
  require (!t.frozen) (.token .accountFrozen)
  require (t.mint = mint) (.token .mintMismatch)
  require t.isNative.isNone (.token .nativeNotSupported)
  validateOwner prog L t.owner auth signers signed
  if deposit then do
    require (amount ≤ t.amount) (.token .insufficientFunds)
    pure (L.setData acct (.token
      { t with amount := t.amount - amount, confidential := t.confidential + amount }))
  else do
    require (amount ≤ t.confidential) (.token .insufficientFunds)
    require (t.amount + amount ≤ u64Max) (.token .overflow)
    pure (L.setData acct (.token
      { t with amount := t.amount + amount, confidential := t.confidential - amount }))

/-- Confidential transfer (without confidential fees). -/
def confidentialTransferExec (prog : Pubkey) (signed : Pubkey → Bool) (L : Ledger)
    (src mint dst auth : Pubkey) (signers : List Pubkey) (amount : Nat) : Res Ledger := do
  require (prog = token2022Id) (.token .invalidAccountData)
  let s ← getToken prog L src
  require (!s.frozen) (.token .accountFrozen)
  require (s.mint = mint) (.token .mintMismatch)
  validateOwner prog L s.owner auth signers signed
  require (amount ≤ s.confidential) (.token .insufficientFunds)
  let L1 := L.setData src (.token { s with confidential := s.confidential - amount })
  let d ← getToken prog L1 dst
  require (!d.frozen) (.token .accountFrozen)
  require (d.mint = mint) (.token .mintMismatch)
  pure (L1.setData dst (.token { d with confidential := d.confidential + amount }))

/-! ## Token metadata (token-2022's implementation of spl-token-metadata-interface) -/

/-- `TokenMetadata::set_key_value`: overwrite the first entry with this key, or append. -/
def setKeyValue (k v : String) : List (String × String) → List (String × String)
  | [] => [(k, v)]
  | (k', v') :: rest => if k' = k then (k', v) :: rest else (k', v') :: setKeyValue k v rest

/-- `TokenMetadata::update`. -/
def TokenMetadata.update (md : TokenMetadata) (field : Field) (value : String) : TokenMetadata :=
  match field with
  | .name => { md with name := value }
  | .symbol => { md with symbol := value }
  | .uri => { md with uri := value }
  | .key k => { md with additional := setKeyValue k value md.additional }

/-- `TokenMetadata::remove_key`: drop every entry with this key. -/
def TokenMetadata.removeKey (md : TokenMetadata) (k : String) : TokenMetadata :=
  { md with additional := md.additional.filter (fun p => p.1 ≠ k) }

/-- Does the metadata have this key? -/
def TokenMetadata.hasKey (md : TokenMetadata) (k : String) : Bool :=
  md.additional.any (fun p => p.1 = k)

/-- Replace the first metadata extension by `f` of it. -/
def mapMetadata (f : TokenMetadata → TokenMetadata) : List MintExt → List MintExt
  | [] => []
  | .tokenMetadata md :: rest => .tokenMetadata (f md) :: rest
  | e :: rest => e :: mapMetadata f rest

/-- `token_metadata::processor::process_initialize`. -/
def initializeMetadataExec (prog : Pubkey) (signed : Pubkey → Bool) (L : Ledger)
    (mint updateAuthority mintAuthority : Pubkey) (name symbol uri : String) : Res Ledger := do
  require (prog = token2022Id) (.token .incorrectProgramId)
  let m ← getMint prog L mint
  require (signed mintAuthority) (.token .missingRequiredSignature)
  require (m.mintAuthority = some mintAuthority) (.token .ownerMismatch)
  require m.metadataPointer?.isSome (.token .extensionNotFound)
  require m.tokenMetadata?.isNone (.token .alreadyInUse)
  let md : TokenMetadata :=
    { updateAuthority := some updateAuthority, mint, name, symbol, uri, additional := [] }
  pure (L.setData mint (.mint { m with exts := m.exts ++ [.tokenMetadata md] }))

/-- Common part of the metadata updates: the update authority must have signed. -/
def metadataUpdateExec (prog : Pubkey) (signed : Pubkey → Bool) (L : Ledger)
    (mint updateAuthority : Pubkey) (f : TokenMetadata → Res TokenMetadata) : Res Ledger := do
  require (prog = token2022Id) (.token .incorrectProgramId)
  let m ← getMint prog L mint
  let md ← okOr m.tokenMetadata? (.token .extensionNotFound)
  require (signed updateAuthority) (.token .missingRequiredSignature)
  require (md.updateAuthority = some updateAuthority) (.token .ownerMismatch)
  let md' ← f md
  pure (L.setData mint (.mint { m with exts := mapMetadata (fun _ => md') m.exts }))

/-- `process_remove_key`'s effect on the metadata. -/
def removeKeyRes (key : String) (idempotent : Bool) (md : TokenMetadata) : Res TokenMetadata := do
  require (md.hasKey key || idempotent) (.token .keyNotFound)
  pure (md.removeKey key)

/-! ## Dispatch -/

/-- Run one token-program instruction. `signed` tells which accounts signed. -/
def tokenExec (env : Env) (prog : Pubkey) (ix : TokenIx) (signed : Pubkey → Bool) (L : Ledger) :
    Res Ledger :=
  match env.reject prog ix signed L with
  | some e => .error (.token e)
  | none =>
    match ix with
    | .transfer src dst auth signers amount =>
      transferExec env prog signed L src dst auth signers amount none none
    | .transferChecked src mint dst auth signers amount decimals =>
      transferExec env prog signed L src dst auth signers amount (some (mint, decimals)) none
    | .transferCheckedWithFee src mint dst auth signers amount decimals fee =>
      transferExec env prog signed L src dst auth signers amount (some (mint, decimals)) (some fee)
    | .mintTo mint dst auth signers amount => mintToExec prog signed L mint dst auth signers amount
    | .burn acct mint auth signers amount => burnExec prog signed L acct mint auth signers amount
    | .closeAccount acct dst auth signers => closeAccountExec prog signed L acct dst auth signers
    | .approve src delegate auth signers amount =>
      approveExec prog signed L src delegate auth signers amount
    | .revoke src auth signers => revokeExec prog signed L src auth signers
    | .setAuthority acct kind new auth signers =>
      setAuthorityExec prog signed L acct kind new auth signers
    | .freezeAccount acct mint auth signers freeze =>
      freezeExec prog signed L acct mint auth signers freeze
    | .initMintExt mint ext => initMintExtExec prog L mint ext
    | .initializeMint2 mint ma fa dec => initializeMint2Exec env prog L mint ma fa dec
    | .initializeAccount3 acct mint owner extra =>
      initializeAccount3Exec env prog L acct mint owner extra
    | .initializeMultisig acct signers m => initializeMultisigExec prog L acct signers m
    | .addAcctExt acct auth signers ext => addAcctExtExec prog signed L acct auth signers ext
    | .syncNative acct => syncNativeExec prog L acct
    | .setTransferFee mint auth signers bps maxFee =>
      setTransferFeeExec env prog signed L mint auth signers bps maxFee
    | .withdrawWithheld mint src dst auth signers =>
      withdrawWithheldExec prog signed L mint src dst auth signers
    | .harvestWithheld mint src => harvestWithheldExec prog L mint src
    | .withdrawWithheldFromMint mint dst auth signers =>
      withdrawWithheldFromMintExec prog signed L mint dst auth signers
    | .updateMintExt mint auth signers ext =>
      updateMintExtExec prog signed L mint auth signers ext
    | .withdrawExcessLamports src dst auth signers =>
      withdrawExcessLamportsExec env prog signed L src dst auth signers
    | .unwrapLamports src dst auth signers amount =>
      unwrapLamportsExec prog signed L src dst auth signers amount
    | .updateMetadataPointer mint auth signers address =>
      updateMetadataPointerExec prog signed L mint auth signers address
    | .confidentialDeposit acct mint auth signers amount =>
      confidentialExec prog signed L acct mint auth signers amount true
    | .confidentialWithdraw acct mint auth signers amount =>
      confidentialExec prog signed L acct mint auth signers amount false
    | .confidentialTransfer src mint dst auth signers amount =>
      confidentialTransferExec prog signed L src mint dst auth signers amount
    | .initializeMetadata mint ua ma name symbol uri =>
      initializeMetadataExec prog signed L mint ua ma name symbol uri
    | .updateField mint ua field value =>
      metadataUpdateExec prog signed L mint ua (fun md => .ok (md.update field value))
    | .removeKey mint ua key idempotent =>
      metadataUpdateExec prog signed L mint ua (removeKeyRes key idempotent)
    | .updateMetadataAuthority mint ua new =>
      metadataUpdateExec prog signed L mint ua (fun md => .ok { md with updateAuthority := new })

end TokenWrap
