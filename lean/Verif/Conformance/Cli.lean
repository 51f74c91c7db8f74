import Verif.Conformance.SyncSpl
import Verif.CliCommands
/-!
# The CLI's tests, /repo/clients/cli/tests, on the model

Every trial of /repo/clients/cli/tests/test.rs as an `example` evaluated by the kernel: the ledger the
test prepares, the command, the transaction executed on that ledger, and what the test asserts.
-/

namespace TokenWrap.Conf.Cli

/-! ## /repo/clients/cli/tests/common/helpers.rs -/

def payer : Pubkey := uniq 6
def paySigner : CliSigner := ⟨payer, true⟩
def u : Pubkey := uniq 1

/-- `create_unwrapped_mint`: helpers.rs:90-130. -/
def unwrappedMint (exts : List MintExt) : Mint :=
  M.mint { authority := some payer, supply := 0, decimals := 9, exts := exts }

/-- The chain with the payer's account, the unwrapped mint and further accounts. -/
def start (prog : Pubkey) (exts : List MintExt) (more : List (Pubkey × Account)) : Ledger :=
  ledgerOf ([(payer, ⟨500000000000, systemId, .bytes []⟩),
    (u, ⟨1461600, prog, .mint (unwrappedMint exts)⟩)] ++ more)

/-- The cluster accepts the transaction if every required signature is there, and executes it. -/
def send (tx : CliTx) (L : Ledger) : Option Ledger :=
  if (requiredSigners tx.payer tx.instructions).all tx.hasSignature then
    match runClient env tx.instructions L with
    | .ok L' => some L'
    | .error _ => none
  else none

/-- A command: build on the ledger, send to the same ledger. -/
def command (build : Ledger → Except ClientErr CliTx) (L : Ledger) : Option Ledger :=
  match build L with
  | .ok tx => send tx L
  | .error _ => none

/-- `execute_create_mint`: helpers.rs:180-200. -/
def createMint (wprog : Pubkey) (L : Ledger) : Option Ledger :=
  match cliCreateMint env payer u wprog true L with
  | .ok ixs => send ⟨payer, ixs, [paySigner]⟩ L
  | .error _ => none

/-- `create_associated_token_account`: helpers.rs:202-237. -/
def createAta (wallet mint prog : Pubkey) (L : Ledger) : Option Ledger :=
  send ⟨payer, [.createAta payer wallet mint prog], [paySigner]⟩ L

/-- `create_token_account`: helpers.rs:239-278 (165 bytes, `InitializeAccount`). -/
def createToken (k prog mint owner : Pubkey) (L : Ledger) : Option Ledger :=
  match initializeAccount3Exec env prog
      (L.set k ⟨env.rentMin 165, prog, .bytes (List.replicate 165 0)⟩) k mint owner [] with
  | .ok L' => some L'
  | .error _ => none

/-- `mint_to`: helpers.rs:280-307. -/
def mintTo (k prog mint : Pubkey) (n : Nat) (L : Ledger) : Option Ledger :=
  match tokenExec env prog (.mintTo mint k payer [] n) (fun x => x = payer) L with
  | .ok L' => some L'
  | .error _ => none

/-- `create_test_multisig`: helpers.rs:309-347, two of three. -/
def ms (prog : Pubkey) : List (Pubkey × Account) := [(msKey, msAccount prog)]
def member1 : CliSigner := ⟨uniq 81, true⟩
def member2 : CliSigner := ⟨uniq 82, true⟩
def absent (s : CliSigner) : CliSigner := { s with real := false }

/-- Keys with a signature in a sign-only transaction (`extract_signers`: helpers.rs:349-364). -/
def signedBy (r : Except ClientErr CliTx) : List Pubkey :=
  match r with
  | .ok tx => (requiredSigners tx.payer tx.instructions).filter tx.hasSignature
  | .error _ => []

def fails {α : Type} (r : Except ClientErr α) (e : ClientErr) : Bool :=
  match r with | .ok _ => false | .error e' => e' = e

def gives (r : Option Ledger) (p : Ledger → Bool) : Bool :=
  match r with | some L => p L | none => false

def W : Pubkey := wrappedOf u token2022Id
def A : Pubkey := authOf W
def E : Pubkey := escrowOf u splTokenId token2022Id
def rcp : Pubkey := (associatedTokenAddress crypto payer W token2022Id).getD default
def src : Pubkey := uniq 2

/-! ## test_wrap.rs -/

/-- Common preparation: the wrapped mint, 100 tokens owned by `owner`, the escrow. -/
def wrapSetup (owner : Pubkey) (n : Nat) (more : List (Pubkey × Account)) : Option Ledger :=
  createMint token2022Id (start splTokenId [] more) >>= createToken src splTokenId u owner >>=
    mintTo src splTokenId u n >>= createAta A u splTokenId

def wrapResult (dst : Pubkey) (L : Ledger) : Bool :=
  amountAt L src = some 50 && amountAt L E = some 50 && (L dst).owner = token2022Id &&
    amountAt L dst = some 50

def wrapArgs : CliWrapArgs :=
  { payer := paySigner, unwrappedTokenAccount := src, wrappedTokenProgram := token2022Id, amount := 50 }

-- test_wrap_single_signer_with_defaults
example : gives (wrapSetup payer 100 [] >>= createAta payer W token2022Id >>=
    command (cliWrap env wrapArgs)) (wrapResult rcp) = true := by decide +kernel

-- test_wrap_single_signer_with_optional_flags
example : gives (wrapSetup (uniq 7) 100 [] >>= createToken (uniq 3) token2022Id W payer >>=
    command (cliWrap env { wrapArgs with
      unwrappedTokenProgram := some splTokenId, unwrappedMint := some u, recipient := some (uniq 3)
      transferAuthority := some ⟨uniq 7, true⟩ })) (wrapResult (uniq 3)) = true := by decide +kernel

def msWrapArgs : CliWrapArgs :=
  { wrapArgs with recipient := some rcp, transferAuthority := some ⟨msKey, false⟩ }
def msWrapSetup : Option Ledger :=
  wrapSetup msKey 100 (ms splTokenId) >>= createAta payer W token2022Id

-- test_wrap_with_multisig: signer 1, signer 2 (one signature each), then the broadcaster
example : gives msWrapSetup (fun L =>
    signedBy (cliWrap env { msWrapArgs with payer := absent paySigner
                                            multisig := [member1, absent member2] } L)
      = [member1.key] &&
    signedBy (cliWrap env { msWrapArgs with payer := absent paySigner
                                            multisig := [absent member1, member2] } L)
      = [member2.key]) = true := by decide +kernel
example : gives (msWrapSetup >>= command (cliWrap env
    { msWrapArgs with multisig := [absent member1, absent member2], presigners := [member1, member2] }))
    (wrapResult rcp) = true := by decide +kernel
-- without the collected signatures the cluster refuses it
example : (msWrapSetup >>= command (cliWrap env
    { msWrapArgs with multisig := [absent member1, absent member2], presigners := [member1] })).isNone
    = true := by decide +kernel

/-! ## test_unwrap.rs -/

def wacct : Pubkey := uniq 3
def out : Pubkey := uniq 4

/-- `setup_for_unwrap`: test_unwrap.rs:34-112. -/
def unwrapSetup (initial : Nat) (wrapped : UInt64) (owner : Pubkey)
    (more : List (Pubkey × Account)) : Option Ledger :=
  wrapSetup payer initial more >>= createToken wacct token2022Id W owner >>=
    command (cliWrap env { wrapArgs with amount := wrapped, recipient := some wacct }) >>=
    createToken out splTokenId u payer

def unwrapArgs : CliUnwrapArgs :=
  { payer := paySigner, wrappedTokenAccount := wacct, recipient := out, amount := 50 }

def unwrapResult (start n : Nat) (L : Ledger) : Bool :=
  amountAt L wacct = some (start - n) && amountAt L out = some n && amountAt L E = some (start - n)

-- test_unwrap_single_signer_with_defaults
example : gives (unwrapSetup 200 100 payer [] >>= command (cliUnwrap env unwrapArgs))
    (unwrapResult 100 50) = true := by decide +kernel
-- test_unwrap_single_signer_with_optional_flags
example : gives (unwrapSetup 300 150 (uniq 7) [] >>= command (cliUnwrap env
    { unwrapArgs with amount := 75, unwrappedMint := some u, wrappedTokenProgram := some token2022Id
                      unwrappedTokenProgram := some splTokenId
                      transferAuthority := some ⟨uniq 7, true⟩ }))
    (unwrapResult 150 75) = true := by decide +kernel
-- test_unwrap_fail_invalid_wrapped_token_program
example : gives (unwrapSetup 200 100 payer []) (fun L => fails (cliUnwrap env
    { unwrapArgs with wrappedTokenProgram := some splTokenId } L) .argumentMismatch) = true := by
  decide +kernel
-- test_unwrap_fail_mismatched_unwrapped_mint
example : gives (unwrapSetup 200 100 payer
    [(uniq 9, ⟨1461600, splTokenId, .mint (unwrappedMint [])⟩)]) (fun L => fails (cliUnwrap env
    { unwrapArgs with unwrappedMint := some (uniq 9) } L) .argumentMismatch) = true := by
  decide +kernel
-- test_unwrap_fail_invalid_unwrapped_token_program
example : gives (unwrapSetup 200 100 payer []) (fun L => fails (cliUnwrap env
    { unwrapArgs with unwrappedTokenProgram := some token2022Id } L) .argumentMismatch) = true := by
  decide +kernel

def msUnwrapArgs : CliUnwrapArgs := { unwrapArgs with transferAuthority := some ⟨msKey, false⟩ }

-- test_unwrap_with_multisig
example : gives (unwrapSetup 200 100 msKey (ms token2022Id)) (fun L =>
    signedBy (cliUnwrap env { msUnwrapArgs with payer := absent paySigner
                                                multisig := [member1, absent member2] } L)
      = [member1.key] &&
    signedBy (cliUnwrap env { msUnwrapArgs with payer := absent paySigner
                                                multisig := [absent member1, member2] } L)
      = [member2.key]) = true := by decide +kernel
example : gives (unwrapSetup 200 100 msKey (ms token2022Id) >>= command (cliUnwrap env
    { msUnwrapArgs with multisig := [absent member1, absent member2]
                        presigners := [member1, member2] }))
    (unwrapResult 100 50) = true := by decide +kernel

/-! ## test_create_mint.rs, test_confidential_transfers.rs, test_pdas.rs -/

-- test_create_mint
example : gives (createMint token2022Id (start splTokenId [] [])) (fun L =>
    (L W).owner = token2022Id && (L (backOf W)).owner = crateId &&
    (L (backOf W)).data = .bytes u.bytes &&
    match mintAt L W with
    | some m => m.decimals = 9 && m.exts.length = 2 &&
        m.exts.any (fun e => match e with | .confidentialTransferMint .. => true | _ => false) &&
        m.metadataPointer? = some (some A, some W)
    | none => false) = true := by decide +kernel
-- test_confidential_transfer_with_wrap_and_deposit
example : gives (createMint token2022Id (start token2022Id [] [])) (fun L =>
    match mintAt L W with
    | some m => m.exts.contains (.confidentialTransferMint none true none)
    | none => false) = true := by decide +kernel
-- test_pdas
example : cliFindPdas env u splTokenId (start token2022Id [] []) =
    .ok ⟨wrappedOf u splTokenId, authOf (wrappedOf u splTokenId), backOf (wrappedOf u splTokenId),
      escrowOf u token2022Id splTokenId⟩ := by decide +kernel

/-! ## test_create_escrow_account.rs -/

/-- `create-escrow-account`: the ledger afterwards. -/
def createEscrow (wprog : Pubkey) (idem : Bool) (L : Ledger) : Option Ledger :=
  match cliCreateEscrow env paySigner u wprog idem L with
  | .ok (some tx) => send tx L
  | .ok none => some L
  | .error _ => none

/-- `assert_escrow_creation`: test_create_escrow_account.rs:21-58. -/
def escrowCreated (e owner prog : Pubkey) (L : Ledger) : Bool :=
  (L e).owner = prog &&
    match (L e).data with
    | .token t => t.mint = u && t.owner = owner && t.amount = 0
    | _ => false

-- test_create_ata_escrow_account_for_spl_token_mint, test_create_escrow_account_with_signer
example : gives (createEscrow token2022Id false (start splTokenId [] []))
    (escrowCreated E A splTokenId) = true := by decide +kernel
-- test_create_ata_escrow_account_for_token2022_mint
example : gives (createEscrow splTokenId false (start token2022Id [] []))
    (escrowCreated (escrowOf u token2022Id splTokenId) (authOf (wrappedOf u splTokenId)) token2022Id)
    = true := by decide +kernel
-- test_create_escrow_account_signer_idempotent, test_create_escrow_account_ata_idempotent
example : gives (createEscrow token2022Id true (start splTokenId [] []) >>=
    createEscrow token2022Id true) (fun L =>
      escrowCreated E A splTokenId L &&
      fails (cliCreateEscrow env paySigner u token2022Id false L) .alreadyExists) = true := by
  decide +kernel
-- test_create_escrow_account_with_wrong_mint_owner
example : fails (cliCreateEscrow env paySigner (uniq 9) token2022Id false (start splTokenId []
    [(uniq 9, ⟨1586880, uniq 40, .bytes (List.replicate 100 0)⟩)])) .wrongOwner = true := by
  decide +kernel
-- test_create_escrow_account_with_wrong_account_type
example : fails (cliCreateEscrow env paySigner (uniq 9) token2022Id false (start splTokenId []
    [(uniq 9, ⟨1586880, token2022Id, .bytes (List.replicate 100 0)⟩)])) .notAMint = true := by
  decide +kernel

/-! ## test_close_stuck_escrow.rs -/

-- test_only_token_2022_allowed
example : fails (cliCloseStuckEscrow env paySigner u payer token2022Id (start splTokenId [] []))
    .wrongOwner = true := by decide +kernel

def closeCmd : Ledger → Option Ledger :=
  command (cliCloseStuckEscrow env paySigner u payer token2022Id)

-- test_create_mint_close_stuck_escrow_fails
example : (createMint token2022Id (start token2022Id [] []) >>= createAta A u token2022Id >>=
    closeCmd).isNone = true := by decide +kernel
example : gives (createMint token2022Id (start token2022Id [] []) >>= createAta A u token2022Id)
    (fun L => match cliCloseStuckEscrow env paySigner u payer token2022Id L with
      | .ok tx => errW (runClient env tx.instructions L) .escrowInGoodState
      | .error _ => false) = true := by decide +kernel

def asOpt (r : Res Ledger) : Option Ledger := match r with | .ok L => some L | .error _ => none

/-- Steps 4 and 5 of `test_successful_close`: close the unwrapped mint and create it again with a
transfer fee. -/
def recreate (L : Ledger) : Option Ledger :=
  asOpt (do
    let L ← tokenExec env token2022Id (.closeAccount u payer payer []) (fun k => k = payer) L
    let L ← sysAllocate (fun k => k = u) u (mintAccountLen [108]) L
    let L ← sysAssign (fun k => k = u) u token2022Id L
    let L ← moveLamports L payer u (env.rentMin (mintAccountLen [108]))
    let L ← tokenExec env token2022Id (.initMintExt u (.transferFeeConfig
      ⟨some payer, some payer, 0, ⟨0, 1000, 100⟩, ⟨0, 1000, 100⟩⟩)) (fun _ => false) L
    tokenExec env token2022Id (.initializeMint2 u payer none 0) (fun _ => false) L)

-- test_successful_close
example : gives (createMint token2022Id
      (start token2022Id [.mintCloseAuthority (some payer)] []) >>= createAta A u token2022Id >>=
    recreate >>= closeCmd)
    (fun L => (L (escrowOf u token2022Id token2022Id)).lamports = 0) = true := by decide +kernel

/-! ## test_sync_metadata_to_token2022.rs -/

/-- The funding transfer of the tests: one SOL. -/
def fund (dst : Pubkey) (L : Ledger) : Option Ledger :=
  send ⟨payer, [.transfer payer dst 1000000000], [paySigner]⟩ L

def mdOf (name symbol uri : String) : MetaplexMetadata := mpl0 u name symbol uri

/-- The wrapped mint's metadata, as the tests compare it. -/
def synced (name symbol uri : String) (L : Ledger) : Bool :=
  match (mintAt L W).bind (·.tokenMetadata?) with
  | some md => sameText md.name name && sameText md.symbol symbol && sameText md.uri uri && md.mint = W
  | none => false

def sync22Cmd (source : Option Pubkey) : Ledger → Option Ledger :=
  command (cliSync22 env paySigner u source none)

-- test_sync_metadata_from_spl_token_to_token2022
example : gives (createMint token2022Id (start splTokenId []
      [(mplOf u, mplAcct (mdOf "Test Token" "TEST" "http://test.com"))]) >>= fund W >>=
    sync22Cmd none) (synced "Test Token" "TEST" "http://test.com") = true := by decide +kernel

def payerMd (mint : Pubkey) : MintExt :=
  .tokenMetadata ⟨some payer, mint, "xyz-dex", "XYZ", "http://test.com", []⟩

-- test_sync_from_token2022_with_self_referential_pointer
example : gives (createMint token2022Id (start token2022Id
      [.metadataPointer (some payer) (some u), payerMd u] []) >>= fund W >>= sync22Cmd none)
    (synced "xyz-dex" "XYZ" "http://test.com") = true := by decide +kernel
-- test_sync_from_token2022_with_external_metaplex_pointer
example : gives (createMint token2022Id (start token2022Id
      [.metadataPointer (some payer) (some (mplOf (uniq 9)))]
      [(mplOf (uniq 9), mplAcct (mpl0 (uniq 9) "External Metaplex" "EXTM" "http://external.com"))])
    >>= fund W >>= sync22Cmd (some (mplOf (uniq 9))))
    (synced "External Metaplex" "EXTM" "http://external.com") = true := by decide +kernel
-- test_sync_from_token2022_without_pointer_fallback
example : gives (createMint token2022Id (start token2022Id []
      [(mplOf u, mplAcct (mdOf "No Pointer Fallback" "NPF" "http://npf.com"))]) >>= fund W >>=
    sync22Cmd none) (synced "No Pointer Fallback" "NPF" "http://npf.com") = true := by decide +kernel
-- test_fail_sync_from_invalid_mint_owner
example : fails (cliSync22 env paySigner (uniq 9) none none (start splTokenId []
    [(uniq 9, ⟨890880, systemId, .bytes []⟩)])) .wrongOwner = true := by decide +kernel

/-! ## test_sync_metadata_to_spl_token.rs -/

def WS : Pubkey := wrappedOf u splTokenId

/-- The Metaplex account of the wrapped mint. -/
def syncedSpl (name symbol uri : String) (L : Ledger) : Bool :=
  match (L (mplOf WS)).data with
  | .metaplex md => sameText md.name name && sameText md.symbol symbol && sameText md.uri uri &&
      md.updateAuthority = authOf WS
  | _ => false

def syncSplCmd (source : Option Pubkey) : Ledger → Option Ledger :=
  command (fun _ => cliSyncSpl env paySigner u source none)

-- test_sync_metadata_from_token2022_to_spl_token
example : gives (createMint splTokenId (start token2022Id
      [.metadataPointer (some payer) (some u), payerMd u] []) >>= fund (authOf WS) >>= syncSplCmd none)
    (syncedSpl "xyz-dex" "XYZ" "http://test.com") = true := by decide +kernel
-- test_sync_metadata_from_spl_token_to_spl_token
example : gives (createMint splTokenId (start splTokenId []
      [(mplOf u, mplAcct (mdOf "Unwrapped SPL" "USPL" "http://uspl.com"))]) >>= fund (authOf WS) >>=
    syncSplCmd (some (mplOf u))) (syncedSpl "Unwrapped SPL" "USPL" "http://uspl.com") = true := by
  decide +kernel

end TokenWrap.Conf.Cli
