# Formal model of solana-program/token-wrap (Lean 4)

## 1. Approach

The program is modelled function by function as total, executable Lean functions over a *ledger*
(`Pubkey → Account`, an account being lamports, owner program and typed contents).  An instruction
takes the raw account list (`List Meta`, with signer/writable flags; aliasing, missing, extra and
wrong accounts are all allowed), the raw data bytes and the ledger, and returns
`Except Err Ledger`.  CPIs go through a model of `invoke`/`invoke_signed` (privilege checks, RefCell
borrow conflicts, PDA signatures computed by a concrete `create_program_address`) into executable
models of the token, system, ATA and Metaplex programs.  Everything outside the program that we do not want to fix
(hash function, rent, epoch, further rejections by callees, `HashMap` order, JSON printing, third-party
metadata programs) is a field of `Env`, and theorems quantify over `Env`.

Histories (`World.lean`) are an inductive relation: any finite sequence of instructions, of Token Wrap
or of any other program, with any accounts, by anybody who can sign for what is signed.

Claims live in `lean/Verif/Props/*.lean`.  The words they use are defined in `lean/Verif/Spec.lean` or
just before the theorem, and do not mention the processors' helper functions.  Below each claim is an
`example` with concrete accounts, evaluated by the kernel (`decide +kernel`, no compiled code), that meets the
hypotheses.

## 2. Layout

| module | models |
|---|---|
| `Basic` | keys, well-known ids, little-endian integers, errors |
| `Errors` | `program/src/error.rs` |
| `Instruction` | `program/src/instruction.rs`: codec and builders |
| `Pda`, `PdaLemmas` | `program/src/lib.rs`, `create_program_address`, `find_program_address` |
| `Borsh`, `Layout` | bytes: little-endian numbers, UTF-8, Borsh form of token metadata; base states, TLV entries and extensions of mints and token accounts as the program reads them |
| `MplLayout` | bytes of Metaplex metadata accounts: `safe_deserialize` (*environment*), the conversion of `metaplex.rs` on bytes |
| `State` | account contents (mint, token account, multisig, backpointer, pointer, Metaplex), ledger |
| `Token` | spl-token / token-2022: the 30 instructions of `TokenIx` (*environment*) |
| `Runtime` | `invoke`, `invoke_signed`, borrow rules, system program (*environment*) |
| `Ata` | associated-token-account program (*environment*) |
| `Metadata`, `Metaplex` | `program/src/metadata.rs`, `program/src/metaplex.rs`; the two Metaplex instructions called (*environment*) |
| `Serde` | serde_json text and base58 of the three types that are parsed back (*environment instance*) |
| `Customizer` | `program/src/mint_customizer/{interface,no_extensions,default_token_2022,compliance}.rs` |
| `Processor` | `program/src/processor.rs`, `entrypoint.rs`, `state.rs` |
| `Clients`, `CliCommands` | `clients/cli/src/*.rs`: the transactions the commands build |
| `CliRun` | `clients/cli/src/{common,cli,config,output,main}.rs` and the rest of the commands: signing, dry run, sign-only, sending, outputs; signatures and RPC node (*environment*) |
| `CliText` | the text and JSON a command prints: `output.rs`, the `Display` / `Serialize` implementations of the output structs |
| `CliMain` | `main.rs`, `config.rs`, the global flags of `cli.rs`: from flags and configuration files to printed output |
| `CliArgs` | the `*Args` structures, the parsers of `common.rs`, loading of signers: from words to commands |
| `JsClient` | `clients/js/src/*.ts`, `clients/js/src/generated/**` |
| `JsExample` | `clients/js/src/examples/*.ts`, `createTokenAccount` of `utilities.ts`; system CreateAccount (*environment*) |
| `Idl` | `idl.json` as data, meaning of Codama nodes (*environment*) |
| `Message` | compiled transaction messages (*environment*), the two multisig functions of `clients/js/src` |
| `Reported` | `log_error` and the entry point, the code the runtime reports (*environment*), `isTokenWrapError` of the JavaScript client |
| `Custom` | `process_instruction` with any mint customizer, steps and histories of such a build |
| `CustomInv` | the invariant of a pair in such a build (lemmas) |
| `World` | steps and histories |
| `Rent` | the rent rule the runtime applies at the end of a transaction (*environment*) |
| `*Lemmas`, `TokenEffect`, `World{Inv,Token,Steps,Wrap,Mint,Keys}`, `Conserve`, `MintLife`, `Custody`, `Freeze`, `Locality` | proofs only (`Conserve` also defines `Conserved`, `Custody` `Unapproved` and `FreezerIdle`, `Locality` `OnlySees`) |
| `Spec`, `Props/*` | specification vocabulary, claims, examples |
| `Conformance/*` | every test of `program/tests/*.rs` and every trial of `clients/cli/tests` replayed on the model (kernel-evaluated examples) |

## 3. Properties: what is modelled, how it is proved

| id | property | model and method | theorems |
|---|---|---|---|
@@TABLE@@

No property of the list is out of reach of the model; none is partial.  What could not be expressed at
all: compute-unit limits, transaction-size limits, heap use, log output other than the error line, RPC transport.

## 4. Trusted base

**Logic.** Lean 4.33.0's kernel.  The theorems depend on at most the axioms `propext`, `Quot.sound` and
`Classical.choice` (checked by `vcheck`); there are no other axioms, no unfinished proofs, no compiled
evaluation.

**Faithfulness of the model of /repo.** Each definition cites the lines it models; simplifications are
named there.  The correspondence of these definitions to the Rust / TypeScript text is by reading, and
part of the trusted base.  As a check of it, `Conformance/*` runs the repository's own test suite on the
model: each `#[test]` of `program/tests/*.rs` is an `example` with the accounts the test builds and the
outcome (exact error or resulting state) it asserts.  These are tests of the model, not claims.
Things deliberately simplified:

* Ledgers hold typed contents, not bytes.  For mints and token accounts this is justified by C99: the program's
  parsers, run on the bytes, give the same fields, extension lookups and errors.  For Metaplex accounts by C101.  The instruction data, PDA seeds, base58, serde_json text, JS instruction bytes, the program's own state and
  the return data of third-party metadata programs are at byte level.
* `msg!` (except in `log_error`), `sol_log` and compute budget are left out.
* A panic (`unwrap`, failed bump search) is the error `panicked`; both abort the transaction.

**Environment, not in /repo.** The dependencies' sources are not available in the sandbox.  Modelled from
knowledge of them:

* *Runtime*: a CPI may pass on only the privileges of the caller's accounts plus PDAs of the program; callee
  checks happen on the same ledger; an account borrowed by the caller when invoking is an error; an
  instruction that fails aborts the transaction.  An account may change owner only while its data is zero.
* *Token programs*: `TokenIx` covers transfer (all three kinds, with fees), mint, burn, close, approve,
  revoke, set-authority (every kind), freeze/thaw, initialisation of mints, accounts, multisigs, mint
  extensions and account extensions, native SOL sync, transfer-fee configuration / harvest / withdrawal,
  metadata pointer and token metadata, updates of the settings of mint extensions, confidential deposit /
  withdraw / transfer (amounts in clear, `confidential` field), excess-lamport withdrawal, pausable,
  permanent delegate.  `Env.reject` may veto any of them in any
  state: so safety theorems hold for token programs that refuse more, and liveness theorems say so
  explicitly (`hrej`).  `UnwrapLamports` is included; a permissioned burn is a burn that asks for one more signature, hence a
  special case; a batch is a sequence of steps.  Not covered: confidential mint/burn and confidential fees; scaled-UI amounts and interest (no effect on raw amounts), group/member extensions (no
  effect on the modelled fields).
* *Transfer hooks*: the hook program runs inside the transfer CPI.  In Wrap it runs between transfer and
  mint; `processWrapHooked` lets it execute any sequence of other programs' instructions there.  In
  Unwrap the transfer is last, so its effects are later steps.  Hooks cannot re-enter Token Wrap (runtime
  reentrancy rule).
* *Third-party metadata programs* (`emit`): the return data is arbitrary bytes (`Env.emit`), which the program decodes as Borsh (`Borsh.lean`).  What such a program does to its own
  accounts during the call is a separate `other` step of the history.
* *Metaplex*: `CreateMetadataAccountV3` / `UpdateMetadataAccountV2` with padding, cost and further rejection as
  parameters.  `serdeEnv` shows that the round-trip hypothesis on the JSON functions is met by
  serde_json's canonical text.
* *Who can sign* (`CanSign`): key pairs, PDAs of other programs, `create_with_seed` addresses, ATAs
  through `RecoverNested`.  `Reserved` says that no SHA-256 collision is known for the one address under
  observation; it replaces the (false) axiom that hashing is injective.
* *Lamports and rent*: the rent-exempt minimum is positive (`hr`).  Lamports leave an account only if it is a signing
  system account, or by its owner program.  An account without lamports is removed (`gc`).  `Fresh.funds`: at the start
  token accounts and mints hold lamports, wrapped-SOL accounts cover reserve and balance, and the two native
  mints exist without transfer fee and close authority (as on mainnet).

* *Rent rule* (`Rent.lean`, C95-C97): `RentState::transition_allowed` of the Agave runtime, applied to the accounts before and after
  a transaction.  Sizes of accounts follow from their contents: `getAccountLen` for extensions, Borsh length for token metadata,
  679 bytes for Metaplex metadata.  Metaplex leaves the account it creates rent exempt (`hmpl`).  Histories (`World`) do not use
  the rule: they allow every transaction that the programs allow, hence more than the runtime does.

**Clients.** The RPC node is the ledger at the time of the query; the transaction may be executed on another
ledger.  Key files, the layout of printed text, fees and transaction size are left out.  `Wire` stands for any signature
scheme in which a signature made with a key pair verifies and the empty slot does not; unforgeability is not assumed.  JS codecs
(@solana/kit) are trusted; TypeScript types are assumed respected except where a claim says otherwise.

## 5. Findings

Behaviours that a user may not expect.  Each is in the model; those marked *proved* are theorems.

* **F1** (*proved*, C42) The unwrapped mint's permanent delegate can wrap with the escrow itself as source:
  tokens are minted without backing.
* **F2** (compare `createMint_again`) Idempotent CreateMint returns success on any account already owned by the
  token program, without looking at its contents.
* **F3** (*proved*, `cli_source_unset`) The CLI falls back to the Metaplex account when the pointer exists but is
  unset; the program then fails with `MetadataPointerUnset`: the command can never succeed on such a mint.
* **F4** (*proved*, `builders_sync_shift`) The Rust sync builders, given an owner program but no source account, put
  the owner program into the source slot; the CLI does the same with `--owner-program` but no source
  account (`cli_syncSpl_owner_only`).
* **F7** (*proved*, C43) Wrapping a positive amount can mint 0 wrapped tokens (fee of 100%, or rounding up).
* **F8** (*proved*, `unwrap_needs_thawed_escrow`) A frozen escrow blocks unwrapping (`EscrowUsable` is a hypothesis of
  C18).
* **F9** (*proved*, C70 `decimals_can_diverge`) If the unwrapped Token-2022 mint is closed and re-created, its decimals may differ from the wrapped
  mint's (hypothesis of C53).
* **F10** (*proved*, C51) Wrapped tokens in accounts owned by the system program or the incinerator can be
  unwrapped by anyone, because the token programs let anyone burn there.
* **F11** (*proved*, `pointer_succeeds_iff`, `transaction_pointer_authorised`) The members of a token multisig that is the
  mint authority cannot set the canonical pointer: the authority key itself has to sign.
* **F12** (*proved*, `wrap_members_need_multisig`) A Wrap built with multisig signers for an authority that is not a
  multisig fails.
* **F13** (*proved*, `cli_create_escrow_dust`) The CLI treats an escrow address that merely holds lamports as
  an existing escrow.
* **F14** (*proved*, `js_parses_executed`, `js_sync_complete`) The JS sync builders fill omitted optional accounts with the program
  id; the JS parsers reject sync instructions from the Rust builder without optional accounts, and do not
  know SetCanonicalPointer.
* **F15** JS `createTokenAccount` always allocates 165 bytes, so it fails for Token-2022 mints that require account
  extensions (*proved*, `js_token_account_fails`); `singleSigner{Wrap,Unwrap}` given a plain address
  produce an instruction without authority signature, which works only if the address signs the transaction anyway,
  e.g. as fee payer (*proved*, `js_wrap_plain_address`, `js_wrap_plain_address_message`, `js_wrap_plain_payer`); the JS CreateMint
  decoder accepts boolean bytes that the program rejects (*proved*, `js_parse_lenient`).
* **F16** (*proved*, `cli_dry_run_always_succeeds`, `cli_dry_run_blind`) `--dry-run` prints "Simulation succeeded" and ends
  successfully even if the simulation failed: `process_transaction` does not look at `simulation_data.value.err`.
* **F17** (*proved*, `cli_unwrap_sign_only_needs_chain`) `unwrap --sign-only` asks the RPC node even if every argument is given,
  so it cannot be used on an offline machine; `wrap --sign-only` can.
* **F18** (*proved*, `single_signer_example_fails_with_fee`) the published example script unwraps the amount it wrapped, so it fails
  for every mint with a transfer fee on that amount (the credited amount is smaller).
* **F19** (*proved*, `sync22_right_after_create_refused`, `cli_create_then_sync_refused`) create-mint (CLI and JS) funds exactly the rent of the mint without
  metadata and no sync command tops it up, so SyncMetadataToToken2022 right afterwards is refused by the runtime until somebody sends
  lamports to the wrapped mint (the repository's own CLI test has a step "Fund for realloc").
* **F20** (*proved*, `syncSpl_rent_iff`) for the first sync to SPL Token the authority PDA must hold exactly the Metaplex cost or at least
  that plus the minimum of an empty account; amounts in between are refused by the runtime although the instruction succeeds.
* **F21** (*proved*, `json_reads_back`) in JSON output the signature is base58 text for create-mint, create-escrow-account and
  sync-metadata-to-spl-token, but an array of 64 numbers inside a list for the other commands (no `DisplayFromStr` on `Vec<Signature>`).
* **F22** (*proved*, `wrap_accounts_derived`, `wrap_account_errors`) the README says that any unwrapped token account owned by a PDA of the
  program can be used as escrow; the code accepts only the associated token account of the authority PDA.
* **F23** (*proved*, C104) the README says that the freeze authority is preserved in the wrapped token: it is copied once; later changes of
  the unwrapped mint's freeze authority do not reach the wrapped mint, so the two can diverge.
* **F24** (*proved*, `overdrawn_wrap_reports_backpointer`) error numbers of called programs are not told apart from Token Wrap's: wrapping more
  than the balance ends with the token program's code 1, which `isTokenWrapError` accepts and `getTokenWrapErrorMessage` describes as a wrong
  backpointer.  Only the log line is unambiguous.  Codes 9 and 11 are declared but never returned (`unused_codes`).
* **F25** (*proved*, `close_authority_kills_pair`) a warning for forks: CreateMint looks at the backpointer, too, and the backpointer is never closed.
  With a customizer that sets a mint close authority, closing an empty wrapped mint leaves the backpointer, and the pair can never be created again.
* **F26** (*proved*, `js_fetch_by_address_unchecked`, `js_discovery`) the generated `fetchBackpointer(address)` decodes the first 32 bytes of any account without looking at its owner, so a token account is reported as a backpointer to its mint; only the reads by seeds can be trusted (C107).
  And if somebody has sent lamports to the backpointer address of a mint that is not wrapped yet, `fetchMaybeBackpointerFromSeeds` throws instead of reporting that there is none.
* Metaplex: `collection.verified` is copied as it is; `creators = Some([])` comes back as `None`; duplicate keys in the source's additional
  metadata are last-wins.

## 6. Mutation testing

`seeded/LOG.jsonl` has one line per wrong program: the definition edited, the edit, the claim it breaks, the
theorems that no longer prove, and what was tightened.  The mutants are applied to a scratch copy; the
harness rebuilds and reports which claim theorems fail.
