# Formal model of solana-program/token-wrap (Lean 4)

## 1. Approach

The program is modelled function by function as total, executable Lean functions over a *ledger*
(`Pubkey → Account`, an account being lamports, owner program and typed contents).  An instruction
takes the raw account list (`List Meta`, with signer/writable flags; aliasing, missing, extra and
wrong accounts are all allowed), the raw data bytes and the ledger, and returns
`Except Err Ledger`.  CPIs go through a model of `invoke`/`invoke_signed` (privilege checks, RefCell
borrow conflicts, PDA signatures computed by a concrete `create_program_address`) into executable
models of the token, system, ATA and Metaplex programs.  Everything outside the program that we do not want to fix
(hash function, rent, epoch, further rejections by callees, `HashMap` order, JSON printing, third-party
metadata programs) is a field of `Env`, and theorems quantify over `Env`.

Histories (`World.lean`) are an inductive relation: any finite sequence of instructions, of Token Wrap
or of any other program, with any accounts, by anybody who can sign for what is signed.

Claims live in `lean/Verif/Props/*.lean`.  The words they use are defined in `lean/Verif/Spec.lean` or
just before the theorem, and do not mention the processors' helper functions.  Below each claim is an
`example` with concrete accounts, evaluated by the kernel (`decide +kernel`, no compiled code), that meets the
hypotheses.

## 2. Layout

| module | models |
|---|---|
| `Basic` | keys, well-known ids, little-endian integers, errors |
| `Errors` | `program/src/error.rs` |
| `Instruction` | `program/src/instruction.rs`: codec and builders |
| `Pda`, `PdaLemmas` | `program/src/lib.rs`, `create_program_address`, `find_program_address` |
| `Borsh`, `Layout` | bytes: little-endian numbers, UTF-8, Borsh form of token metadata; base states, TLV entries and extensions of mints and token accounts as the program reads them |
| `MplLayout` | bytes of Metaplex metadata accounts: `safe_deserialize` (*environment*), the conversion of `metaplex.rs` on bytes |
| `State` | account contents (mint, token account, multisig, backpointer, pointer, Metaplex), ledger |
| `Token` | spl-token / token-2022: the 30 instructions of `TokenIx` (*environment*) |
| `Runtime` | `invoke`, `invoke_signed`, borrow rules, system program (*environment*) |
| `Ata` | associated-token-account program (*environment*) |
| `Metadata`, `Metaplex` | `program/src/metadata.rs`, `program/src/metaplex.rs`; the two Metaplex instructions called (*environment*) |
| `Serde` | serde_json text and base58 of the three types that are parsed back (*environment instance*) |
| `Customizer` | `program/src/mint_customizer/{interface,no_extensions,default_token_2022,compliance}.rs` |
| `Processor` | `program/src/processor.rs`, `entrypoint.rs`, `state.rs` |
| `Clients`, `CliCommands` | `clients/cli/src/*.rs`: the transactions the commands build |
| `CliRun` | `clients/cli/src/{common,cli,config,output,main}.rs` and the rest of the commands: signing, dry run, sign-only, sending, outputs; signatures and RPC node (*environment*) |
| `CliText` | the text and JSON a command prints: `output.rs`, the `Display` / `Serialize` implementations of the output structs |
| `CliMain` | `main.rs`, `config.rs`, the global flags of `cli.rs`: from flags and configuration files to printed output |
| `CliArgs` | the `*Args` structures, the parsers of `common.rs`, loading of signers: from words to commands |
| `JsClient` | `clients/js/src/*.ts`, `clients/js/src/generated/**` |
| `JsExample` | `clients/js/src/examples/*.ts`, `createTokenAccount` of `utilities.ts`; system CreateAccount (*environment*) |
| `Idl` | `idl.json` as data, meaning of Codama nodes (*environment*) |
| `Message` | compiled transaction messages (*environment*), the two multisig functions of `clients/js/src` |
| `Reported` | `log_error` and the entry point, the code the runtime reports (*environment*), `isTokenWrapError` of the JavaScript client |
| `Custom` | `process_instruction` with any mint customizer, steps and histories of such a build |
| `CustomInv` | the invariant of a pair in such a build (lemmas) |
| `World` | steps and histories |
| `Rent` | the rent rule the runtime applies at the end of a transaction (*environment*) |
| `*Lemmas`, `TokenEffect`, `World{Inv,Token,Steps,Wrap,Mint,Keys}`, `Conserve`, `MintLife`, `Custody`, `Freeze`, `Locality` | proofs only (`Conserve` also defines `Conserved`, `Custody` `Unapproved` and `FreezerIdle`, `Locality` `OnlySees`) |
| `Spec`, `Props/*` | specification vocabulary, claims, examples |
| `Conformance/*` | every test of `program/tests/*.rs` and every trial of `clients/cli/tests` replayed on the model (kernel-evaluated examples) |

## 3. Properties: what is modelled, how it is proved

| id | property | model and method | theorems |
|---|---|---|---|
| C01 | Instruction encoding round-trips | byte-level `pack`/`unpack` of every instruction; case analysis, little-endian lemma for 8 bytes | `unpack_pack`, `pack_injective` |
| C02 | Instruction encoding is canonical and strict | `unpack` succeeds exactly on the packed forms: inversion of the decoder over all byte strings | `unpack_eq_ok_iff`, `unpack_rejects`, `pack_length`, `wire_format` |
| C03 | Error codes are a stable bijection | finite enum for the codes, statement over all `u32` for the decoder | `error_code_is_position`, `tryFrom_eq_ok_iff`, `tryFrom_unknown`, `toErr_injective`, `toStr_injective` |
| C04 | Program-derived addresses never share a preimage | concrete seed layouts and hash preimages; hash abstract; list-append injectivity | `pda_preimage_injective`, `pda_address_injective`, `pda_off_curve` |
| C05 | The program can sign for exactly the address it validated | `find_program_address` bump search by recursion; the seeds handed to `invoke_signed` re-derive the validated key | `wrappedMint_signer_seeds`, `authority_signer_seeds`, `backpointer_signer_seeds`, `canonicalPointer_signer_seeds` |
| C06 | Instruction builders and processors agree on accounts | builder output fed to the processors' own parsers, all keys symbolic | `builders_roles`, `builders_roles_sync`, `builders_sync_shift`, `builders_privileges` |
| C07 | Zero amounts are rejected | first check of both processors, for every account list and ledger | `wrap_zero_rejected`, `unwrap_zero_rejected` |
| C08 | Wrap credits exactly what the escrow received | inversion of the success path of `processWrap`: escrow delta = minted amount, whatever the fee | `wrap_credits_exactly_what_escrow_receives` |
| C09 | Wrap only succeeds on the derived accounts | inversion: success forces the derived keys; separately the exact error for each wrong one | `wrap_accounts_derived`, `wrap_account_errors` |
| C10 | Wrap requires the token holder's authorisation | inversion down to the token program's authority check (owner / delegate within allowance / multisig) | `wrap_authorised` |
| C11 | Unwrap burns and pays one-for-one | inversion of `processUnwrap` | `unwrap_pays_one_for_one` |
| C12 | Unwrap only succeeds on the derived accounts | as C09 | `unwrap_accounts_derived`, `unwrap_account_errors` |
| C13 | Unwrap requires the wrapped-token holder's authorisation | as C10 | `unwrap_authorised` |
| C14 | Wrap and Unwrap touch nothing else | inversion with a frame: every other account is equal before and after | `wrap_frame`, `unwrap_frame` |
| C15 | Full backing in every history | invariant `Inv` by induction over `History` (any interleaving of any programs, hook re-entrancy inside Wrap) | `always_backed`, `always_backed_stable`, `always_backed_plain` |
| C16 | Escrow surplus never decreases | two-state version of the invariant, transitive closure | `surplus_never_decreases`, `surplus_monotone` |
| C17 | Every holder's claim is covered at once | invariant that supply bounds the sum over any duplicate-free list of holders | `claims_within_supply`, `all_claims_covered` |
| C18 | Wrapped tokens are always redeemable | forward evaluation of the processor from the invariant (liveness) | `always_redeemable`, `always_redeemable_plain` |
| C19 | Wrap then Unwrap returns the tokens | two inversions/evaluations composed; fee-free mint | `wrap_unwrap_round_trip` |
| C20 | Fee computation is exact and bounded | arithmetic spec (`IsFee`: least f with f·10000 ≥ amount·bps, capped) against the checked code | `calculateFee_isFee`, `isFee_unique`, `fee_total_and_bounded`, `epochFee_eq`, `feeOf_isMintFee` |
| C21 | CreateMint produces the promised mint and backpointer | inversion of `processCreateMint` for every customizer | `createMint_creates` |
| C22 | CreateMint never overwrites | as C21 | `createMint_never_overwrites` |
| C23 | CreateMint is idempotent exactly on request | case analysis of the initialised branch | `createMint_again` |
| C24 | CreateMint validates addresses and owner | inversion and exact errors | `createMint_validates`, `createMint_errors` |
| C25 | Backpointer integrity in every history | history invariant on the backpointer | `backpointer_integrity` |
| C26 | Wrapped mint parameters are permanent | history invariant on the wrapped mint | `mint_parameters_permanent`, `mint_parameters` |
| C27 | Supply grows only through Wrap | per-step theorem inside any history | `supply_grows_only_by_wrap`, `supply_growth_is_escrowed` |
| C28 | Escrow shrinks only through Unwrap | per-step theorem inside any history | `escrow_shrinks_only_by_unwrap` |
| C29 | Different wrapped mints are isolated | per-step frame of a wrap/unwrap of another pair, by PDA injectivity | `pairs_isolated`, `pairs_isolated_escrow` |
| C30 | CloseStuckEscrow closes only a stuck, empty escrow | inversion and exact errors | `close_only_stuck`, `close_errors` |
| C31 | Good-state test is set equality | list/set lemma about the extension comparison used by the code | `close_goodState_iff`, `fresh_ata_goodState`, `goodState_iff` |
| C32 | A stuck escrow can always be repaired | forward evaluation: close, then the ATA program, then the good-state test | `close_succeeds`, `stuck_escrow_repaired` |
| C33 | Only the mint authority sets the canonical pointer | inversion, exact errors, and forward evaluation | `pointer_set_by_mint_authority`, `pointer_errors`, `pointer_succeeds` |
| C34 | Canonical pointer holds the last authorised write | history induction with the trace | `pointer_holds_last_write`, `pointer_changes_only_by_authority` |
| C35 | Metadata sync to Token-2022 equals the source | list-of-pairs refined to finite maps, for every `HashMap` iteration order | `sync22_equals_source`, `sync22_succeeds`, `sync22_equals_source_always` |
| C36 | Metadata sync cannot change anything else | frame theorem | `sync22_changes_only_metadata` |
| C37 | Metadata sync is idempotent | the second sync computes the metadata it finds (`syncedMd_stable`), so every update is a no-op: `sync22_settled` composed with C35 | `sync22_settled`, `sync22_settled_always`, `sync22_idempotent`, `sync22_repeat`, `extract_unaffected` |
| C38 | Metadata source follows the pointer and cannot be spoofed | soundness, completeness, uniqueness and errors of source resolution | `source_sound`, `source_complete`, `source_unique`, `source_errors` |
| C39 | Metaplex sync writes exactly the converted data | inversion and forward evaluation incl. the Metaplex calls | `syncSpl_writes`, `syncSpl_succeeds` |
| C40 | Conversion never produces a verified creator | structural; round trip also with a concrete model of serde_json and base58 | `toToken2022_keeps`, `toMetaplex_unverified`, `metaplex_round_trip`, `metaplex_round_trip_serde`, `parseU16_decString` |
| C41 | Malformed conversion fields are rejected | iff-characterisation of the parsers | `conversion_ok_iff`, `conversion_rejects`, `syncSpl_rejects_malformed`, `conversion_fee`, `conversion_bad_fee` |
| C42 | Permanent delegates void the backing guarantee (negative) | concrete history, evaluated by the kernel (a *negative* result: the claim is existential) | `permanent_delegate_breaks_backing`, `permanent_delegate_history` |
| C43 | A positive Wrap may mint zero (boundary) | iff over all amounts and fee configurations | `wrap_mints_zero_iff` |
| C44 | Permissionless instructions need no signature | invariance of the result under dropping signer flags | `permissionless` |
| C45 | Atomic failure | transaction wrapper + failing after a successful CPI leaves the ledger unchanged | `transaction_atomic`, `wrap_never_half_done`, `unwrap_never_half_done` |
| C46 | No arithmetic overflow in any history | history invariant | `amounts_fit` |
| C47 | Only the matching PDA ever signs | independence: replacing every token / Metaplex callee on other accounts cannot matter; the PDA signed with is the validated one | `only_matching_pda_signs` |
| C48 | CLI funding satisfies the program's rent checks | arithmetic of the client funding code, executed on the ledger, then fed to the processor | `js_createMint_eq_cli`, `createMint_funding_exact`, `createMint_transaction_succeeds` |
| C49 | Customizers set what they promise | every customizer evaluated; space equals the final mint size | `customizer_mints`, `customizer_space`, `createMint_succeeds` |
| C50 | Address helpers agree | equality of two address helper computations | `escrowAddress_eq`, `published_addresses`, `published_addresses_default`, `wrap_accounts_derived`, `unwrap_accounts_derived`, `close_only_stuck` |
| C51 | Wrapped tokens held by nobody can be redeemed by anybody (negative) | concrete history for a counter-intuitive token-program rule | `unowned_wrapped_tokens_redeemable_by_anyone` |
| C52 | Well-formed Wrap and Unwrap always succeed | forward evaluation with symbolic state | `wrap_succeeds`, `unwrap_succeeds` |
| C53 | Decimals agree in every history | history invariant while the unwrapped mint is not re-created | `decimals_agree_always` |
| C54 | Trailing accounts that do not sign change nothing | simulation between runs with and without the trailing accounts | `trailing_accounts_ignored` |
| C55 | CLI wrap sends exactly the wrap it describes | CLI as a function ledger → transaction; transaction run through the C06 parsers and C08/C52 | `cli_wrap_transaction`, `cli_wrap_fully_signed`, `cli_wrap_effect`, `cli_wrap_succeeds` |
| C56 | CLI unwrap sends exactly the unwrap it describes | as C55 | `cli_unwrap_transaction`, `cli_unwrap_fully_signed`, `cli_unwrap_refuses`, `cli_unwrap_effect`, `cli_unwrap_succeeds` |
| C57 | CLI escrow creation and recovery work on the program's escrow | as C55 | `cli_create_escrow`, `fresh_escrow_accepts`, `cli_create_escrow_dust`, `cli_close_transaction`, `cli_close_succeeds` |
| C58 | CLI metadata source resolution finds what the program accepts | CLI resolution compared with the program's | `cli_source_complete`, `cli_source_unset`, `cli_sync22_succeeds` |
| C59 | CLI find-pdas prints the addresses the program uses | equality of computations | `cli_find_pdas` |
| C60 | The JavaScript client derives the program's addresses and builds the program's instructions | JS seeds/discriminators/account roles as data, equal to the Rust builders | `js_addresses`, `js_builders_agree`, `js_amount_range`, `js_error_codes`, `js_sync_complete` |
| C61 | The JavaScript parsers show what the program executed | JS decoders run on every byte string the program accepts | `js_parse_pack`, `js_parses_executed`, `js_parse_lenient` |
| C62 | The JavaScript wrap and unwrap helpers move the right tokens | as C55 for the JS helpers | `js_wrap_effect`, `js_wrap_eq_cli`, `js_wrap_plain_address`, `js_unwrap_effect`, `js_unwrap_wrong_account`, `js_unwrap_succeeds`, `js_wrap_plain_address_message`, `js_wrap_plain_payer` |
| C63 | Combining offline signatures loses and invents nothing | list induction over signature maps | `js_combine_iff`, `js_combine_sound`, `js_combine_exact` |
| C64 | The JavaScript escrow and backpointer helpers read the chain correctly | case analysis of the JS reads | `js_escrow_eq_cli`, `js_backpointer` |
| C65 | Nothing of a pair is ever garbage-collected, and wrapped SOL stays solvent | invariant `Funds` over the history (every token account and mint funded, native accounts cover reserve plus balance), together with the pair invariant | `token_accounts_funded`, `mints_funded`, `pair_always_funded`, `collection_never_touches_pair`, `native_escrow_covers` |
| C66 | No history of anybody's actions can block the program's operations | combine the history invariant (`History.inv'`, `History.plain`) with the liveness theorems of the single instructions: every hypothesis about the state of the pair is discharged by the invariant | `creation_never_blocked`, `creation_idempotent_always`, `escrow_never_blocked`, `wrap_never_blocked`, `repair_never_blocked`, `pointer_never_blocked`, `sync22_never_blocked`, `syncSpl_never_blocked`, `wrap_never_blocked_room` |
| C67 | Metadata on the wrapped Token-2022 mint always comes from a sync of a valid source | case analysis of `StepEff` for one step; induction over the history for the origin of the metadata | `metadata_changes_only_by_sync`, `metadata_has_a_source` |
| C68 | Token Wrap creates and destroys no unwrapped tokens | `Conserved` (finite support, sum equals supply) is shown to be kept by every token-program instruction (`tokenExec_flow`), by every other step and by Token Wrap; induction over the history | `token_wrap_conserves`, `tokens_conserved`, `escrowed_within_unwrapped_supply`, `wrapped_within_unwrapped_supply`, `unwrapped_mint_outlives_wrapped` |
| C69 | The wrapped supply is exactly what all holders have | C68 for the wrapped mint, from the empty start; the bound by the escrows is C15 | `wrapped_supply_exact`, `all_holders_covered`, `wrapped_supply_zero_iff` |
| C70 | Decimals of the unwrapped mint: fixed while tokens are escrowed, but not for ever | supply is at least what is escrowed (C68), and a mint with supply cannot be closed, also not inside a transfer hook; the second part is an explicit history evaluated by the kernel | `unwrapped_mint_stays_while_escrowed`, `decimals_can_diverge` |
| C71 | Token Wrap never alters a mint except supply and metadata of the wrapped mint | case analysis over the effects of the seven instructions | `token_wrap_keeps_mints`, `token_wrap_keeps_unwrapped_mints` |
| C72 | The Metaplex to Token-2022 copy is complete and exact | independent table (`Carries`, inductive relation) and numeral specification (`IsU16Text`, by Mathlib's `Nat.ofDigits`/`Nat.digits`); the conversion is shown to produce exactly the table, and the table to determine the copy | `token2022_copy_ok`, `token2022_copy_total`, `token2022_copy_rejects`, `IsToken2022Copy.unique`, `IsToken2022Copy.nodup`, `mem_extractAdditional`, `fee_text_iff` |
| C73 | More privileges change nothing | monotonicity of the CPI checks in the flags of the caller; success order `OkLe` through the bodies of the seven processors | `more_privileges_change_nothing` |
| C74 | Client transactions do what their instructions do | `Message.lean` models the flags of a compiled message; C73 lifts each instruction; the effect theorems of C08/C11 hold for accounts with any flags | `message_signer_iff`, `message_runs_instructions`, `cli_wrap_message_effect`, `cli_unwrap_message_effect`, `cli_wrap_message_succeeds`, `cli_unwrap_message_succeeds` |
| C75 | No transaction takes tokens without a signature on it | split the run of the message at the instruction; C10/C13/C33 there; a signer flag of a compiled message is a required signature | `transaction_wrap_authorised`, `transaction_unwrap_authorised`, `transaction_pointer_authorised` |
| C76 | The JavaScript offline multisig flow works end to end | the two message builders are computed; `js_combine_iff`/`js_combine_sound` (C63) applied to copies signed by arbitrary groups of keys; C52 and C74 for the execution | `js_multisig_wrap_message`, `js_multisig_unwrap_message`, `js_offline_complete`, `js_offline_incomplete`, `js_multisig_wrap_end_to_end`, `js_multisig_unwrap_end_to_end` |
| C77 | The CLI's metadata commands send exactly the sync they describe | the commands as functions ledger → transaction; C35/C39 applied to the compiled message, whose account keys are those of the builder; C58 for the resolved source | `cli_sync22_transaction`, `cli_sync22_effect`, `cli_sync22_message_succeeds`, `cli_syncSpl_transaction`, `cli_syncSpl_effect`, `cli_syncSpl_succeeds`, `cli_syncSpl_owner_only`, `cli_syncSpl_no_arguments` |
| C78 | Exactly when the instructions succeed | sufficiency is C52 and the liveness theorems; necessity by inverting the processor, the CPI checks and the token program step by step; for the syncs, a loop that makes no change is shown not to call the token program, so the authority is needed exactly if something differs | `createMint_succeeds_iff`, `wrap_succeeds_iff`, `unwrap_succeeds_iff`, `close_succeeds_iff`, `pointer_succeeds_iff`, `sync22_succeeds_iff`, `syncSpl_succeeds_iff`, `wrap_members_need_multisig`, `unwrap_needs_thawed_escrow` |
| C79 | The published interface description describes the program | `Idl.lean` holds idl.json as data with a generic interpreter of Codama nodes; its output is computed for arbitrary caller inputs and compared with the Rust builders, the JavaScript model and the decoder | `idl_well_known_addresses`, `idl_pdas`, `idl_builders_agree`, `idl_sync_builders`, `idl_required`, `js_builders_follow_idl`, `js_parser_follows_idl`, `idl_reads_what_runs`, `idl_errors`, `idl_backpointer_account` |
| C80 | A run of the CLI does what it reports | `CliRun.lean`: a run as a function of arguments, signers, ledger when queried and ledger when sent; case analysis over the ways a run ends, then C55–C58, C74, C77 for the transaction sent | `cli_run_no_effect`, `cli_run_executed`, `cli_wrap_run`, `cli_unwrap_run`, `cli_create_mint_run`, `cli_create_escrow_run`, `cli_close_run`, `cli_sync22_run`, `cli_syncSpl_run`, `cli_dry_run_blind`, `cli_dry_run_always_succeeds` |
| C81 | Signatures collected with --sign-only complete the transaction | base58 round trip for arbitrary bytes; induction over the collected lines; the slot of each required signer is filled by a line or an own key pair | `signer_line_round_trip`, `signer_line_injective`, `cli_wrap_sign_only`, `cli_unwrap_sign_only`, `cli_wrap_sign_only_report`, `cli_unwrap_sign_only_report`, `cli_wrap_offline`, `cli_unwrap_offline`, `cli_wrap_missing_signature`, `cli_unwrap_missing_signature`, `cli_wrap_sign_only_offline`, `cli_unwrap_sign_only_needs_chain` |
| C82 | Nobody takes tokens from an account without approval of someone in charge | `Custody.lean`: an effect analysis of every token-program instruction and of the CPIs of Token Wrap (`held_tokEff`, `instr_twEff`), then induction over the history, hooks included | `tokens_stay`, `wrapped_tokens_stay` |
| C83 | Only the wrapped mint's freeze authority freezes wrapped tokens | `Freeze.lean`: same effects, applied to the frozen flag and to the freeze authority; the wrapped mint has no default-frozen state and no close authority by the invariant of C26 | `freeze_authority_stays`, `frozen_only_by_freezer`, `never_frozen`, `never_frozen_without_freezer` |
| C84 | A frozen account of wrapped tokens is out of reach of everyone but the freeze authority | `Freeze.lean`: every effect on a frozen account is excluded or approved by the freeze authority; no fee extension on the wrapped mint, so withheld fees cannot move | `frozen_tokens_inert` |
| C85 | Locality: an instruction reads only its accounts and writes only its writable accounts | `Locality.lean`: two relational passes over every function of the processor, one for reads (`Rel (Agree S)`), one for writes (`Wr W L`); the privilege check of a CPI gives that its accounts are accounts of the caller | `changes_only_writable_accounts`, `depends_only_on_named_accounts` |
| C86 | The order of transactions that do not conflict is irrelevant | locality and framing lifted to transactions, then to batches by induction; the parallel form determines the ledger account by account, which gives independence of the order | `outcome_unaffected`, `transactions_commute`, `parallel_eq_sequential`, `batch_outcome`, `schedule_irrelevant` |
| C87 | The published walk-throughs work | `JsExample.lean` models the scripts as a chain of transactions; each step has its own lemma (success and exact effect), composed by threading the ledger; the last unwrap is shown possible from the effect of the wrap (`wrapped_can_be_unwrapped`) | `single_signer_example_works`, `multisig_example_works`, `single_signer_example_fails_with_fee` |
| C88 | The published sync scripts work | `JsExample.lean`; liveness and effect theorems of the syncs (C35, C39, C72), transported to the JS account lists with their placeholder accounts (`js_sync_complete`) | `sync_to_token2022_example_works`, `sync_to_spl_example_works`, `sync_to_spl_example_fails_elsewhere` |
| C89 | Complete post-state of Wrap and Unwrap | Closed form of the ledger (`ledgerAfterWrap`, `ledgerAfterUnwrap`), by inverting the two CPIs with the exact result of `spendAuth`; then specialised to the built instructions in the situations `CanWrap` / `CanUnwrap`. | `wrap_post_state`, `unwrap_post_state`, `wrap_runs_to`, `unwrap_runs_to`, `takenFrom_allowance` |
| C90 | Users of one pair do not disturb each other | Induction over the batch with the invariant that every remaining operation stays ready (its own accounts are untouched, no account becomes a multisig, the shared accounts change only in amount, withheld fees, lamports and supply); the exact post-states of C89 make the final ledger a function of sums, hence independent of the order. | `users_do_not_disturb`, `users_any_order` |
| C91 | Splitting gains nothing | Arithmetic on the fee specification `IsFee` (ceiling and cap are subadditive), then induction over the pieces using C08 and C11. | `isFee_subadditive`, `isFee_split_cost`, `isFee_net_monotone`, `splitting_a_wrap_never_gains`, `splitting_a_wrap_without_fee`, `splitting_an_unwrap_never_gains` |
| C92 | The books balance | Induction over histories: per-step accounting from the step effects of C15, plus the exact burn of every executed Unwrap; the totals are functions of the trace alone; the credited total is a relation on histories, shown to exist and be determined. | `unwrapped_within_wrapped`, `credited_total_exists`, `unwrapped_within_credited`, `books_balance`, `nothing_from_nothing` |
| C93 | Token accounts made by the JavaScript client | Running the two setup instructions on a symbolic ledger; the size test of `InitializeAccount` against `tokenAccountLen`; `mint_parameters` (C26) for wrapped mints. | `js_token_account_created`, `js_token_account_fails`, `js_token_account_for_wrapped` |
| C94 | The command line walk-through works | One lemma per command saying that the whole run succeeds, with its exact output and ledger; composed over the ledger as in C87 (`ScriptStart`, `SetupDone`, `script_accounting`). | `cli_walkthrough_works`, `createMint_run_ok`, `createEscrow_run_ok`, `createEscrow_run_there`, `wrap_run_ok`, `unwrap_run_ok` |
| C95 | Rent: five instructions are never refused by the runtime | `Rent.lean` models the rent rule at the end of a transaction; each instruction is shown to satisfy it from its effect theorem: sizes unchanged, lamports only moved above the reserve, or funded for the new size (checked by the program) | `wrap_rent_ok`, `unwrap_rent_ok`, `createMint_rent_ok`, `pointer_rent_ok`, `close_rent_ok` |
| C96 | Rent: funding the wrapped mint for a metadata sync | the size of mint contents is computed from the extensions, Borsh length of the metadata included; permutation of the metadata extension to the front; strict growth of the size on first sync; then the funding of the client builders (C55) | `sync22_size`, `sync22_rent_iff`, `sync22_rent_any`, `sync22_settle`, `sync22_right_after_create_refused`, `sync22_funded_works`, `create_mint_leaves_minimum`, `create_then_sync_refused`, `cli_create_then_sync_refused` |
| C97 | Rent: what the authority must hold for a Metaplex sync | from the effect of the Metaplex creation: only the payer changes besides the new account; arithmetic of the rule | `syncSpl_rent_iff`, `syncSpl_update_rent_ok` |
| C98 | Lamports are neither created nor destroyed | every effect is a sequence of data updates and payments; conservation is a relation closed under composition (finite sums over a superset) | `lamports_conserved`, `lamports_conserved_named`, `client_lamports_conserved` |
| C99 | What the program reads from account bytes is what the account holds | relational specification of the byte layouts (namespace `Layout`); the parser of `Layout.lean` is run on the concatenation of fields: lemmas on slices, then induction over the TLV entries; existence by writing the bytes | `Layout.mint_bytes`, `Layout.token_bytes`, `Layout.never_both`, `Layout.parse_bytes`, `Layout.good_state_bytes`, `Layout.mint_has_bytes`, `Layout.token_has_bytes` |
| C100 | The CLI's printed result can be read back | `CliText.lean` models the Display and Serialize implementations; reading functions (lines, label, object members) are the specification; splitting at newlines, labels told apart by their single final colon, base58 and decimal digits injective | `CliText.display_shows`, `CliText.shows_unique`, `CliText.json_reads_back`, `CliText.printed_result`, `CliText.output_words` |
| C101 | Metaplex accounts are read from their bytes | `MplLayout.lean` models Borsh readers as codecs; each is proved to accept exactly the written form (`Lawful`), combinators preserve this; the specification writes the account field by field | `MplLayout.metaplex_bytes`, `MplLayout.metaplex_old_bytes`, `MplLayout.metaplex_only_bytes`, `MplLayout.metaplex_discriminator`, `MplLayout.conversion_bytes`, `MplLayout.bytes_injective` |
| C102 | The CLI from its flags to its output | `CliMain.lean` models `main`, `Config::new` and the global flags over a `Machine` (files, signers, nodes); cases over the configuration, then C80 and C100 | `CliMain.main_one_chain`, `CliMain.main_no_effect`, `CliMain.named_config_must_load`, `CliMain.default_config_optional`, `CliMain.flags_override_files`, `CliMain.default_payer_is_here`, `CliMain.absent_payer_no_effect`, `CliMain.main_prints`, `CliMain.bad_output_refused` |
| C103 | The words of the command line mean what they say | `CliArgs.lean` models the value parsers, `requires` and the loading of signers; `Denotes` specifies what the words of every command stand for and the parser is proved equivalent to it; then C80, C81, C102 | `CliArgs.amount_word`, `CliArgs.amount_too_big`, `CliArgs.amount_text`, `CliArgs.address_word`, `CliArgs.words_no_effect`, `CliArgs.words_need_blockhash`, `CliArgs.bad_words_refused`, `CliArgs.wrap_words_run`, `CliArgs.unwrap_words_run`, `CliArgs.run_of_words`, `CliArgs.command_has_words`, `CliArgs.absent_authority_no_effect`, `CliArgs.moniker_word` |
| C104 | The wrapped mint is a snapshot of the unwrapped mint | induction over `History`: the step in which the wrapped mint appears is a CreateMint (`KeyEff`); composition with C26 and C83; concrete history for the divergence | `wrapped_mint_birth`, `decimals_snapshot`, `freeze_snapshot`, `no_freeze_snapshot`, `freeze_authorities_can_diverge` |
| C105 | An error code names what is wrong | a small calculus of the errors a computation can raise (`Raises`), applied to every function of the processor and of the environment; the table of codes of the token programs for the negative part | `error_code_names_fault`, `codes_of_instruction`, `unused_codes`, `createMint_code_names_fault`, `log_line_names_error`, `log_line_names_fault`, `js_recognises_own_error`, `js_attribution`, `overdrawn_wrap_reports_backpointer` |
| C106 | Forks with another mint customizer keep the money safe | `process_instruction` with the customizer as a parameter, steps and histories of such a build; the invariant of the pair once more with a weaker condition on the extensions, preserved by every step; a history with a closable mint as counterexample | `shipped_safe`, `buildHistory_default`, `build_always_backed`, `build_claims_covered`, `build_surplus_never_decreases`, `build_supply_grows_only_by_wrap`, `build_escrow_shrinks_only_by_unwrap`, `build_backpointer_integrity`, `build_mint_permanent`, `build_backed_by_one_escrow`, `build_backed_plain`, `build_redeemable`, `close_authority_kills_pair` |
| C107 | A backpointer cannot be forged | invariant of the backpointer address of an arbitrary key: blank, or a genuine wrapped mint whose creation is in the trace; what one step can do to an address nobody can sign for (`Held.step`) now gives what CreateMint wrote; the generated JavaScript reads modelled function by function, over any rendering of structured data as bytes | `backpointer_unforgeable`, `js_discovery`, `js_discovery_strict`, `js_fetch_all`, `js_fetch_by_address_unchecked`, `Genuine.unique`, `Genuine.pair` |
| C108 | Towers: wrapping wrapped tokens | the invariant of the lower pair shows that its wrapped mint never has a permanent delegate or transfer fee, which discharges the side conditions of the backing, exactness and redemption theorems of the pair above; induction over the tower; for the way down, what one Unwrap leaves alone (`Keeps`) shows that the instructions for the lower layers still succeed | `wrapped_wrapping_backed`, `tower_supply`, `tower_backed`, `tower_backed_plain`, `wrapped_wrap_exact`, `wrapped_unwrap_exact`, `upper_backed`, `upper_redeemable`, `redeemable_to_the_bottom`, `redeemable_from_any_height` |
| C109 | Without a freeze authority nobody can ever freeze | invariants: a mint without close and freeze authority stays so (every token instruction, every step); the wrapped mint gets its freeze authority from the unwrapped mint at its creation (`Held.step`), then only its holder changes it; induction over the tower; discharges the conditions of C108 | `never_freezer_unwrapped`, `never_freezer_wrapped`, `never_frozen_wrapped`, `never_freezer_tower`, `never_frozen_tower`, `redeemable_without_freezer` |
| C110 | Metadata climbs a tower of wrappings | induction over the tower: each sync succeeds in the state its predecessors leave (C66), what it wrote is, by C35 and the pointer to itself that the wrapped mint keeps, the source of the next; equality as key-value maps is transitive; the layers have different mints (C108), so later syncs leave the lower layers alone | `metadata_climbs`, `sync_layer`, `layer_source`, `no_metadata_to_climb` |

No property of the list is out of reach of the model; none is partial.  What could not be expressed at
all: compute-unit limits, transaction-size limits, heap use, log output other than the error line, RPC transport.

## 4. Trusted base

**Logic.** Lean 4.33.0's kernel.  The theorems depend on at most the axioms `propext`, `Quot.sound` and
`Classical.choice` (checked by `vcheck`); there are no other axioms, no unfinished proofs, no compiled
evaluation.

**Faithfulness of the model of /repo.** Each definition cites the lines it models; simplifications are
named there.  The correspondence of these definitions to the Rust / TypeScript text is by reading, and
part of the trusted base.  As a check of it, `Conformance/*` runs the repository's own test suite on the
model: each `#[test]` of `program/tests/*.rs` is an `example` with the accounts the test builds and the
outcome (exact error or resulting state) it asserts.  These are tests of the model, not claims.
Things deliberately simplified:

* Ledgers hold typed contents, not bytes.  For mints and token accounts this is justified by C99: the program's
  parsers, run on the bytes, give the same fields, extension lookups and errors.  For Metaplex accounts by C101.  The instruction data, PDA seeds, base58, serde_json text, JS instruction bytes, the program's own state and
  the return data of third-party metadata programs are at byte level.
* `msg!` (except in `log_error`), `sol_log` and compute budget are left out.
* A panic (`unwrap`, failed bump search) is the error `panicked`; both abort the transaction.

**Environment, not in /repo.** The dependencies' sources are not available in the sandbox.  Modelled from
knowledge of them:

* *Runtime*: a CPI may pass on only the privileges of the caller's accounts plus PDAs of the program; callee
  checks happen on the same ledger; an account borrowed by the caller when invoking is an error; an
  instruction that fails aborts the transaction.  An account may change owner only while its data is zero.
* *Token programs*: `TokenIx` covers transfer (all three kinds, with fees), mint, burn, close, approve,
  revoke, set-authority (every kind), freeze/thaw, initialisation of mints, accounts, multisigs, mint
  extensions and account extensions, native SOL sync, transfer-fee configuration / harvest / withdrawal,
  metadata pointer and token metadata, updates of the settings of mint extensions, confidential deposit /
  withdraw / transfer (amounts in clear, `confidential` field), excess-lamport withdrawal, pausable,
  permanent delegate.  `Env.reject` may veto any of them in any
  state: so safety theorems hold for token programs that refuse more, and liveness theorems say so
  explicitly (`hrej`).  `UnwrapLamports` is included; a permissioned burn is a burn that asks for one more signature, hence a
  special case; a batch is a sequence of steps.  Not covered: confidential mint/burn and confidential fees; scaled-UI amounts and interest (no effect on raw amounts), group/member extensions (no
  effect on the modelled fields).
* *Transfer hooks*: the hook program runs inside the transfer CPI.  In Wrap it runs between transfer and
  mint; `processWrapHooked` lets it execute any sequence of other programs' instructions there.  In
  Unwrap the transfer is last, so its effects are later steps.  Hooks cannot re-enter Token Wrap (runtime
  reentrancy rule).
* *Third-party metadata programs* (`emit`): the return data is arbitrary bytes (`Env.emit`), which the program decodes as Borsh (`Borsh.lean`).  What such a program does to its own
  accounts during the call is a separate `other` step of the history.
* *Metaplex*: `CreateMetadataAccountV3` / `UpdateMetadataAccountV2` with padding, cost and further rejection as
  parameters.  `serdeEnv` shows that the round-trip hypothesis on the JSON functions is met by
  serde_json's canonical text.
* *Who can sign* (`CanSign`): key pairs, PDAs of other programs, `create_with_seed` addresses, ATAs
  through `RecoverNested`.  `Reserved` says that no SHA-256 collision is known for the one address under
  observation; it replaces the (false) axiom that hashing is injective.
* *Lamports and rent*: the rent-exempt minimum is positive (`hr`).  Lamports leave an account only if it is a signing
  system account, or by its owner program.  An account without lamports is removed (`gc`).  `Fresh.funds`: at the start
  token accounts and mints hold lamports, wrapped-SOL accounts cover reserve and balance, and the two native
  mints exist without transfer fee and close authority (as on mainnet).

* *Rent rule* (`Rent.lean`, C95-C97): `RentState::transition_allowed` of the Agave runtime, applied to the accounts before and after
  a transaction.  Sizes of accounts follow from their contents: `getAccountLen` for extensions, Borsh length for token metadata,
  679 bytes for Metaplex metadata.  Metaplex leaves the account it creates rent exempt (`hmpl`).  Histories (`World`) do not use
  the rule: they allow every transaction that the programs allow, hence more than the runtime does.

**Clients.** The RPC node is the ledger at the time of the query; the transaction may be executed on another
ledger.  Key files, the layout of printed text, fees and transaction size are left out.  `Wire` stands for any signature
scheme in which a signature made with a key pair verifies and the empty slot does not; unforgeability is not assumed.  JS codecs
(@solana/kit) are trusted; TypeScript types are assumed respected except where a claim says otherwise.

## 5. Findings

Behaviours that a user may not expect.  Each is in the model; those marked *proved* are theorems.

* **F1** (*proved*, C42) The unwrapped mint's permanent delegate can wrap with the escrow itself as source:
  tokens are minted without backing.
* **F2** (compare `createMint_again`) Idempotent CreateMint returns success on any account already owned by the
  token program, without looking at its contents.
* **F3** (*proved*, `cli_source_unset`) The CLI falls back to the Metaplex account when the pointer exists but is
  unset; the program then fails with `MetadataPointerUnset`: the command can never succeed on such a mint.
* **F4** (*proved*, `builders_sync_shift`) The Rust sync builders, given an owner program but no source account, put
  the owner program into the source slot; the CLI does the same with `--owner-program` but no source
  account (`cli_syncSpl_owner_only`).
* **F7** (*proved*, C43) Wrapping a positive amount can mint 0 wrapped tokens (fee of 100%, or rounding up).
* **F8** (*proved*, `unwrap_needs_thawed_escrow`) A frozen escrow blocks unwrapping (`EscrowUsable` is a hypothesis of
  C18).
* **F9** (*proved*, C70 `decimals_can_diverge`) If the unwrapped Token-2022 mint is closed and re-created, its decimals may differ from the wrapped
  mint's (hypothesis of C53).
* **F10** (*proved*, C51) Wrapped tokens in accounts owned by the system program or the incinerator can be
  unwrapped by anyone, because the token programs let anyone burn there.
* **F11** (*proved*, `pointer_succeeds_iff`, `transaction_pointer_authorised`) The members of a token multisig that is the
  mint authority cannot set the canonical pointer: the authority key itself has to sign.
* **F12** (*proved*, `wrap_members_need_multisig`) A Wrap built with multisig signers for an authority that is not a
  multisig fails.
* **F13** (*proved*, `cli_create_escrow_dust`) The CLI treats an escrow address that merely holds lamports as
  an existing escrow.
* **F14** (*proved*, `js_parses_executed`, `js_sync_complete`) The JS sync builders fill omitted optional accounts with the program
  id; the JS parsers reject sync instructions from the Rust builder without optional accounts, and do not
  know SetCanonicalPointer.
* **F15** JS `createTokenAccount` always allocates 165 bytes, so it fails for Token-2022 mints that require account
  extensions (*proved*, `js_token_account_fails`); `singleSigner{Wrap,Unwrap}` given a plain address
  produce an instruction without authority signature, which works only if the address signs the transaction anyway,
  e.g. as fee payer (*proved*, `js_wrap_plain_address`, `js_wrap_plain_address_message`, `js_wrap_plain_payer`); the JS CreateMint
  decoder accepts boolean bytes that the program rejects (*proved*, `js_parse_lenient`).
* **F16** (*proved*, `cli_dry_run_always_succeeds`, `cli_dry_run_blind`) `--dry-run` prints "Simulation succeeded" and ends
  successfully even if the simulation failed: `process_transaction` does not look at `simulation_data.value.err`.
* **F17** (*proved*, `cli_unwrap_sign_only_needs_chain`) `unwrap --sign-only` asks the RPC node even if every argument is given,
  so it cannot be used on an offline machine; `wrap --sign-only` can.
* **F18** (*proved*, `single_signer_example_fails_with_fee`) the published example script unwraps the amount it wrapped, so it fails
  for every mint with a transfer fee on that amount (the credited amount is smaller).
* **F19** (*proved*, `sync22_right_after_create_refused`, `cli_create_then_sync_refused`) create-mint (CLI and JS) funds exactly the rent of the mint without
  metadata and no sync command tops it up, so SyncMetadataToToken2022 right afterwards is refused by the runtime until somebody sends
  lamports to the wrapped mint (the repository's own CLI test has a step "Fund for realloc").
* **F20** (*proved*, `syncSpl_rent_iff`) for the first sync to SPL Token the authority PDA must hold exactly the Metaplex cost or at least
  that plus the minimum of an empty account; amounts in between are refused by the runtime although the instruction succeeds.
* **F21** (*proved*, `json_reads_back`) in JSON output the signature is base58 text for create-mint, create-escrow-account and
  sync-metadata-to-spl-token, but an array of 64 numbers inside a list for the other commands (no `DisplayFromStr` on `Vec<Signature>`).
* **F22** (*proved*, `wrap_accounts_derived`, `wrap_account_errors`) the README says that any unwrapped token account owned by a PDA of the
  program can be used as escrow; the code accepts only the associated token account of the authority PDA.
* **F23** (*proved*, C104) the README says that the freeze authority is preserved in the wrapped token: it is copied once; later changes of
  the unwrapped mint's freeze authority do not reach the wrapped mint, so the two can diverge.
* **F24** (*proved*, `overdrawn_wrap_reports_backpointer`) error numbers of called programs are not told apart from Token Wrap's: wrapping more
  than the balance ends with the token program's code 1, which `isTokenWrapError` accepts and `getTokenWrapErrorMessage` describes as a wrong
  backpointer.  Only the log line is unambiguous.  Codes 9 and 11 are declared but never returned (`unused_codes`).
* **F25** (*proved*, `close_authority_kills_pair`) a warning for forks: CreateMint looks at the backpointer, too, and the backpointer is never closed.
  With a customizer that sets a mint close authority, closing an empty wrapped mint leaves the backpointer, and the pair can never be created again.
* **F26** (*proved*, `js_fetch_by_address_unchecked`, `js_discovery`) the generated `fetchBackpointer(address)` decodes the first 32 bytes of any account without looking at its owner, so a token account is reported as a backpointer to its mint; only the reads by seeds can be trusted (C107).
  And if somebody has sent lamports to the backpointer address of a mint that is not wrapped yet, `fetchMaybeBackpointerFromSeeds` throws instead of reporting that there is none.
* Metaplex: `collection.verified` is copied as it is; `creators = Some([])` comes back as `None`; duplicate keys in the source's additional
  metadata are last-wins.

## 6. Mutation testing

`seeded/LOG.jsonl` has one line per wrong program: the definition edited, the edit, the claim it breaks, the
theorems that no longer prove, and what was tightened.  The mutants are applied to a scratch copy; the
harness rebuilds and reports which claim theorems fail.
