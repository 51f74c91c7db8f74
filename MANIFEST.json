{
 "claims": [
  {
   "property": "C01",
   "status": "proved",
   "theorems": [
    "TokenWrap.unpack_pack",
    "TokenWrap.pack_injective"
   ],
   "note": ""
  },
  {
   "property": "C02",
   "status": "proved",
   "theorems": [
    "TokenWrap.unpack_eq_ok_iff",
    "TokenWrap.unpack_rejects",
    "TokenWrap.pack_length",
    "TokenWrap.wire_format"
   ],
   "note": ""
  },
  {
   "property": "C03",
   "status": "proved",
   "theorems": [
    "TokenWrap.error_code_is_position",
    "TokenWrap.tryFrom_eq_ok_iff",
    "TokenWrap.tryFrom_unknown",
    "TokenWrap.toErr_injective",
    "TokenWrap.toStr_injective"
   ],
   "note": ""
  },
  {
   "property": "C04",
   "status": "proved",
   "theorems": [
    "TokenWrap.pda_preimage_injective",
    "TokenWrap.pda_address_injective",
    "TokenWrap.pda_off_curve"
   ],
   "note": ""
  },
  {
   "property": "C05",
   "status": "proved",
   "theorems": [
    "TokenWrap.wrappedMint_signer_seeds",
    "TokenWrap.authority_signer_seeds",
    "TokenWrap.backpointer_signer_seeds",
    "TokenWrap.canonicalPointer_signer_seeds"
   ],
   "note": ""
  },
  {
   "property": "C06",
   "status": "proved",
   "theorems": [
    "TokenWrap.builders_roles",
    "TokenWrap.builders_roles_sync",
    "TokenWrap.builders_sync_shift",
    "TokenWrap.builders_privileges"
   ],
   "note": "The sync builders put an owner program given without a source account into the source slot; builders_sync_shift proves this exception, builders_roles_sync everything else."
  },
  {
   "property": "C07",
   "status": "proved",
   "theorems": [
    "TokenWrap.wrap_zero_rejected",
    "TokenWrap.unwrap_zero_rejected"
   ],
   "note": ""
  },
  {
   "property": "C08",
   "status": "proved",
   "theorems": [
    "TokenWrap.wrap_credits_exactly_what_escrow_receives"
   ],
   "note": ""
  },
  {
   "property": "C09",
   "status": "proved",
   "theorems": [
    "TokenWrap.wrap_accounts_derived",
    "TokenWrap.wrap_account_errors"
   ],
   "note": ""
  },
  {
   "property": "C10",
   "status": "proved",
   "theorems": [
    "TokenWrap.wrap_authorised"
   ],
   "note": ""
  },
  {
   "property": "C11",
   "status": "proved",
   "theorems": [
    "TokenWrap.unwrap_pays_one_for_one"
   ],
   "note": ""
  },
  {
   "property": "C12",
   "status": "proved",
   "theorems": [
    "TokenWrap.unwrap_accounts_derived",
    "TokenWrap.unwrap_account_errors"
   ],
   "note": ""
  },
  {
   "property": "C13",
   "status": "proved",
   "theorems": [
    "TokenWrap.unwrap_authorised"
   ],
   "note": ""
  },
  {
   "property": "C14",
   "status": "proved",
   "theorems": [
    "TokenWrap.wrap_frame",
    "TokenWrap.unwrap_frame"
   ],
   "note": ""
  },
  {
   "property": "C15",
   "status": "proved",
   "theorems": [
    "TokenWrap.always_backed",
    "TokenWrap.always_backed_stable",
    "TokenWrap.always_backed_plain"
   ],
   "note": "always_backed: any unwrapped mint, as long as no permanent delegate approves a step (PDIdle). always_backed_plain: no condition on the history at all, if the unwrapped mint starts without permanent delegate and close authority. Transfer hooks running arbitrary other instructions in the middle of Wrap are part of the histories."
  },
  {
   "property": "C16",
   "status": "proved",
   "theorems": [
    "TokenWrap.surplus_never_decreases",
    "TokenWrap.surplus_monotone"
   ],
   "note": ""
  },
  {
   "property": "C17",
   "status": "proved",
   "theorems": [
    "TokenWrap.claims_within_supply",
    "TokenWrap.all_claims_covered"
   ],
   "note": "claims_within_supply: any unwrapped mint. all_claims_covered: no permanent delegate of the unwrapped mint acts in the history (C42 shows why)."
  },
  {
   "property": "C18",
   "status": "proved",
   "theorems": [
    "TokenWrap.always_redeemable",
    "TokenWrap.always_redeemable_plain"
   ],
   "note": "always_redeemable: unwrapped mint without close authority, no permanent delegate has acted. always_redeemable_plain: any history for a mint that starts without both. Funded token accounts at the start (Funds, in Fresh); that a wrapped-SOL escrow always has the lamports is then proved (C65)."
  },
  {
   "property": "C19",
   "status": "proved",
   "theorems": [
    "TokenWrap.wrap_unwrap_round_trip"
   ],
   "note": ""
  },
  {
   "property": "C20",
   "status": "proved",
   "theorems": [
    "TokenWrap.calculateFee_isFee",
    "TokenWrap.isFee_unique",
    "TokenWrap.fee_total_and_bounded",
    "TokenWrap.epochFee_eq",
    "TokenWrap.feeOf_isMintFee"
   ],
   "note": ""
  },
  {
   "property": "C21",
   "status": "proved",
   "theorems": [
    "TokenWrap.createMint_creates"
   ],
   "note": ""
  },
  {
   "property": "C22",
   "status": "proved",
   "theorems": [
    "TokenWrap.createMint_never_overwrites"
   ],
   "note": ""
  },
  {
   "property": "C23",
   "status": "proved",
   "theorems": [
    "TokenWrap.createMint_again"
   ],
   "note": ""
  },
  {
   "property": "C24",
   "status": "proved",
   "theorems": [
    "TokenWrap.createMint_validates",
    "TokenWrap.createMint_errors"
   ],
   "note": ""
  },
  {
   "property": "C25",
   "status": "proved",
   "theorems": [
    "TokenWrap.backpointer_integrity"
   ],
   "note": ""
  },
  {
   "property": "C26",
   "status": "proved",
   "theorems": [
    "TokenWrap.mint_parameters_permanent",
    "TokenWrap.mint_parameters"
   ],
   "note": ""
  },
  {
   "property": "C27",
   "status": "proved",
   "theorems": [
    "TokenWrap.supply_grows_only_by_wrap",
    "TokenWrap.supply_growth_is_escrowed"
   ],
   "note": "supply_grows_only_by_wrap: any unwrapped mint and history. supply_growth_is_escrowed: any history; no permanent delegate acts in the step itself."
  },
  {
   "property": "C28",
   "status": "proved",
   "theorems": [
    "TokenWrap.escrow_shrinks_only_by_unwrap"
   ],
   "note": ""
  },
  {
   "property": "C29",
   "status": "proved",
   "theorems": [
    "TokenWrap.pairs_isolated",
    "TokenWrap.pairs_isolated_escrow"
   ],
   "note": "pairs_isolated: any unwrapped mint. pairs_isolated_escrow: any history; no permanent delegate of the unwrapped mint acts in the step itself."
  },
  {
   "property": "C30",
   "status": "proved",
   "theorems": [
    "TokenWrap.close_only_stuck",
    "TokenWrap.close_errors"
   ],
   "note": ""
  },
  {
   "property": "C31",
   "status": "proved",
   "theorems": [
    "TokenWrap.close_goodState_iff",
    "TokenWrap.fresh_ata_goodState",
    "TokenWrap.goodState_iff"
   ],
   "note": ""
  },
  {
   "property": "C32",
   "status": "proved",
   "theorems": [
    "TokenWrap.close_succeeds",
    "TokenWrap.stuck_escrow_repaired"
   ],
   "note": ""
  },
  {
   "property": "C33",
   "status": "proved",
   "theorems": [
    "TokenWrap.pointer_set_by_mint_authority",
    "TokenWrap.pointer_errors",
    "TokenWrap.pointer_succeeds"
   ],
   "note": ""
  },
  {
   "property": "C34",
   "status": "proved",
   "theorems": [
    "TokenWrap.pointer_holds_last_write",
    "TokenWrap.pointer_changes_only_by_authority"
   ],
   "note": ""
  },
  {
   "property": "C35",
   "status": "proved",
   "theorems": [
    "TokenWrap.sync22_equals_source",
    "TokenWrap.sync22_succeeds",
    "TokenWrap.sync22_equals_source_always"
   ],
   "note": ""
  },
  {
   "property": "C36",
   "status": "proved",
   "theorems": [
    "TokenWrap.sync22_changes_only_metadata"
   ],
   "note": ""
  },
  {
   "property": "C37",
   "status": "proved",
   "theorems": [
    "TokenWrap.sync22_settled",
    "TokenWrap.sync22_settled_always",
    "TokenWrap.sync22_idempotent",
    "TokenWrap.sync22_repeat",
    "TokenWrap.extract_unaffected"
   ],
   "note": ""
  },
  {
   "property": "C38",
   "status": "proved",
   "theorems": [
    "TokenWrap.source_sound",
    "TokenWrap.source_complete",
    "TokenWrap.source_unique",
    "TokenWrap.source_errors"
   ],
   "note": ""
  },
  {
   "property": "C39",
   "status": "proved",
   "theorems": [
    "TokenWrap.syncSpl_writes",
    "TokenWrap.syncSpl_succeeds"
   ],
   "note": ""
  },
  {
   "property": "C40",
   "status": "proved",
   "theorems": [
    "TokenWrap.toToken2022_keeps",
    "TokenWrap.toMetaplex_unverified",
    "TokenWrap.metaplex_round_trip",
    "TokenWrap.metaplex_round_trip_serde",
    "TokenWrap.parseU16_decString"
   ],
   "note": ""
  },
  {
   "property": "C41",
   "status": "proved",
   "theorems": [
    "TokenWrap.conversion_ok_iff",
    "TokenWrap.conversion_rejects",
    "TokenWrap.syncSpl_rejects_malformed",
    "TokenWrap.conversion_fee",
    "TokenWrap.conversion_bad_fee"
   ],
   "note": ""
  },
  {
   "property": "C42",
   "status": "proved",
   "theorems": [
    "TokenWrap.permanent_delegate_breaks_backing",
    "TokenWrap.permanent_delegate_history"
   ],
   "note": "Negative result, by explicit witnesses (existential statements)."
  },
  {
   "property": "C43",
   "status": "proved",
   "theorems": [
    "TokenWrap.wrap_mints_zero_iff"
   ],
   "note": ""
  },
  {
   "property": "C44",
   "status": "proved",
   "theorems": [
    "TokenWrap.permissionless"
   ],
   "note": ""
  },
  {
   "property": "C45",
   "status": "proved",
   "theorems": [
    "TokenWrap.transaction_atomic",
    "TokenWrap.wrap_never_half_done",
    "TokenWrap.unwrap_never_half_done"
   ],
   "note": ""
  },
  {
   "property": "C46",
   "status": "proved",
   "theorems": [
    "TokenWrap.amounts_fit"
   ],
   "note": ""
  },
  {
   "property": "C47",
   "status": "proved",
   "theorems": [
    "TokenWrap.only_matching_pda_signs"
   ],
   "note": "Stated as independence from the callees: token-program and Metaplex calls. System-program CPIs (allocate/assign) only ever name the wrapped mint, backpointer or pointer account, as the frame theorems createMint_creates and pointer_set_by_mint_authority show."
  },
  {
   "property": "C48",
   "status": "proved",
   "theorems": [
    "TokenWrap.js_createMint_eq_cli",
    "TokenWrap.createMint_funding_exact",
    "TokenWrap.createMint_transaction_succeeds"
   ],
   "note": ""
  },
  {
   "property": "C49",
   "status": "proved",
   "theorems": [
    "TokenWrap.customizer_mints",
    "TokenWrap.customizer_space",
    "TokenWrap.createMint_succeeds"
   ],
   "note": ""
  },
  {
   "property": "C50",
   "status": "proved",
   "theorems": [
    "TokenWrap.escrowAddress_eq",
    "TokenWrap.published_addresses",
    "TokenWrap.published_addresses_default",
    "TokenWrap.wrap_accounts_derived",
    "TokenWrap.unwrap_accounts_derived",
    "TokenWrap.close_only_stuck"
   ],
   "note": ""
  },
  {
   "property": "C51",
   "status": "proved",
   "theorems": [
    "TokenWrap.unowned_wrapped_tokens_redeemable_by_anyone"
   ],
   "note": ""
  },
  {
   "property": "C52",
   "status": "proved",
   "theorems": [
    "TokenWrap.wrap_succeeds",
    "TokenWrap.unwrap_succeeds"
   ],
   "note": ""
  },
  {
   "property": "C53",
   "status": "proved",
   "theorems": [
    "TokenWrap.decimals_agree_always"
   ],
   "note": ""
  },
  {
   "property": "C54",
   "status": "proved",
   "theorems": [
    "TokenWrap.trailing_accounts_ignored"
   ],
   "note": ""
  },
  {
   "property": "C55",
   "status": "proved",
   "theorems": [
    "TokenWrap.cli_wrap_transaction",
    "TokenWrap.cli_wrap_fully_signed",
    "TokenWrap.cli_wrap_effect",
    "TokenWrap.cli_wrap_succeeds"
   ],
   "note": ""
  },
  {
   "property": "C56",
   "status": "proved",
   "theorems": [
    "TokenWrap.cli_unwrap_transaction",
    "TokenWrap.cli_unwrap_fully_signed",
    "TokenWrap.cli_unwrap_refuses",
    "TokenWrap.cli_unwrap_effect",
    "TokenWrap.cli_unwrap_succeeds"
   ],
   "note": ""
  },
  {
   "property": "C57",
   "status": "proved",
   "theorems": [
    "TokenWrap.cli_create_escrow",
    "TokenWrap.fresh_escrow_accepts",
    "TokenWrap.cli_create_escrow_dust",
    "TokenWrap.cli_close_transaction",
    "TokenWrap.cli_close_succeeds"
   ],
   "note": ""
  },
  {
   "property": "C58",
   "status": "proved",
   "theorems": [
    "TokenWrap.cli_source_complete",
    "TokenWrap.cli_source_unset",
    "TokenWrap.cli_sync22_succeeds"
   ],
   "note": ""
  },
  {
   "property": "C59",
   "status": "proved",
   "theorems": [
    "TokenWrap.cli_find_pdas"
   ],
   "note": ""
  },
  {
   "property": "C60",
   "status": "proved",
   "theorems": [
    "TokenWrap.js_addresses",
    "TokenWrap.js_builders_agree",
    "TokenWrap.js_amount_range",
    "TokenWrap.js_error_codes",
    "TokenWrap.js_sync_complete"
   ],
   "note": ""
  },
  {
   "property": "C61",
   "status": "proved",
   "theorems": [
    "TokenWrap.js_parse_pack",
    "TokenWrap.js_parses_executed",
    "TokenWrap.js_parse_lenient"
   ],
   "note": ""
  },
  {
   "property": "C62",
   "status": "proved",
   "theorems": [
    "TokenWrap.js_wrap_effect",
    "TokenWrap.js_wrap_eq_cli",
    "TokenWrap.js_wrap_plain_address",
    "TokenWrap.js_unwrap_effect",
    "TokenWrap.js_unwrap_wrong_account",
    "TokenWrap.js_unwrap_succeeds",
    "TokenWrap.js_wrap_plain_address_message",
    "TokenWrap.js_wrap_plain_payer"
   ],
   "note": ""
  },
  {
   "property": "C63",
   "status": "proved",
   "theorems": [
    "TokenWrap.js_combine_iff",
    "TokenWrap.js_combine_sound",
    "TokenWrap.js_combine_exact"
   ],
   "note": ""
  },
  {
   "property": "C64",
   "status": "proved",
   "theorems": [
    "TokenWrap.js_escrow_eq_cli",
    "TokenWrap.js_backpointer"
   ],
   "note": ""
  },
  {
   "property": "C65",
   "status": "proved",
   "theorems": [
    "TokenWrap.token_accounts_funded",
    "TokenWrap.mints_funded",
    "TokenWrap.pair_always_funded",
    "TokenWrap.collection_never_touches_pair",
    "TokenWrap.native_escrow_covers"
   ],
   "note": "World model with rent, lamport movements and removal of empty accounts. Fresh assumes that token accounts and mints are funded at the start and that the two native mints exist without transfer fee or close authority."
  },
  {
   "property": "C66",
   "status": "proved",
   "theorems": [
    "TokenWrap.creation_never_blocked",
    "TokenWrap.creation_idempotent_always",
    "TokenWrap.escrow_never_blocked",
    "TokenWrap.wrap_never_blocked",
    "TokenWrap.repair_never_blocked",
    "TokenWrap.pointer_never_blocked",
    "TokenWrap.sync22_never_blocked",
    "TokenWrap.syncSpl_never_blocked",
    "TokenWrap.wrap_never_blocked_room"
   ],
   "note": "World model. wrap_never_blocked: unwrapped mint without close authority, no permanent delegate has acted, token program does not veto. syncSpl_never_blocked: Metaplex itself is arbitrary, so the state of the Metaplex account is a hypothesis."
  },
  {
   "property": "C67",
   "status": "proved",
   "theorems": [
    "TokenWrap.metadata_changes_only_by_sync",
    "TokenWrap.metadata_has_a_source"
   ],
   "note": ""
  },
  {
   "property": "C68",
   "status": "proved",
   "theorems": [
    "TokenWrap.token_wrap_conserves",
    "TokenWrap.tokens_conserved",
    "TokenWrap.escrowed_within_unwrapped_supply",
    "TokenWrap.wrapped_within_unwrapped_supply",
    "TokenWrap.unwrapped_mint_outlives_wrapped"
   ],
   "note": "Conserved u L: the tokens of mint u in all accounts of both token programs add up to the supply (a finite set of addresses carries them all). Native SOL is excluded: its mint shows supply 0; C65 covers it."
  },
  {
   "property": "C69",
   "status": "proved",
   "theorems": [
    "TokenWrap.wrapped_supply_exact",
    "TokenWrap.all_holders_covered",
    "TokenWrap.wrapped_supply_zero_iff"
   ],
   "note": "From a state in which nothing of the pair exists and no token account of either token program names the wrapped mint."
  },
  {
   "property": "C70",
   "status": "proved",
   "theorems": [
    "TokenWrap.unwrapped_mint_stays_while_escrowed",
    "TokenWrap.decimals_can_diverge"
   ],
   "note": "First part for all histories; second part is an existence statement with an explicit history."
  },
  {
   "property": "C71",
   "status": "proved",
   "theorems": [
    "TokenWrap.token_wrap_keeps_mints",
    "TokenWrap.token_wrap_keeps_unwrapped_mints"
   ],
   "note": ""
  },
  {
   "property": "C72",
   "status": "proved",
   "theorems": [
    "TokenWrap.token2022_copy_ok",
    "TokenWrap.token2022_copy_total",
    "TokenWrap.token2022_copy_rejects",
    "TokenWrap.IsToken2022Copy.unique",
    "TokenWrap.IsToken2022Copy.nodup",
    "TokenWrap.mem_extractAdditional",
    "TokenWrap.fee_text_iff"
   ],
   "note": "The JSON texts themselves are environment functions (Env.json*); their concrete format for creators, collection and uses is in Serde.lean (C40)."
  },
  {
   "property": "C73",
   "status": "proved",
   "theorems": [
    "TokenWrap.more_privileges_change_nothing"
   ],
   "note": ""
  },
  {
   "property": "C74",
   "status": "proved",
   "theorems": [
    "TokenWrap.message_signer_iff",
    "TokenWrap.message_runs_instructions",
    "TokenWrap.cli_wrap_message_effect",
    "TokenWrap.cli_unwrap_message_effect",
    "TokenWrap.cli_wrap_message_succeeds",
    "TokenWrap.cli_unwrap_message_succeeds"
   ],
   "note": "Message compilation and the demotion of writable flags are external and modelled in Message.lean; fees, blockhashes and size limits are not."
  },
  {
   "property": "C75",
   "status": "proved",
   "theorems": [
    "TokenWrap.transaction_wrap_authorised",
    "TokenWrap.transaction_unwrap_authorised",
    "TokenWrap.transaction_pointer_authorised"
   ],
   "note": ""
  },
  {
   "property": "C76",
   "status": "proved",
   "theorems": [
    "TokenWrap.js_multisig_wrap_message",
    "TokenWrap.js_multisig_unwrap_message",
    "TokenWrap.js_offline_complete",
    "TokenWrap.js_offline_incomplete",
    "TokenWrap.js_multisig_wrap_end_to_end",
    "TokenWrap.js_multisig_unwrap_end_to_end"
   ],
   "note": "Message encoding and signing are arbitrary functions."
  },
  {
   "property": "C77",
   "status": "proved",
   "theorems": [
    "TokenWrap.cli_sync22_transaction",
    "TokenWrap.cli_sync22_effect",
    "TokenWrap.cli_sync22_message_succeeds",
    "TokenWrap.cli_syncSpl_transaction",
    "TokenWrap.cli_syncSpl_effect",
    "TokenWrap.cli_syncSpl_succeeds",
    "TokenWrap.cli_syncSpl_owner_only",
    "TokenWrap.cli_syncSpl_no_arguments"
   ],
   "note": ""
  },
  {
   "property": "C78",
   "status": "proved",
   "theorems": [
    "TokenWrap.createMint_succeeds_iff",
    "TokenWrap.wrap_succeeds_iff",
    "TokenWrap.unwrap_succeeds_iff",
    "TokenWrap.close_succeeds_iff",
    "TokenWrap.pointer_succeeds_iff",
    "TokenWrap.sync22_succeeds_iff",
    "TokenWrap.syncSpl_succeeds_iff",
    "TokenWrap.wrap_members_need_multisig",
    "TokenWrap.unwrap_needs_thawed_escrow"
   ],
   "note": "Under stated ordinary circumstances: no extra veto of the token program, the authority address carries no data, source and escrow (escrow and recipient) differ, a multisig authority belongs to the program asked and has a threshold of at least one; for the syncs, Metaplex and the token program do not veto the data (lengths, rent)."
  },
  {
   "property": "C79",
   "status": "proved",
   "theorems": [
    "TokenWrap.idl_well_known_addresses",
    "TokenWrap.idl_pdas",
    "TokenWrap.idl_builders_agree",
    "TokenWrap.idl_sync_builders",
    "TokenWrap.idl_required",
    "TokenWrap.js_builders_follow_idl",
    "TokenWrap.js_parser_follows_idl",
    "TokenWrap.idl_reads_what_runs",
    "TokenWrap.idl_errors",
    "TokenWrap.idl_backpointer_account"
   ],
   "note": "idl.json is transcribed as data in Idl.lean; the meaning of Codama nodes (build, parse, PdaNode.address) is trusted."
  },
  {
   "property": "C80",
   "status": "proved",
   "theorems": [
    "TokenWrap.cli_run_no_effect",
    "TokenWrap.cli_run_executed",
    "TokenWrap.cli_wrap_run",
    "TokenWrap.cli_unwrap_run",
    "TokenWrap.cli_create_mint_run",
    "TokenWrap.cli_create_escrow_run",
    "TokenWrap.cli_close_run",
    "TokenWrap.cli_sync22_run",
    "TokenWrap.cli_syncSpl_run",
    "TokenWrap.cli_dry_run_blind",
    "TokenWrap.cli_dry_run_always_succeeds"
   ],
   "note": "The signature scheme is an arbitrary structure Wire, the RPC node a Cluster; fees and duplicate detection are left out."
  },
  {
   "property": "C81",
   "status": "proved",
   "theorems": [
    "TokenWrap.signer_line_round_trip",
    "TokenWrap.signer_line_injective",
    "TokenWrap.cli_wrap_sign_only",
    "TokenWrap.cli_unwrap_sign_only",
    "TokenWrap.cli_wrap_sign_only_report",
    "TokenWrap.cli_unwrap_sign_only_report",
    "TokenWrap.cli_wrap_offline",
    "TokenWrap.cli_unwrap_offline",
    "TokenWrap.cli_wrap_missing_signature",
    "TokenWrap.cli_unwrap_missing_signature",
    "TokenWrap.cli_wrap_sign_only_offline",
    "TokenWrap.cli_unwrap_sign_only_needs_chain"
   ],
   "note": "Partial signing and return_signers_data are external and modelled in CliRun.lean."
  },
  {
   "property": "C82",
   "status": "proved",
   "theorems": [
    "TokenWrap.tokens_stay",
    "TokenWrap.wrapped_tokens_stay"
   ],
   "note": "Approval is by signature, by a multisig of the token program, or (for Token Wrap instructions) by an authority PDA, so accounts owned by the authority PDAs of Token Wrap are covered by C15-C17, C28 instead."
  },
  {
   "property": "C83",
   "status": "proved",
   "theorems": [
    "TokenWrap.freeze_authority_stays",
    "TokenWrap.frozen_only_by_freezer",
    "TokenWrap.never_frozen",
    "TokenWrap.never_frozen_without_freezer"
   ],
   "note": ""
  },
  {
   "property": "C84",
   "status": "proved",
   "theorems": [
    "TokenWrap.frozen_tokens_inert"
   ],
   "note": ""
  },
  {
   "property": "C85",
   "status": "proved",
   "theorems": [
    "TokenWrap.changes_only_writable_accounts",
    "TokenWrap.depends_only_on_named_accounts"
   ],
   "note": "OnlySees: the programs called see only accounts of the calling instruction (runtime)."
  },
  {
   "property": "C86",
   "status": "proved",
   "theorems": [
    "TokenWrap.outcome_unaffected",
    "TokenWrap.transactions_commute",
    "TokenWrap.parallel_eq_sequential",
    "TokenWrap.batch_outcome",
    "TokenWrap.schedule_irrelevant"
   ],
   "note": "Transactions are lists of Token Wrap calls (runCalls, as in C45); fees are not modelled."
  },
  {
   "property": "C87",
   "status": "proved",
   "theorems": [
    "TokenWrap.single_signer_example_works",
    "TokenWrap.multisig_example_works",
    "TokenWrap.single_signer_example_fails_with_fee"
   ],
   "note": "Scripts modelled in JsExample.lean. Not modelled: connection, blockhash, transaction fees, the payer paying the rent of the escrow ATA."
  },
  {
   "property": "C88",
   "status": "proved",
   "theorems": [
    "TokenWrap.sync_to_token2022_example_works",
    "TokenWrap.sync_to_spl_example_works",
    "TokenWrap.sync_to_spl_example_fails_elsewhere"
   ],
   "note": "Scripts modelled in JsExample.lean."
  },
  {
   "property": "C89",
   "status": "proved",
   "theorems": [
    "TokenWrap.wrap_post_state",
    "TokenWrap.unwrap_post_state",
    "TokenWrap.wrap_runs_to",
    "TokenWrap.unwrap_runs_to",
    "TokenWrap.takenFrom_allowance"
   ],
   "note": "The whole ledger after Wrap and Unwrap in closed form; specification functions takenFrom, receivedBy, nativeLamports, ledgerAfterWrap, ledgerAfterUnwrap in Props/PostState.lean."
  },
  {
   "property": "C90",
   "status": "proved",
   "theorems": [
    "TokenWrap.users_do_not_disturb",
    "TokenWrap.users_any_order"
   ],
   "note": "Batches of any length and any permutation; hypotheses bundled in Batch, shown to be met by a wrap and an unwrap of two users."
  },
  {
   "property": "C91",
   "status": "proved",
   "theorems": [
    "TokenWrap.isFee_subadditive",
    "TokenWrap.isFee_split_cost",
    "TokenWrap.isFee_net_monotone",
    "TokenWrap.splitting_a_wrap_never_gains",
    "TokenWrap.splitting_a_wrap_without_fee",
    "TokenWrap.splitting_an_unwrap_never_gains"
   ],
   "note": "Fee level and instruction level, for any list of pieces."
  },
  {
   "property": "C92",
   "status": "proved",
   "theorems": [
    "TokenWrap.unwrapped_within_wrapped",
    "TokenWrap.credited_total_exists",
    "TokenWrap.unwrapped_within_credited",
    "TokenWrap.books_balance",
    "TokenWrap.nothing_from_nothing"
   ],
   "note": "Sums over the trace; Act.wraps / Act.unwraps read the instruction data and the named wrapped mint only; HistoryCrediting sums amount less the fee of the unwrapped mint at the start of each Wrap (Credits)."
  },
  {
   "property": "C93",
   "status": "proved",
   "theorems": [
    "TokenWrap.js_token_account_created",
    "TokenWrap.js_token_account_fails",
    "TokenWrap.js_token_account_for_wrapped"
   ],
   "note": "Account sizes are computed from the extensions (tokenAccountLen, roomFor)."
  },
  {
   "property": "C94",
   "status": "proved",
   "theorems": [
    "TokenWrap.cli_walkthrough_works",
    "TokenWrap.createMint_run_ok",
    "TokenWrap.createEscrow_run_ok",
    "TokenWrap.createEscrow_run_there",
    "TokenWrap.wrap_run_ok",
    "TokenWrap.unwrap_run_ok"
   ],
   "note": "Each command is a whole run (Command.run of CliRun.lean): resolving, building, signing, sending, output. The associated token account is created by another tool (ataCreatePaid)."
  },
  {
   "property": "C95",
   "status": "proved",
   "theorems": [
    "TokenWrap.wrap_rent_ok",
    "TokenWrap.unwrap_rent_ok",
    "TokenWrap.createMint_rent_ok",
    "TokenWrap.pointer_rent_ok",
    "TokenWrap.close_rent_ok"
   ],
   "note": "The runtime rule is RentState::transition_allowed, modelled in Rent.lean (RentOk)."
  },
  {
   "property": "C96",
   "status": "proved",
   "theorems": [
    "TokenWrap.sync22_size",
    "TokenWrap.sync22_rent_iff",
    "TokenWrap.sync22_rent_any",
    "TokenWrap.sync22_settle",
    "TokenWrap.sync22_right_after_create_refused",
    "TokenWrap.sync22_funded_works",
    "TokenWrap.create_mint_leaves_minimum",
    "TokenWrap.create_then_sync_refused",
    "TokenWrap.cli_create_then_sync_refused"
   ],
   "note": "Source metadata without duplicate keys in the additional metadata; OneMetadata: the mint has at most one metadata extension."
  },
  {
   "property": "C97",
   "status": "proved",
   "theorems": [
    "TokenWrap.syncSpl_rent_iff",
    "TokenWrap.syncSpl_update_rent_ok"
   ],
   "note": "Assumes that Metaplex leaves the account it creates rent exempt (hmpl)."
  },
  {
   "property": "C98",
   "status": "proved",
   "theorems": [
    "TokenWrap.lamports_conserved",
    "TokenWrap.lamports_conserved_named",
    "TokenWrap.client_lamports_conserved"
   ],
   "note": "Transaction fees are not modelled. PayersAreOthers: the payer of an associated token account is not that account."
  },
  {
   "property": "C99",
   "status": "proved",
   "theorems": [
    "TokenWrap.Layout.mint_bytes",
    "TokenWrap.Layout.token_bytes",
    "TokenWrap.Layout.never_both",
    "TokenWrap.Layout.parse_bytes",
    "TokenWrap.Layout.good_state_bytes",
    "TokenWrap.Layout.mint_has_bytes",
    "TokenWrap.Layout.token_has_bytes"
   ],
   "note": "The layouts (namespace Layout) are those of spl-token-2022-interface, external to /repo. Metaplex contents are read as InvalidAccountData by the token parsers (simplification)."
  },
  {
   "property": "C100",
   "status": "proved",
   "theorems": [
    "TokenWrap.CliText.display_shows",
    "TokenWrap.CliText.shows_unique",
    "TokenWrap.CliText.json_reads_back",
    "TokenWrap.CliText.printed_result",
    "TokenWrap.CliText.output_words"
   ],
   "note": "JSON is modelled as a value; its text (serde_json) and the printing of CliSignOnlyData (solana-cli-output) are external; colours are left out."
  },
  {
   "property": "C101",
   "status": "proved",
   "theorems": [
    "TokenWrap.MplLayout.metaplex_bytes",
    "TokenWrap.MplLayout.metaplex_old_bytes",
    "TokenWrap.MplLayout.metaplex_only_bytes",
    "TokenWrap.MplLayout.metaplex_discriminator",
    "TokenWrap.MplLayout.conversion_bytes",
    "TokenWrap.MplLayout.bytes_injective"
   ],
   "note": "The reader is safe_deserialize of mpl-token-metadata (external), modelled in MplLayout.lean."
  },
  {
   "property": "C102",
   "status": "proved",
   "theorems": [
    "TokenWrap.CliMain.main_one_chain",
    "TokenWrap.CliMain.main_no_effect",
    "TokenWrap.CliMain.named_config_must_load",
    "TokenWrap.CliMain.default_config_optional",
    "TokenWrap.CliMain.flags_override_files",
    "TokenWrap.CliMain.default_payer_is_here",
    "TokenWrap.CliMain.absent_payer_no_effect",
    "TokenWrap.CliMain.main_prints",
    "TokenWrap.CliMain.bad_output_refused"
   ],
   "note": "Loading of configuration files and signers (solana-cli-config, solana-clap-v3-utils) is a parameter."
  },
  {
   "property": "C103",
   "status": "proved",
   "theorems": [
    "TokenWrap.CliArgs.amount_word",
    "TokenWrap.CliArgs.amount_too_big",
    "TokenWrap.CliArgs.amount_text",
    "TokenWrap.CliArgs.address_word",
    "TokenWrap.CliArgs.words_no_effect",
    "TokenWrap.CliArgs.words_need_blockhash",
    "TokenWrap.CliArgs.bad_words_refused",
    "TokenWrap.CliArgs.wrap_words_run",
    "TokenWrap.CliArgs.unwrap_words_run",
    "TokenWrap.CliArgs.run_of_words",
    "TokenWrap.CliArgs.command_has_words",
    "TokenWrap.CliArgs.absent_authority_no_effect",
    "TokenWrap.CliArgs.moniker_word"
   ],
   "note": "Which word belongs to which argument (clap) and the loading of key files are external; the number parser of core is modelled."
  },
  {
   "property": "C104",
   "status": "proved",
   "theorems": [
    "TokenWrap.wrapped_mint_birth",
    "TokenWrap.decimals_snapshot",
    "TokenWrap.freeze_snapshot",
    "TokenWrap.no_freeze_snapshot",
    "TokenWrap.freeze_authorities_can_diverge"
   ],
   "note": ""
  },
  {
   "property": "C105",
   "status": "proved",
   "theorems": [
    "TokenWrap.error_code_names_fault",
    "TokenWrap.codes_of_instruction",
    "TokenWrap.unused_codes",
    "TokenWrap.createMint_code_names_fault",
    "TokenWrap.log_line_names_error",
    "TokenWrap.log_line_names_fault",
    "TokenWrap.js_recognises_own_error",
    "TokenWrap.js_attribution",
    "TokenWrap.overdrawn_wrap_reports_backpointer"
   ],
   "note": ""
  },
  {
   "property": "C106",
   "status": "proved",
   "theorems": [
    "TokenWrap.shipped_safe",
    "TokenWrap.buildHistory_default",
    "TokenWrap.build_always_backed",
    "TokenWrap.build_claims_covered",
    "TokenWrap.build_surplus_never_decreases",
    "TokenWrap.build_supply_grows_only_by_wrap",
    "TokenWrap.build_escrow_shrinks_only_by_unwrap",
    "TokenWrap.build_backpointer_integrity",
    "TokenWrap.build_mint_permanent",
    "TokenWrap.build_backed_by_one_escrow",
    "TokenWrap.build_backed_plain",
    "TokenWrap.build_redeemable",
    "TokenWrap.close_authority_kills_pair"
   ],
   "note": ""
  },
  {
   "property": "C107",
   "status": "proved",
   "theorems": [
    "TokenWrap.backpointer_unforgeable",
    "TokenWrap.js_discovery",
    "TokenWrap.js_discovery_strict",
    "TokenWrap.js_fetch_all",
    "TokenWrap.js_fetch_by_address_unchecked",
    "TokenWrap.Genuine.unique",
    "TokenWrap.Genuine.pair"
   ],
   "note": ""
  },
  {
   "property": "C108",
   "status": "proved",
   "theorems": [
    "TokenWrap.wrapped_wrapping_backed",
    "TokenWrap.tower_supply",
    "TokenWrap.tower_backed",
    "TokenWrap.tower_backed_plain",
    "TokenWrap.wrapped_wrap_exact",
    "TokenWrap.wrapped_unwrap_exact",
    "TokenWrap.upper_backed",
    "TokenWrap.upper_redeemable",
    "TokenWrap.redeemable_to_the_bottom",
    "TokenWrap.redeemable_from_any_height"
   ],
   "note": ""
  },
  {
   "property": "C109",
   "status": "proved",
   "theorems": [
    "TokenWrap.never_freezer_unwrapped",
    "TokenWrap.never_freezer_wrapped",
    "TokenWrap.never_frozen_wrapped",
    "TokenWrap.never_freezer_tower",
    "TokenWrap.never_frozen_tower",
    "TokenWrap.redeemable_without_freezer"
   ],
   "note": ""
  },
  {
   "property": "C110",
   "status": "proved",
   "theorems": [
    "TokenWrap.metadata_climbs",
    "TokenWrap.sync_layer",
    "TokenWrap.layer_source",
    "TokenWrap.no_metadata_to_climb"
   ],
   "note": ""
  }
 ]
}