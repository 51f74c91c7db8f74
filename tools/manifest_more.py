T.update({
'C21':['createMint_creates'],'C22':['createMint_never_overwrites'],'C23':['createMint_again'],
'C24':['createMint_validates','createMint_errors'],
'C49':['customizer_mints','customizer_space','createMint_succeeds'],
'C52':['wrap_succeeds','unwrap_succeeds'],
})
T.update({
'C30':['close_only_stuck','close_errors'],
'C31':['close_goodState_iff','fresh_ata_goodState','goodState_iff'],
'C32':['close_succeeds','stuck_escrow_repaired'],
'C33':['pointer_set_by_mint_authority','pointer_errors','pointer_succeeds'],
'C35':['sync22_equals_source','sync22_succeeds'],
'C36':['sync22_changes_only_metadata'],
'C37':['sync22_settled','sync22_settled_always','sync22_idempotent','sync22_repeat','extract_unaffected'],
'C38':['source_sound','source_complete','source_unique','source_errors'],
'C39':['syncSpl_writes','syncSpl_succeeds'],
'C40':['toToken2022_keeps','toMetaplex_unverified','metaplex_round_trip','parseU16_decString'],
'C41':['conversion_ok_iff','conversion_rejects','syncSpl_rejects_malformed'],
})
T.update({'C06':['builders_roles','builders_roles_sync','builders_sync_shift','builders_privileges'],'C44':['permissionless']})
NOTE['C06']=('proved','The sync builders put an owner program given without a source account into the source slot; builders_sync_shift proves this exception, builders_roles_sync everything else.')
T.update({'C47':['only_matching_pda_signs']})
NOTE['C47']=('proved','Stated as independence from the callees: token-program and Metaplex calls. System-program CPIs (allocate/assign) only ever name the wrapped mint, backpointer or pointer account, as the frame theorems createMint_creates and pointer_set_by_mint_authority show.')
T.update({
'C45':['transaction_atomic','wrap_never_half_done','unwrap_never_half_done'],
'C42':['permanent_delegate_breaks_backing'],
'C51':['unowned_wrapped_tokens_redeemable_by_anyone'],
'C48':['js_createMint_eq_cli','createMint_funding_exact','createMint_transaction_succeeds'],
})
T.update({
'C15':['always_backed','always_backed_plain'],
'C16':['surplus_never_decreases','surplus_monotone'],
'C17':['all_claims_covered'],
'C18':['always_redeemable'],
'C25':['backpointer_integrity'],
'C26':['mint_parameters_permanent','mint_parameters'],
'C27':['supply_grows_only_by_wrap'],
'C28':['escrow_shrinks_only_by_unwrap'],
'C29':['pairs_isolated'],
'C34':['pointer_holds_last_write','pointer_changes_only_by_authority'],
'C46':['amounts_fit'],
'C53':['decimals_agree_always'],
})
NOTE['C15']=('proved','always_backed: any unwrapped mint, as long as it has no permanent delegate in the states of the history. always_backed_plain: no condition on the history at all, if the unwrapped mint starts without permanent delegate and close authority. Transfer hooks may run arbitrary foreign instructions inside Wrap.')
NOTE['C18']=('proved','For an unwrapped mint that starts without permanent delegate and close authority. The chain starts with funded token accounts (Funds, in Fresh); that a wrapped-SOL escrow always has the lamports is then proved (C65).')
T.update({'C54':['trailing_accounts_ignored']})

T.update({
'C55':['cli_wrap_transaction','cli_wrap_fully_signed','cli_wrap_effect','cli_wrap_succeeds'],
'C56':['cli_unwrap_transaction','cli_unwrap_fully_signed','cli_unwrap_refuses','cli_unwrap_effect','cli_unwrap_succeeds'],
'C57':['cli_create_escrow','fresh_escrow_accepts','cli_create_escrow_dust','cli_close_transaction','cli_close_succeeds'],
'C58':['cli_source_complete','cli_source_unset','cli_sync22_succeeds'],
'C59':['cli_find_pdas'],
})

T.update({'C60':['js_addresses','js_builders_agree','js_amount_range','js_error_codes','js_sync_complete'],
'C61':['js_parse_pack','js_parses_executed','js_parse_lenient'],
'C62':['js_wrap_effect','js_wrap_eq_cli','js_wrap_plain_address','js_unwrap_effect','js_unwrap_wrong_account','js_unwrap_succeeds'],
'C63':['js_combine_iff','js_combine_sound','js_combine_exact'],
'C64':['js_escrow_eq_cli','js_backpointer']})
T['C40']=['toToken2022_keeps','toMetaplex_unverified','metaplex_round_trip','metaplex_round_trip_serde','parseU16_decString']

T.update({'C65':['token_accounts_funded','mints_funded','pair_always_funded','collection_never_touches_pair','native_escrow_covers']})
NOTE['C65']=('proved','World model with rent, lamport movements and removal of empty accounts. Fresh assumes that token accounts and mints are funded at the start and that the two native mints exist without transfer fee or close authority.')
T['C02']=T['C02']+['wire_format']
T['C50']=T['C50']+['published_addresses','published_addresses_default']

T['C17']=['claims_within_supply','all_claims_covered']
T['C27']=['supply_grows_only_by_wrap','supply_growth_is_escrowed']
T['C29']=['pairs_isolated','pairs_isolated_escrow']
NOTE['C17']=('proved','claims_within_supply: any unwrapped mint. all_claims_covered: no permanent delegate on the unwrapped mint in the states of the history (C42 shows why).')
NOTE['C27']=('proved','supply_grows_only_by_wrap: any unwrapped mint. supply_growth_is_escrowed: no permanent delegate on the unwrapped mint in the states of the history.')
NOTE['C29']=('proved','pairs_isolated: any unwrapped mint. pairs_isolated_escrow: no permanent delegate on the unwrapped mint in the states of the history.')

T.update({'C66':['creation_never_blocked','creation_idempotent_always','escrow_never_blocked','wrap_never_blocked','repair_never_blocked','pointer_never_blocked','sync22_never_blocked','syncSpl_never_blocked'],
'C67':['metadata_changes_only_by_sync','metadata_has_a_source']})
NOTE['C66']=('proved','World model. wrap_never_blocked: unwrapped mint without hooks, pause, confidential or permanent-delegate extension (PlainMint). syncSpl_never_blocked: Metaplex itself is arbitrary, so the state of the Metaplex account is a hypothesis.')
T['C35']=T['C35']+['sync22_equals_source_always']

T['C42']=['permanent_delegate_breaks_backing','permanent_delegate_history']
T['C15']=['always_backed','always_backed_stable','always_backed_plain']
T['C18']=['always_redeemable','always_redeemable_plain']
NOTE['C15']=('proved','always_backed: any unwrapped mint, as long as no permanent delegate approves a step (PDIdle). always_backed_plain: no condition on the history at all, if the unwrapped mint starts without permanent delegate and close authority. Transfer hooks running arbitrary other instructions in the middle of Wrap are part of the histories.')
NOTE['C17']=('proved','claims_within_supply: any unwrapped mint. all_claims_covered: no permanent delegate of the unwrapped mint acts in the history (C42 shows why).')
NOTE['C27']=('proved','supply_grows_only_by_wrap: any unwrapped mint and history. supply_growth_is_escrowed: any history; no permanent delegate acts in the step itself.')
NOTE['C29']=('proved','pairs_isolated: any unwrapped mint. pairs_isolated_escrow: any history; no permanent delegate of the unwrapped mint acts in the step itself.')
NOTE['C18']=('proved','always_redeemable: unwrapped mint without close authority, no permanent delegate has acted. always_redeemable_plain: any history for a mint that starts without both. Funded token accounts at the start (Funds, in Fresh); that a wrapped-SOL escrow always has the lamports is then proved (C65).')
NOTE['C66']=('proved','World model. wrap_never_blocked: unwrapped mint without close authority, no permanent delegate has acted, token program does not veto. syncSpl_never_blocked: Metaplex itself is arbitrary, so the state of the Metaplex account is a hypothesis.')
NOTE['C42']=('proved','Negative result, by explicit witnesses (existential statements).')

T.update({'C68':['token_wrap_conserves','tokens_conserved','escrowed_within_unwrapped_supply','wrapped_within_unwrapped_supply','unwrapped_mint_outlives_wrapped'],
'C69':['wrapped_supply_exact','all_holders_covered','wrapped_supply_zero_iff'],
'C70':['unwrapped_mint_stays_while_escrowed','decimals_can_diverge'],
'C71':['token_wrap_keeps_mints','token_wrap_keeps_unwrapped_mints']})
NOTE['C68']=('proved','Conserved u L: the tokens of mint u in all accounts of both token programs add up to the supply (a finite set of addresses carries them all). Native SOL is excluded: its mint shows supply 0; C65 covers it.')
NOTE['C69']=('proved','From a state in which nothing of the pair exists and no token account of either token program names the wrapped mint.')
NOTE['C70']=('proved','First part for all histories; second part is an existence statement with an explicit history.')
T['C66']=T['C66']+['wrap_never_blocked_room']

T['C72']=['token2022_copy_ok','token2022_copy_total','token2022_copy_rejects','IsToken2022Copy.unique','IsToken2022Copy.nodup','mem_extractAdditional','fee_text_iff']
T['C41']=T['C41']+['conversion_fee','conversion_bad_fee']
NOTE['C72']=('proved','The JSON texts themselves are environment functions (Env.json*); their concrete format for creators, collection and uses is in Serde.lean (C40).')

T['C62']=T['C62']+['js_wrap_plain_address_message','js_wrap_plain_payer']
T['C73']=['more_privileges_change_nothing']
T['C74']=['message_signer_iff','message_runs_instructions','cli_wrap_message_effect','cli_unwrap_message_effect','cli_wrap_message_succeeds']
T['C75']=['transaction_wrap_authorised','transaction_unwrap_authorised','transaction_pointer_authorised']
T['C76']=['js_multisig_wrap_message','js_multisig_unwrap_message','js_offline_complete','js_offline_incomplete','js_multisig_wrap_end_to_end']
NOTE['C74']=('proved','Message compilation and the demotion of writable flags are external and modelled in Message.lean; fees, blockhashes and size limits are not.')
NOTE['C76']=('proved','Message encoding and signing are arbitrary functions.')

T['C74']=T['C74']+['cli_unwrap_message_succeeds']
T['C76']=T['C76']+['js_multisig_unwrap_end_to_end']
T['C77']=['cli_sync22_transaction','cli_sync22_effect','cli_sync22_message_succeeds','cli_syncSpl_transaction','cli_syncSpl_effect','cli_syncSpl_succeeds','cli_syncSpl_owner_only','cli_syncSpl_no_arguments']

T['C78']=['createMint_succeeds_iff','wrap_succeeds_iff','unwrap_succeeds_iff','close_succeeds_iff','pointer_succeeds_iff','sync22_succeeds_iff','syncSpl_succeeds_iff','wrap_members_need_multisig','unwrap_needs_thawed_escrow']
NOTE['C78']=('proved','Under stated ordinary circumstances: no extra veto of the token program, the authority address carries no data, source and escrow (escrow and recipient) differ, a multisig authority belongs to the program asked and has a threshold of at least one; for the syncs, Metaplex and the token program do not veto the data (lengths, rent).')

T['C79']=['idl_well_known_addresses','idl_pdas','idl_builders_agree','idl_sync_builders','idl_required','js_builders_follow_idl','js_parser_follows_idl','idl_reads_what_runs','idl_errors','idl_backpointer_account']
NOTE['C79']=('proved','idl.json is transcribed as data in Idl.lean; the meaning of Codama nodes (build, parse, PdaNode.address) is trusted.')

T['C80']=['cli_run_no_effect','cli_run_executed','cli_wrap_run','cli_unwrap_run','cli_create_mint_run','cli_create_escrow_run','cli_close_run','cli_sync22_run','cli_syncSpl_run','cli_dry_run_blind','cli_dry_run_always_succeeds']
NOTE['C80']=('proved','The signature scheme is an arbitrary structure Wire, the RPC node a Cluster; fees and duplicate detection are left out.')
T['C81']=['signer_line_round_trip','signer_line_injective','cli_wrap_sign_only','cli_unwrap_sign_only','cli_wrap_sign_only_report','cli_unwrap_sign_only_report','cli_wrap_offline','cli_unwrap_offline','cli_wrap_missing_signature','cli_unwrap_missing_signature','cli_wrap_sign_only_offline','cli_unwrap_sign_only_needs_chain']
NOTE['C81']=('proved','Partial signing and return_signers_data are external and modelled in CliRun.lean.')

T['C82']=['tokens_stay','wrapped_tokens_stay']
NOTE['C82']=('proved','Approval is by signature, by a multisig of the token program, or (for Token Wrap instructions) by an authority PDA, so accounts owned by the authority PDAs of Token Wrap are covered by C15-C17, C28 instead.')
T['C83']=['freeze_authority_stays','frozen_only_by_freezer','never_frozen','never_frozen_without_freezer']
T['C84']=['frozen_tokens_inert']

T['C85']=['changes_only_writable_accounts','depends_only_on_named_accounts']
NOTE['C85']=('proved','OnlySees: the programs called see only accounts of the calling instruction (runtime).')
T['C86']=['outcome_unaffected','transactions_commute','parallel_eq_sequential','batch_outcome','schedule_irrelevant']
NOTE['C86']=('proved','Transactions are lists of Token Wrap calls (runCalls, as in C45); fees are not modelled.')

T['C87']=['single_signer_example_works','multisig_example_works','single_signer_example_fails_with_fee']
NOTE['C87']=('proved','Scripts modelled in JsExample.lean. Not modelled: connection, blockhash, transaction fees, the payer paying the rent of the escrow ATA.')

T['C88']=['sync_to_token2022_example_works','sync_to_spl_example_works','sync_to_spl_example_fails_elsewhere']
NOTE['C88']=('proved','Scripts modelled in JsExample.lean.')

T['C89']=['wrap_post_state','unwrap_post_state','wrap_runs_to','unwrap_runs_to','takenFrom_allowance']
NOTE['C89']=('proved','The whole ledger after Wrap and Unwrap in closed form; specification functions takenFrom, receivedBy, nativeLamports, ledgerAfterWrap, ledgerAfterUnwrap in Props/PostState.lean.')
T['C90']=['users_do_not_disturb','users_any_order']
NOTE['C90']=('proved','Batches of any length and any permutation; hypotheses bundled in Batch, shown to be met by a wrap and an unwrap of two users.')
T['C91']=['isFee_subadditive','isFee_split_cost','isFee_net_monotone','splitting_a_wrap_never_gains','splitting_a_wrap_without_fee','splitting_an_unwrap_never_gains']
NOTE['C91']=('proved','Fee level and instruction level, for any list of pieces.')

T['C92']=['unwrapped_within_wrapped','credited_total_exists','unwrapped_within_credited','books_balance','nothing_from_nothing']
NOTE['C92']=('proved','Sums over the trace; Act.wraps / Act.unwraps read the instruction data and the named wrapped mint only; HistoryCrediting sums amount less the fee of the unwrapped mint at the start of each Wrap (Credits).')

T['C93']=['js_token_account_created','js_token_account_fails','js_token_account_for_wrapped']
NOTE['C93']=('proved','Account sizes are computed from the extensions (tokenAccountLen, roomFor).')

T['C94']=['cli_walkthrough_works','createMint_run_ok','createEscrow_run_ok','createEscrow_run_there','wrap_run_ok','unwrap_run_ok']
NOTE['C94']=('proved','Each command is a whole run (Command.run of CliRun.lean): resolving, building, signing, sending, output. The associated token account is created by another tool (ataCreatePaid).')

T['C95']=['wrap_rent_ok','unwrap_rent_ok','createMint_rent_ok','pointer_rent_ok','close_rent_ok']
NOTE['C95']=('proved','The runtime rule is RentState::transition_allowed, modelled in Rent.lean (RentOk).')
T['C96']=['sync22_size','sync22_rent_iff','sync22_settle','sync22_right_after_create_refused','sync22_funded_works','create_mint_leaves_minimum','create_then_sync_refused','cli_create_then_sync_refused']
NOTE['C96']=('proved','Source metadata without duplicate keys in the additional metadata; OneMetadata: the mint has at most one metadata extension.')
T['C97']=['syncSpl_rent_iff','syncSpl_update_rent_ok']
NOTE['C97']=('proved','Assumes that Metaplex leaves the account it creates rent exempt (hmpl).')

T['C98']=['lamports_conserved','lamports_conserved_named','client_lamports_conserved']
NOTE['C98']=('proved','Transaction fees are not modelled. PayersAreOthers: the payer of an associated token account is not that account.')

T['C99']=['Layout.mint_bytes','Layout.token_bytes','Layout.never_both','Layout.parse_bytes','Layout.good_state_bytes','Layout.mint_has_bytes','Layout.token_has_bytes']
NOTE['C99']=('proved','The layouts (namespace Layout) are those of spl-token-2022-interface, external to /repo. Metaplex contents are read as InvalidAccountData by the token parsers (simplification).')

T['C100']=['CliText.display_shows','CliText.shows_unique','CliText.json_reads_back','CliText.printed_result','CliText.output_words']
NOTE['C100']=('proved','JSON is modelled as a value; its text (serde_json) and the printing of CliSignOnlyData (solana-cli-output) are external; colours are left out.')

T['C101']=['MplLayout.metaplex_bytes','MplLayout.metaplex_old_bytes','MplLayout.metaplex_only_bytes','MplLayout.metaplex_discriminator','MplLayout.conversion_bytes','MplLayout.bytes_injective']
NOTE['C101']=('proved','The reader is safe_deserialize of mpl-token-metadata (external), modelled in MplLayout.lean.')
T['C102']=['CliMain.main_one_chain','CliMain.main_no_effect','CliMain.named_config_must_load','CliMain.default_config_optional','CliMain.flags_override_files','CliMain.default_payer_is_here','CliMain.absent_payer_no_effect','CliMain.main_prints','CliMain.bad_output_refused']
NOTE['C102']=('proved','Loading of configuration files and signers (solana-cli-config, solana-clap-v3-utils) is a parameter.')
T['C96'].insert(2,'sync22_rent_any')

T['C103']=['CliArgs.'+x for x in ['amount_word','amount_too_big','amount_text','address_word','words_no_effect','words_need_blockhash','bad_words_refused','wrap_words_run','unwrap_words_run','run_of_words','command_has_words','absent_authority_no_effect']]
NOTE['C103']=('proved','Which word belongs to which argument (clap) and the loading of key files are external; the number parser of core is modelled.')

T['C50']=T['C50']+['wrap_accounts_derived','unwrap_accounts_derived','close_only_stuck']

T['C104']=['wrapped_mint_birth','decimals_snapshot','freeze_snapshot','no_freeze_snapshot','freeze_authorities_can_diverge']
NOTE['C104']=('proved','')

T['C103'].append('CliArgs.moniker_word')

T['C105']=['error_code_names_fault','codes_of_instruction','unused_codes','createMint_code_names_fault','log_line_names_error','log_line_names_fault','js_recognises_own_error','js_attribution','overdrawn_wrap_reports_backpointer']
NOTE['C105']=('proved','')

T['C106']=['shipped_safe','buildHistory_default','build_always_backed','build_claims_covered','build_surplus_never_decreases','build_supply_grows_only_by_wrap','build_escrow_shrinks_only_by_unwrap','build_backpointer_integrity','build_mint_permanent','build_backed_by_one_escrow','build_backed_plain','build_redeemable','close_authority_kills_pair']
NOTE['C106']=('proved','')

T['C107']=['backpointer_unforgeable','js_discovery','js_discovery_strict','js_fetch_all','js_fetch_by_address_unchecked','Genuine.unique','Genuine.pair']
NOTE['C107']=('proved','')

T['C108']=['wrapped_wrapping_backed','tower_supply','tower_backed','tower_backed_plain','wrapped_wrap_exact','wrapped_unwrap_exact','upper_backed','upper_redeemable','redeemable_to_the_bottom','redeemable_from_any_height']
NOTE['C108']=('proved','')

T['C109']=['never_freezer_unwrapped','never_freezer_wrapped','never_frozen_wrapped','never_freezer_tower','never_frozen_tower','redeemable_without_freezer']
NOTE['C109']=('proved','')

T['C110']=['metadata_climbs','sync_layer','layer_source','no_metadata_to_climb']
NOTE['C110']=('proved','')
