{"id": "C01", "title": "Instruction encoding round-trips", "statement": "Unpacking the packed bytes of any TokenWrapInstruction returns that same instruction.", "quantifier": "every instruction variant, every u64 amount, every bool, every 32-byte program id", "why_tests_cant": "2^64 amounts and 2^256 keys; a test samples a handful of literals", "anchors": ["program/src/instruction.rs: TokenWrapInstruction::pack", "program/src/instruction.rs: TokenWrapInstruction::unpack"]}
{"id": "C02", "title": "Instruction encoding is canonical and strict", "statement": "If unpack accepts a byte string then that byte string is exactly the packing of the instruction returned (no trailing bytes, no second encoding, bool only 0/1); every other byte string is rejected with InvalidInstructionData.", "quantifier": "every byte string of every length", "why_tests_cant": "The set of byte strings is unbounded: a test feeds a handful of buffers, while strictness says that every other string, of any length, is refused.", "anchors": ["program/src/instruction.rs: TokenWrapInstruction::unpack"]}
{"id": "C03", "title": "Error codes are a stable bijection", "statement": "TokenWrapError maps to Custom(code) with distinct codes, converting the code back yields the same error, and every code with no error maps to InvalidArgument.", "quantifier": "every error variant, every u32", "why_tests_cant": "Tests compare a few codes; the claim is that none of the 2^32 codes decodes to a wrong variant and that no two variants collide.", "anchors": ["program/src/error.rs: TokenWrapError", "program/src/error.rs: TryFrom<u32>"]}
{"id": "C04", "title": "Program-derived addresses never share a preimage", "statement": "The byte strings hashed to derive a wrapped mint, an authority, a backpointer and a canonical pointer are injective in their arguments (mint, token program, bump) and no string of one kind equals a string of another kind: two equal addresses of this program imply a SHA-256 collision or the same inputs.", "quantifier": "all pairs of mints, token programs, wrapped mints and bumps, all hash functions", "why_tests_cant": "Separation of seeds is a claim about all pairs of 32-byte keys and bumps and has to hold for whatever the hash function does.", "anchors": ["program/src/lib.rs: get_wrapped_mint_seeds", "program/src/lib.rs: get_wrapped_mint_authority_seeds", "program/src/lib.rs: get_wrapped_mint_backpointer_address_seeds", "program/src/lib.rs: get_canonical_pointer_address_signer_seeds"]}
{"id": "C05", "title": "The program can sign for exactly the address it validated", "statement": "For each PDA kind, the signer seeds with the bump found during validation re-derive the very address that was validated, so invoke_signed authorises that address and no other.", "quantifier": "all keys, all hash functions and curve predicates for which a bump exists", "why_tests_cant": "Whether a bump exists and which address it gives depends on the hash of every key; a test only sees the keys it picked.", "anchors": ["program/src/lib.rs: get_wrapped_mint_signer_seeds", "program/src/lib.rs: get_wrapped_mint_authority_signer_seeds", "program/src/lib.rs: get_wrapped_mint_backpointer_address_signer_seeds", "program/src/lib.rs: get_canonical_pointer_address_signer_seeds", "program/src/processor.rs: process_wrap"]}
{"id": "C06", "title": "Instruction builders and processors agree on accounts", "statement": "For each of the seven instructions, the processor given the account list produced by the public builder assigns each account the role it had in the builder's arguments, the encoded data decodes to the intended instruction, and the builder grants every privilege (writable/signer) that the processor's CPIs need.", "quantifier": "all builder arguments, any number of multisig signers", "why_tests_cant": "Builders and processors are tested on one set of distinct keys; agreement must hold for arbitrary keys, aliased ones included, and arbitrarily many multisig signers.", "anchors": ["program/src/instruction.rs: create_mint", "program/src/instruction.rs: wrap", "program/src/instruction.rs: unwrap", "program/src/instruction.rs: close_stuck_escrow", "program/src/instruction.rs: sync_metadata_to_token_2022", "program/src/instruction.rs: sync_metadata_to_spl_token", "program/src/instruction.rs: set_canonical_pointer", "program/src/processor.rs: process_instruction"]}
{"id": "C07", "title": "Zero amounts are rejected", "statement": "Wrap and Unwrap with amount 0 fail with ZeroWrapAmount whatever accounts are passed and whatever the chain state is.", "quantifier": "every account list, every state", "why_tests_cant": "A test calls with one account list in one state; the refusal must not depend on any account or state.", "anchors": ["program/src/processor.rs: process_wrap", "program/src/processor.rs: process_unwrap"]}
{"id": "C08", "title": "Wrap credits exactly what the escrow received", "statement": "A successful Wrap of amount a with transfer fee f debits the source by a, credits the escrow by a-f, credits the recipient's wrapped balance by a-f and increases the wrapped supply by a-f (source distinct from the escrow).", "quantifier": "every state, account list, amount, fee configuration and epoch", "why_tests_cant": "Ranges over all u64 amounts, fee schedules and epochs and over aliased accounts (recipient, escrow and sender in any combination), which no finite table covers.", "anchors": ["program/src/processor.rs: process_wrap"]}
{"id": "C09", "title": "Wrap only succeeds on the derived accounts", "statement": "A successful Wrap was given the wrapped mint derived from (unwrapped mint, wrapped token program), the authority derived from that mint, the escrow ATA derived from (authority, unwrapped mint, unwrapped token program) and an escrow owned by that authority; otherwise it fails with WrappedMintMismatch, MintAuthorityMismatch, EscrowMismatch or EscrowOwnerMismatch respectively and, as for any failure, the state is unchanged.", "quantifier": "every account list and state", "why_tests_cant": "The caller chooses every account; a test substitutes a few wrong ones, the claim is that no substitution at all succeeds.", "anchors": ["program/src/processor.rs: process_wrap"]}
{"id": "C10", "title": "Wrap requires the token holder's authorisation", "statement": "A successful Wrap implies that the source's owner, its delegate with sufficient allowance, or the mint's permanent delegate was the transfer authority and signed (or, for a multisig, at least m of its members signed).", "quantifier": "every state, account list and signer set", "why_tests_cant": "Tests omit one signature; the claim is about every set of signers, delegates and multisig thresholds, with accounts chosen by an attacker.", "anchors": ["program/src/processor.rs: process_wrap"]}
{"id": "C11", "title": "Unwrap burns and pays one-for-one", "statement": "A successful Unwrap of amount a debits the holder's wrapped balance and the wrapped supply by a, debits the escrow by a and credits the recipient with a minus the unwrapped mint's transfer fee (recipient distinct from the escrow).", "quantifier": "every state, account list, amount, fee configuration and epoch", "why_tests_cant": "Ranges over all u64 amounts, fee schedules and epochs and over aliased accounts, which no finite table covers.", "anchors": ["program/src/processor.rs: process_unwrap"]}
{"id": "C12", "title": "Unwrap only succeeds on the derived accounts", "statement": "A successful Unwrap was given the derived wrapped mint, authority and escrow; otherwise it fails with the corresponding mismatch error.", "quantifier": "every account list and state", "why_tests_cant": "The caller chooses every account; a test substitutes a few wrong ones, the claim is that no substitution at all succeeds.", "anchors": ["program/src/processor.rs: process_unwrap"]}
{"id": "C13", "title": "Unwrap requires the wrapped-token holder's authorisation", "statement": "A successful Unwrap implies that the wrapped token account's owner, delegate (with allowance) or the wrapped mint's permanent delegate was the transfer authority and signed, or m multisig members did - with one exception, inherited from the token programs: accounts owned by the system program or the incinerator, from which anyone may burn (C51).", "quantifier": "every state, account list and signer set", "why_tests_cant": "Tests omit one signature; the claim is about every set of signers, delegates and multisig thresholds, with accounts chosen by an attacker.", "anchors": ["program/src/processor.rs: process_unwrap"]}
{"id": "C14", "title": "Wrap and Unwrap touch nothing else", "statement": "A successful Wrap changes only the source, escrow, recipient and wrapped-mint accounts; a successful Unwrap only the holder, wrapped mint, escrow and recipient accounts; and in the mint only the supply changes.", "quantifier": "every state, account list, amount", "why_tests_cant": "A frame property: a test looks at the accounts it knows, the claim is about every other account of the ledger.", "anchors": ["program/src/processor.rs: process_wrap", "program/src/processor.rs: process_unwrap"]}
{"id": "C15", "title": "Full backing in every history", "statement": "Starting from a state in which the wrapped mint and its escrows do not exist, after any sequence of Token Wrap instructions (with any accounts) interleaved with any token-program, system, ATA and other-program transactions not signed by Token Wrap PDAs, wrapped supply <= escrowed unwrapped tokens, provided no permanent delegate of the unwrapped mint approves any of these transactions (in particular if there is none).", "quantifier": "every finite history of transactions with arbitrary accounts, amounts, fees, epochs", "why_tests_cant": "An invariant of unbounded histories in which anybody interleaves Token Wrap with direct calls of the token programs; tests replay a few short schedules.", "anchors": ["program/src/processor.rs: process_wrap", "program/src/processor.rs: process_unwrap", "program/src/processor.rs: process_close_stuck_escrow", "README.md"]}
{"id": "C16", "title": "Escrow surplus never decreases", "statement": "In every history, (escrowed tokens - wrapped supply) never decreases in a step that a permanent delegate of the unwrapped mint does not approve: nobody else can extract value from other holders.", "quantifier": "every step of every history", "why_tests_cant": "It must hold for each step of every interleaving, including donations, hooks and direct token-program calls that no test schedules.", "anchors": ["program/src/processor.rs: process_wrap", "program/src/processor.rs: process_unwrap"]}
{"id": "C17", "title": "Every holder's claim is covered at once", "statement": "In every history, whatever the unwrapped mint, the sum of wrapped balances over any finite set of accounts is at most the wrapped supply; hence, as long as no permanent delegate of the unwrapped mint acts, at most the escrowed tokens.", "quantifier": "every finite set of accounts, every history", "why_tests_cant": "A sum over an arbitrary finite set of holders at any point of any history; tests have one or two holders.", "anchors": ["program/src/processor.rs: process_wrap", "program/src/processor.rs: process_unwrap"]}
{"id": "C18", "title": "Wrapped tokens are always redeemable", "statement": "In any reachable state (no permanent delegate of the unwrapped mint has acted, and the mint has no close authority), a holder who signs can unwrap any positive part of an unfrozen wrapped balance into an unfrozen account of the unwrapped mint; the program itself never blocks it (escrow not frozen, token program does not veto, no overflow in recipient).", "quantifier": "every reachable state, every holder of wrapped tokens and every amount held", "why_tests_cant": "A liveness claim about every reachable state and every holder: a test shows that one state can be left, not that none is a trap.", "anchors": ["program/src/processor.rs: process_unwrap"]}
{"id": "C19", "title": "Wrap then Unwrap returns the tokens", "statement": "Wrapping a and unwrapping the minted amount restores escrow, supply and wrapped balances, and the user's unwrapped balance differs only by the transfer fees of the two transfers (not at all with no fee).", "quantifier": "all states, amounts, fee configurations", "why_tests_cant": "Ranges over all states, amounts and fee schedules, including the rounding of fees at each of 2^64 amounts.", "anchors": ["program/src/processor.rs: process_wrap", "program/src/processor.rs: process_unwrap"]}
{"id": "C20", "title": "Fee computation is exact and bounded", "statement": "The fee subtracted is ceil(amount*bps/10000) capped by the maximum fee, 0 for zero bps, selected by the epoch; with bps <= 10000 it never exceeds the amount, so net+fee=amount and the subtraction never fails.", "quantifier": "all u64 amounts, configs, epochs", "why_tests_cant": "2^64 amounts times all fee configurations and epochs; rounding boundaries are exactly where samples miss.", "anchors": ["program/src/processor.rs: process_wrap"]}
{"id": "C21", "title": "CreateMint produces the promised mint and backpointer", "statement": "A successful CreateMint on empty accounts leaves a mint owned by the chosen token program with supply 0, the unwrapped mint's decimals and freeze authority, mint authority = the authority PDA, the default Token-2022 extensions exactly when Token-2022 is chosen, and a 32-byte backpointer owned by the program holding the unwrapped mint's address.", "quantifier": "every state, unwrapped mint, wrapped token program and customizer", "why_tests_cant": "Ranges over all prior states of the addresses and all mints and token programs, not the freshly created ones of a test.", "anchors": ["program/src/processor.rs: process_create_mint", "program/src/mint_customizer/default_token_2022.rs", "program/src/state.rs: Backpointer"]}
{"id": "C22", "title": "CreateMint never overwrites", "statement": "If the wrapped mint or backpointer account already has data, CreateMint changes nothing, whether it returns Ok (idempotent) or an error.", "quantifier": "every state and account list", "why_tests_cant": "The claim is that no state and no account list makes it overwrite; tests try one existing mint.", "anchors": ["program/src/processor.rs: process_create_mint"]}
{"id": "C23", "title": "CreateMint is idempotent exactly on request", "statement": "After a successful CreateMint, repeating it with idempotent=true succeeds and changes nothing, with idempotent=false fails with AccountAlreadyInitialized.", "quantifier": "every state that follows a successful CreateMint", "why_tests_cant": "Ranges over every state a successful CreateMint may be followed by, however much later.", "anchors": ["program/src/processor.rs: process_create_mint"]}
{"id": "C24", "title": "CreateMint validates addresses and owner", "statement": "A successful CreateMint was given the derived wrapped mint and backpointer addresses and an unwrapped mint owned by SPL Token or Token-2022, and both accounts were rent-exempt funded; otherwise WrappedMintMismatch, BackpointerMismatch, InvalidAccountOwner or AccountNotRentExempt.", "quantifier": "every account list and state", "why_tests_cant": "The caller chooses every account; a test substitutes a few wrong ones, the claim is that no substitution at all succeeds.", "anchors": ["program/src/processor.rs: process_create_mint"]}
{"id": "C25", "title": "Backpointer integrity in every history", "statement": "In every history, the wrapped mint exists iff its backpointer exists, and an existing backpointer is owned by Token Wrap and holds exactly the address of the unwrapped mint from which the wrapped mint address is derived.", "quantifier": "every history of instructions of all modelled programs by anybody, every pair", "why_tests_cant": "An invariant of unbounded interleavings of all programs' instructions by anybody.", "anchors": ["program/src/processor.rs: process_create_mint", "program/src/state.rs: Backpointer"]}
{"id": "C26", "title": "Wrapped mint parameters are permanent", "statement": "Once created, in every history the wrapped mint keeps its decimals, its mint authority (the PDA), its owner program, its immutable confidential-transfer settings and self-pointing metadata pointer.", "quantifier": "every history of instructions of all modelled programs by anybody, every pair", "why_tests_cant": "An invariant of unbounded interleavings, including direct calls of the token program with any authority; tests try a few SetAuthority calls.", "anchors": ["program/src/processor.rs: process_create_mint", "program/src/mint_customizer/default_token_2022.rs"]}
{"id": "C27", "title": "Supply grows only through Wrap", "statement": "In every history step that increases a wrapped mint's supply, the step is a Wrap instruction naming that wrapped mint and the increase is at most its amount, whatever the unwrapped mint; if no permanent delegate of the unwrapped mint acts in that step, the escrow received at least the increase in that same step (even when a transfer hook runs other instructions in between).", "quantifier": "every step of every history", "why_tests_cant": "It must hold for each step of every interleaving, including direct Mint and Burn calls by anybody.", "anchors": ["program/src/processor.rs: process_wrap"]}
{"id": "C28", "title": "Escrow shrinks only through Unwrap", "statement": "In every history, a step that decreases an escrow's balance either is approved by a permanent delegate of the unwrapped mint or is an Unwrap naming that wrapped mint; the Unwrap takes exactly its amount and burns exactly as many wrapped tokens.", "quantifier": "every step of every history", "why_tests_cant": "It must hold for each step of every interleaving, including delegates, close authorities and direct token-program calls.", "anchors": ["program/src/processor.rs: process_unwrap", "program/src/processor.rs: process_close_stuck_escrow"]}
{"id": "C29", "title": "Different wrapped mints are isolated", "statement": "In every history, a Token Wrap instruction that names another wrapped mint (or none) never changes this pair's wrapped mint account (supply, authority, ...) or backpointer, and (unless a permanent delegate of the unwrapped mint approves it) never takes tokens out of this pair's escrow; the escrow can only receive tokens.", "quantifier": "all pairs, all instructions and account lists naming another wrapped mint, every history", "why_tests_cant": "All aliasing patterns of two pairs in one account list, over unbounded histories.", "anchors": ["program/src/processor.rs: process_wrap", "program/src/processor.rs: process_unwrap"]}
{"id": "C30", "title": "CloseStuckEscrow closes only a stuck, empty escrow", "statement": "Success implies Token-2022 escrow and mint, the derived addresses, zero balance, not frozen, and an extension set different from what the mint requires; the destination receives all lamports, the escrow account ceases to exist and nothing else changes. Otherwise the documented error.", "quantifier": "every state and account list", "why_tests_cant": "Ranges over every state of the escrow (balance, extensions, owner) and every account list.", "anchors": ["program/src/processor.rs: process_close_stuck_escrow"]}
{"id": "C31", "title": "Good-state test is set equality", "statement": "EscrowInGoodState is returned iff the escrow's extension set equals the mint-required set plus ImmutableOwner; in particular a freshly created ATA is always in good state and can not be closed.", "quantifier": "all extension lists of mint and account", "why_tests_cant": "All combinations of extensions of mint and account, in any order and with duplicates.", "anchors": ["program/src/processor.rs: process_close_stuck_escrow"]}
{"id": "C32", "title": "A stuck escrow can always be repaired", "statement": "An empty unfrozen escrow whose extensions differ from the mint's requirements can be closed by anyone, and after re-creating the ATA it is in good state and accepts deposits with fees.", "quantifier": "all states with a stuck, empty escrow and all destinations", "why_tests_cant": "A liveness claim about every stuck state, not the one a test builds.", "anchors": ["program/src/processor.rs: process_close_stuck_escrow"]}
{"id": "C33", "title": "Only the mint authority sets the canonical pointer", "statement": "A successful SetCanonicalPointer was signed by the unwrapped mint's current mint authority, given the derived pointer address; errors otherwise as documented; the pointer then holds the given program id and no other account data changes.", "quantifier": "every state and account list", "why_tests_cant": "The caller chooses the accounts and signers; the claim is that no choice lets anybody else write the pointer.", "anchors": ["program/src/processor.rs: process_set_canonical_pointer", "program/src/state.rs: CanonicalDeploymentPointer"]}
{"id": "C34", "title": "Canonical pointer holds the last authorised write", "statement": "In every history the pointer account of a mint is either absent or holds the program id of the most recent successful SetCanonicalPointer for that mint; no other transaction changes it.", "quantifier": "every history of instructions of all modelled programs by anybody, every mint", "why_tests_cant": "An invariant of unbounded interleavings of writes for this and other mints.", "anchors": ["program/src/processor.rs: process_set_canonical_pointer"]}
{"id": "C35", "title": "Metadata sync to Token-2022 equals the source", "statement": "After a successful SyncMetadataToToken2022, the wrapped mint's name, symbol and uri equal the source's, and its additional fields are, as a key-value map, exactly the source's (last value for duplicate keys), whether it was initialised or updated, and whatever the hash-map iteration order.", "quantifier": "every source and previous metadata, every iteration order", "why_tests_cant": "Ranges over unbounded lists of strings in source and target and over every iteration order of a hash map, which a test run fixes.", "anchors": ["program/src/processor.rs: process_sync_metadata_to_token_2022", "program/src/processor.rs: update_fields_if_changed"]}
{"id": "C36", "title": "Metadata sync cannot change anything else", "statement": "SyncMetadataToToken2022 changes only the wrapped mint's metadata extension: supply, decimals, authorities and the metadata's mint and update authority (once initialised) stay; initialisation sets the update authority to the authority PDA.", "quantifier": "every state, source and account list", "why_tests_cant": "A frame property over every other field and account; tests compare the fields they name.", "anchors": ["program/src/processor.rs: process_sync_metadata_to_token_2022"]}
{"id": "C37", "title": "Metadata sync is idempotent", "statement": "A second successful sync of the same wrapped mint, by anybody, from a source that says the same leaves the ledger as the first one left it, whatever the source's list of fields looks like; if the source names no key twice, the repetition is sure to succeed.", "quantifier": "every state, source (duplicate keys included), pair of account lists and hash orders; every history", "why_tests_cant": "Ranges over unbounded lists of fields, duplicates included, and over the hash orders of both runs.", "anchors": ["program/src/processor.rs: process_sync_metadata_to_token_2022"]}
{"id": "C38", "title": "Metadata source follows the pointer and cannot be spoofed", "statement": "The metadata used is: for SPL Token or a Token-2022 mint without pointer, the Metaplex PDA of the mint (owned by Metaplex); with pointer to self the mint's own metadata; otherwise only the account the pointer names, read by its owner program's format; every other source account is rejected with the documented error.", "quantifier": "every state, every supplied source and owner account", "why_tests_cant": "The attacker supplies the source accounts and programs; tests try a few spoofs, the claim is that there is none.", "anchors": ["program/src/metadata.rs: extract_token_metadata", "program/src/metadata.rs: resolve_token_2022_source_metadata"]}
{"id": "C39", "title": "Metaplex sync writes exactly the converted data", "statement": "After a successful SyncMetadataToSplToken the Metaplex account at the wrapped mint's PDA holds the converted source data; on update primary_sale_happened, is_mutable and update authority are unchanged; on creation update authority is the PDA and it is mutable.", "quantifier": "every state and account list", "why_tests_cant": "Ranges over every prior state of the metadata account, every source and every account list.", "anchors": ["program/src/processor.rs: process_sync_metadata_to_spl_token"]}
{"id": "C40", "title": "Conversion never produces a verified creator", "statement": "token-2022 -> Metaplex and Metaplex -> token-2022 conversions emit only unverified creators, keep name/symbol/uri, and a Metaplex -> Token-2022 -> Metaplex round trip preserves fee, collection, uses and creators up to verification.", "quantifier": "every metadata value", "why_tests_cant": "Ranges over unbounded lists of strings and their JSON contents.", "anchors": ["program/src/metaplex.rs: extract_additional_metadata", "program/src/metaplex.rs: token_2022_metadata_to_metaplex"]}
{"id": "C41", "title": "Malformed conversion fields are rejected", "statement": "If any creators / seller_fee_basis_points / collection / uses value fails to parse, the conversion fails with InvalidAccountData and the sync changes nothing; unknown keys are ignored; for repeated keys the last wins.", "quantifier": "every additional-field list", "why_tests_cant": "Ranges over unbounded lists of fields and every malformed text in them.", "anchors": ["program/src/metaplex.rs: token_2022_metadata_to_metaplex"]}
{"id": "C42", "title": "Permanent delegates void the backing guarantee (negative)", "statement": "If the unwrapped mint has a permanent delegate, that delegate can, in one Wrap whose source is the escrow itself, mint wrapped tokens with no new deposit: the backing property does not hold without the condition on the permanent delegate. There is a history from a fresh state in which the delegate, by a single transfer, leaves the wrapped supply unbacked.", "quantifier": "existence of a concrete history", "why_tests_cant": "Unit tests do not look for counter-examples to guarantees nobody stated; the history bounds what C15 can claim.", "anchors": ["program/src/processor.rs: process_wrap"]}
{"id": "C43", "title": "A positive Wrap may mint zero (boundary)", "statement": "With a transfer fee, a positive amount can yield zero wrapped tokens while the user pays; exactly when amount equals its fee.", "quantifier": "all amounts and fee configs", "why_tests_cant": "The boundary moves with the fee configuration: the claim says for which of the 2^64 amounts and configurations it happens.", "anchors": ["program/src/processor.rs: process_wrap"]}
{"id": "C44", "title": "Permissionless instructions need no signature", "statement": "The outcome of CreateMint, CloseStuckEscrow and both sync instructions does not depend on which non-PDA accounts signed.", "quantifier": "all account lists and signer flags", "why_tests_cant": "Ranges over all signer flags of all account lists; tests use the ones the builder sets.", "anchors": ["program/src/processor.rs: process_create_mint", "program/src/processor.rs: process_close_stuck_escrow", "program/src/processor.rs: process_sync_metadata_to_token_2022"]}
{"id": "C45", "title": "Atomic failure", "statement": "A failing instruction leaves the ledger as it was, even when an intermediate CPI had succeeded (e.g. transfer done, mint fails; burn done, transfer fails).", "quantifier": "every instruction, state, failure point", "why_tests_cant": "Every point of every instruction at which it can fail, with the calls before it already done.", "anchors": ["program/src/processor.rs: process_instruction"]}
{"id": "C46", "title": "No arithmetic overflow in any history", "statement": "Every token amount and supply of the wrapped mint and its escrow stays within u64 in every history.", "quantifier": "every history of instructions of all modelled programs by anybody", "why_tests_cant": "A bound on sums over unbounded histories; tests never come near 2^64.", "anchors": ["program/src/processor.rs: process_wrap", "program/src/processor.rs: process_unwrap"]}
{"id": "C47", "title": "Only the matching PDA ever signs", "statement": "In every instruction the only PDAs signed for are the wrapped mint and backpointer (CreateMint), the authority of the validated wrapped mint (Wrap mint, Unwrap transfer, Close, sync), or the pointer (SetCanonicalPointer); the user's transfer CPI in Wrap and burn CPI in Unwrap carry no PDA signature.", "quantifier": "all account lists, instructions and states", "why_tests_cant": "Ranges over all account lists: the claim is that no choice of accounts makes the program sign for another address.", "anchors": ["program/src/processor.rs: process_wrap", "program/src/processor.rs: process_unwrap"]}
{"id": "C48", "title": "CLI funding satisfies the program's rent checks", "statement": "The lamports the CLI create-mint (and JS createMint) transfers make both rent checks of CreateMint pass, and nothing is transferred when enough is present.", "quantifier": "all balances and rent parameters", "why_tests_cant": "Ranges over all prior balances and all rent parameters the cluster may have.", "anchors": ["clients/cli/src/create_mint.rs", "clients/js/src/create-mint.ts"]}
{"id": "C49", "title": "Customizers set what they promise", "statement": "For each shipped customizer the created Token-2022 mint has exactly its extension set, freeze authority and decimals, and the space requested equals the size of those extensions so initialisation does not fail for size.", "quantifier": "each customizer, every unwrapped mint and state", "why_tests_cant": "Ranges over all unwrapped mints; a test runs each customizer on one.", "anchors": ["program/src/mint_customizer/compliance.rs", "program/src/mint_customizer/no_extensions.rs", "program/src/mint_customizer/default_token_2022.rs"]}
{"id": "C50", "title": "Address helpers agree", "statement": "get_escrow_address equals the escrow that Wrap, Unwrap and CloseStuckEscrow require, and the _for_program variants with the crate id equal the plain ones.", "quantifier": "all mints, token programs and hash functions", "why_tests_cant": "Agreement of several ways to compute an address, for all keys and hash functions.", "anchors": ["program/src/lib.rs: get_escrow_address", "program/src/lib.rs: get_escrow_address_for_program"]}
{"id": "C51", "title": "Wrapped tokens held by nobody can be redeemed by anybody (negative)", "statement": "The authorisation guarantee of Unwrap fails for wrapped token accounts whose owner is the system program or the incinerator: an Unwrap from such an account succeeds although neither its owner nor a delegate signed, and pays the escrowed tokens to the caller.", "quantifier": "existence of a ledger, account list and amount", "why_tests_cant": "A test suite only exercises authorised or rejected holders; the exception comes from a rule of the token programs that no test of this repository covers.", "anchors": ["program/src/processor.rs: process_unwrap"]}
{"id": "C52", "title": "Well-formed Wrap and Unwrap always succeed", "statement": "If the accounts are the derived ones and exist, the transfer authority may spend the amount and signs (or enough multisig members do), nothing is frozen, no balance or supply overflows u64, the fee is representable and the escrow can hold withheld fees, then the Wrap (resp. Unwrap) instruction built by the public builder succeeds unless a token program vetoes it.", "quantifier": "every ledger, pair of token programs, mint extension set, amount, authority kind (owner, delegate, permanent delegate, multisig)", "why_tests_cant": "Absence of spurious failures must hold for every combination of programs, fees, balances and authority kinds.", "anchors": ["program/src/processor.rs: process_wrap, process_unwrap", "program/src/instruction.rs: wrap, unwrap"]}
{"id": "C53", "title": "Decimals agree in every history", "statement": "If the unwrapped mint has no close authority (it may have a permanent delegate), then in every history an existing wrapped mint has the same decimals as the unwrapped mint, so amounts always mean the same.", "quantifier": "every history of instructions of all modelled programs, every pair", "why_tests_cant": "Needs every interleaving of token-program and Token Wrap instructions, including re-initialisation attempts by anybody.", "anchors": ["program/src/processor.rs: process_create_mint", "program/src/mint_customizer/default_token_2022.rs"]}
{"id": "C54", "title": "Trailing accounts that do not sign change nothing", "statement": "Appending any accounts that do not sign to the account list of an instruction that succeeds gives an instruction that succeeds with the same resulting ledger: absent multisig members, hook accounts and placeholders for optional accounts are never mistaken for something else.", "quantifier": "every ledger, instruction, account list and list of appended accounts", "why_tests_cant": "ranges over every account list and every list of appended accounts, for every authority kind", "anchors": ["program/src/processor.rs: process_wrap, process_unwrap (multisig signer extraction)", "program/src/processor.rs: process_sync_metadata_to_token_2022, process_sync_metadata_to_spl_token (optional accounts)", "program/src/processor.rs: process_instruction"]}
{"id": "C55", "title": "CLI wrap sends exactly the wrap it describes", "statement": "The `wrap` command sends one transaction with a single Wrap instruction whose mint, program, recipient, wrapped mint, authority and escrow are the ones given or derived from the source account; it collects a signature slot for exactly the required signers, and is fully signed if every signer is real or presigned. If it later executes, on any state of the chain, the source loses the amount and the recipient gains amount less fee; and if a wrap is possible, the command succeeds with the optional arguments omitted.", "quantifier": "every argument combination, signer kinds (keypair, null signer, presigner), ledger at lookup time and ledger at execution time", "why_tests_cant": "ranges over every combination of optional arguments and signers and every change of the chain between lookup and execution", "anchors": ["clients/cli/src/wrap.rs: command_wrap", "clients/cli/src/common.rs: get_mint_for_token_account, get_account_owner"]}
{"id": "C56", "title": "CLI unwrap sends exactly the unwrap it describes", "statement": "The `unwrap` command resolves wrapped program, unwrapped mint and unwrapped program from the chain, refuses arguments that contradict it, and sends one Unwrap instruction with exactly the required signature slots. If it executes the wrapped account loses the amount and the recipient gains amount less fee; if an unwrap is possible, the command succeeds.", "quantifier": "every argument combination, signer kinds, ledger at lookup time and ledger at execution time", "why_tests_cant": "ranges over every combination of arguments, signers and ledgers", "anchors": ["clients/cli/src/unwrap.rs: command_unwrap, resolve_addresses"]}
{"id": "C57", "title": "CLI escrow creation and recovery work on the program's escrow", "statement": "`create-escrow-account` on an address where nothing exists creates a token account of the unwrapped mint owned by the wrapped mint's authority, with the extensions the mint requires and exactly the rent-exempt minimum for its size, paid by the payer, changing nothing else, after which every otherwise well-formed Wrap succeeds; when the address merely holds lamports the command reports it as existing although no Wrap can use it. `close-stuck-escrow` sends the close for the derived escrow, needs only the payer's signature, and succeeds on every stuck empty escrow.", "quantifier": "every unwrapped mint, token program pair, payer and ledger", "why_tests_cant": "ranges over every mint extension set and every prior state of the escrow address", "anchors": ["clients/cli/src/create_escrow_account.rs: command_create_escrow_account", "clients/cli/src/close_stuck_escrow.rs: command_close_stuck_escrow"]}
{"id": "C58", "title": "CLI metadata source resolution finds what the program accepts", "statement": "Whenever metadata of the unwrapped mint is obtainable with some source account, the source account `sync-metadata-to-token2022` resolves when none is given yields the same metadata, and the command succeeds on a wrapped mint in the state CreateMint leaves; for a mint with an unset metadata pointer it resolves the Metaplex address although the program always answers MetadataPointerUnset.", "quantifier": "every mint, metadata pointer state, and ledger", "why_tests_cant": "ranges over every pointer configuration and metadata content", "anchors": ["clients/cli/src/sync_metadata_to_token2022.rs: resolve_source_metadata_account, command_sync_metadata_to_token2022"]}
{"id": "C59", "title": "CLI find-pdas prints the addresses the program uses", "statement": "The wrapped mint, authority, backpointer and escrow printed for a mint and program are the only ones any successful CreateMint, Wrap or Unwrap of that pair can use.", "quantifier": "every mint, wrapped program, ledger and instruction", "why_tests_cant": "Ranges over every account list the program could accept, for every mint and program.", "anchors": ["clients/cli/src/find_pdas.rs: command_get_pdas"]}
{"id": "C60", "title": "The JavaScript client derives the program's addresses and builds the program's instructions", "statement": "The addresses derived by the JavaScript client are those of the program. Each of its instruction builders produces, account by account and byte by byte, what the Rust builder produces; amounts outside u64 are refused, never truncated; the exported error codes are exactly the program's. Where the JavaScript sync builders put the program itself in place of an omitted optional account, the instruction succeeds with the same result whenever the Rust-built one does.", "quantifier": "every hash function, every combination of addresses and amounts (any integer), every error and code, every ledger", "why_tests_cant": "ranges over all addresses, amounts and ledgers; the repo's JS tests send a few hand-made transactions", "anchors": ["clients/js/src/generated/pdas", "clients/js/src/generated/instructions", "clients/js/src/generated/errors/tokenWrap.ts", "program/src/instruction.rs"]}
{"id": "C61", "title": "The JavaScript parsers show what the program executed", "statement": "Any instruction the program executes successfully is parsed by the JavaScript client to the executed instruction's arguments and accounts in order (an optional account that is the program itself is shown as omitted), except that SetCanonicalPointer is not recognised and a sync whose account list leaves optional accounts out is refused. Parsing is not validation: some data the program refuses is parsed.", "quantifier": "every account list, instruction data, and ledger", "why_tests_cant": "Ranges over all byte strings and account lists; tests parse what the builders produced.", "anchors": ["clients/js/src/generated/programs/tokenWrap.ts: identifyTokenWrapInstruction, parseTokenWrapInstruction", "clients/js/src/generated/instructions"]}
{"id": "C62", "title": "The JavaScript wrap and unwrap helpers move the right tokens", "statement": "The wrap helper builds the same instruction as the CLI does from the same arguments and view of the chain. Whatever happens to the chain before execution: if the wrap succeeds, the source lost the amount and the reported escrow, the reported recipient and the wrapped supply gained it less the transfer fee; if the unwrap succeeds, holder, supply and escrow lost the amount and the recipient gained it less the fee. An unwrap from an account of another mint is refused with WrappedMintMismatch. A transfer authority given as a plain address adds no signature: the instruction with its own flags never succeeds, and a transaction made of it succeeds only if that address is the fee payer (then it does the same as with a signer) or a multisig of which the fee payer is a member.", "quantifier": "every argument record, every chain state when building and every chain state when executing", "why_tests_cant": "Ranges over all states of the chain at both moments: when the transaction is built and when it is executed.", "anchors": ["clients/js/src/wrap.ts: singleSignerWrap, resolveAddrs, buildWrapIx", "clients/js/src/unwrap.ts: singleSignerUnwrap, resolveUnwrapAddrs", "clients/cli/src/wrap.rs: command_wrap"]}
{"id": "C63", "title": "Combining offline signatures loses and invents nothing", "statement": "Combining partially signed transactions succeeds exactly if there is at least one, all carry the same message and every signer of the first signed one of them. The result carries that message, only signatures found in the inputs, one for every key that signed anything, in the signer order of the first transaction; if nobody signed two different ways the result does not depend on the order of the inputs.", "quantifier": "every list of partially signed transactions", "why_tests_cant": "Ranges over all lists of partially signed transactions and all subsets of signers.", "anchors": ["clients/js/src/utilities.ts: combinedMultisigTx, combineSignatures, messageBytesEqual"]}
{"id": "C64", "title": "The JavaScript escrow and backpointer helpers read the chain correctly", "statement": "If nothing exists at the escrow address createEscrowAccount returns the instruction the CLI sends; if the escrow exists both do nothing; if something else with lamports is there the JavaScript helper fails where the CLI reports an existing escrow. In every history, reading the backpointer of a wrapped mint gives the unwrapped mint once the wrapped mint exists, and fails before.", "quantifier": "every ledger; every history of transactions of anybody", "why_tests_cant": "Ranges over all histories that may have produced the accounts that are read.", "anchors": ["clients/js/src/utilities.ts: createEscrowAccount", "clients/js/src/generated/accounts/backpointer.ts: fetchBackpointerFromSeeds", "clients/cli/src/create_escrow_account.rs: command_create_escrow_account"]}
{"id": "C65", "title": "Nothing of a pair is ever garbage-collected, and wrapped SOL stays solvent", "statement": "In every history in which accounts without lamports are removed by the runtime: every token account and mint keeps lamports; the pair's wrapped mint, backpointer and escrows, once they exist, always hold lamports, so removal never erases them; a wrapped-SOL escrow always holds lamports for its reserve plus its whole balance.", "quantifier": "every history, account, pair", "why_tests_cant": "Ranges over all histories of lamport movements of all programs, not only Token Wrap's.", "anchors": ["program/src/processor.rs: process_create_mint, process_close_stuck_escrow", "program/src/state.rs: Backpointer"]}
{"id": "C66", "title": "No history of anybody's actions can block the program's operations", "statement": "In every history: as long as the wrapped mint does not exist, the CLI's creation transaction succeeds for any payer with enough lamports, and once it exists idempotent creation succeeds and changes nothing; the escrow address is either empty, and then anybody can create the escrow there, or holds the genuine escrow without delegate or close authority; a holder of unfrozen unwrapped tokens can wrap them into any unfrozen wrapped account once the escrow exists, is not frozen and has room; an empty stuck escrow can be closed; the mint authority of the unwrapped mint can set the pointer; and the two metadata syncs succeed whenever the source they name is valid.", "quantifier": "every history of the program, the token programs, ATA, Metaplex and System transfers by anybody; every pair, payer, holder, amount and metadata source", "why_tests_cant": "ranges over every earlier sequence of adversarial actions; a test runs from a few prepared states", "anchors": ["program/src/processor.rs: process_create_mint, process_wrap, process_close_stuck_escrow, process_set_canonical_pointer, process_sync_metadata_to_token_2022, process_sync_metadata_to_spl_token", "clients/cli/src/create_mint.rs", "program/src/lib.rs: get_escrow_address"]}
{"id": "C67", "title": "Metadata on the wrapped Token-2022 mint always comes from a sync of a valid source", "statement": "In every history the extensions and metadata of an existing wrapped mint change only by SyncMetadataToToken2022 naming that mint; and whenever the wrapped mint shows metadata, it is exactly the metadata of a valid source as it was when the latest such sync was executed.", "quantifier": "every history, pair and state", "why_tests_cant": "Ranges over every history, including direct calls of the token program's metadata instructions by anybody.", "anchors": ["program/src/processor.rs: process_sync_metadata_to_token_2022", "program/src/mint_customizer/default_token_2022.rs", "program/src/metadata.rs: resolve_token_2022_source_metadata"]}
{"id": "C68", "title": "Token Wrap creates and destroys no unwrapped tokens", "statement": "For every mint except native SOL: if the tokens recorded in all accounts (public and confidential balances, withheld fees) add up to the mint's supply, they still do after any Token Wrap instruction and in every history. Hence the escrows of a pair never hold more than the unwrapped supply, the wrapped supply never exceeds the unwrapped supply (as long as no permanent delegate acts), and while wrapped tokens exist the unwrapped mint exists, with at least that supply.", "quantifier": "every mint, instruction, account list, history and pair", "why_tests_cant": "a sum over all accounts of the chain, in every history; a test looks at the few accounts it made", "anchors": ["program/src/processor.rs: process_wrap, process_unwrap, process_close_stuck_escrow", "program/src/lib.rs: get_escrow_address"]}
{"id": "C69", "title": "The wrapped supply is exactly what all holders have", "statement": "In every history the supply shown by the wrapped mint equals the sum of the wrapped tokens in all accounts (public, confidential, withheld): no wrapped token is lost or counted twice. In particular the supply is 0 exactly if nobody holds a wrapped token; and (as long as no permanent delegate of the unwrapped mint acts) what all holders have together is covered by the escrows.", "quantifier": "every history and pair, with any number of holders", "why_tests_cant": "A sum over an unbounded set of holders in every history; tests have a handful of accounts.", "anchors": ["program/src/processor.rs: process_wrap, process_unwrap"]}
{"id": "C70", "title": "Decimals of the unwrapped mint: fixed while tokens are escrowed, but not for ever", "statement": "While tokens are in the escrow of a pair, no step (without the permanent delegate) removes the unwrapped mint, hands it to another program or changes its decimals, even if it has a close authority. With an empty escrow, however, a mint with a close authority can be closed and re-created with other decimals after the wrapped mint was created: there is a history in which both mints exist with different decimals, and (idempotent) CreateMint does not repair it.", "quantifier": "every history, pair and step for the first part; a history for the second", "why_tests_cant": "the first part is about every history and step; the second needs an interleaving of program, token program and system program that no test has", "anchors": ["program/src/processor.rs: process_create_mint", "program/src/mint_customizer/default_token_2022.rs"]}
{"id": "C71", "title": "Token Wrap never alters a mint except supply and metadata of the wrapped mint", "statement": "No successful Token Wrap instruction, with whatever accounts, removes any existing mint or changes its owning program, its decimals, its mint authority, its freeze authority or any of its extensions other than token metadata: only supply and token metadata can differ. A mint that is not at a wrapped-mint address keeps these too: it is exactly as before.", "quantifier": "every instruction, account list, ledger and mint (unwrapped, wrapped or unrelated)", "why_tests_cant": "Needs all account lists, including aliased and hostile ones, for every mint on the ledger.", "anchors": ["program/src/processor.rs: all process_* functions", "program/src/metadata.rs"]}
{"id": "C72", "title": "The Metaplex to Token-2022 copy is complete and exact", "statement": "Converting Metaplex metadata succeeds exactly on a Metaplex account with key MetadataV1 (InvalidAccountData otherwise). The copy has the unwrapped mint, the same name, symbol and URI, no update authority if the Metaplex update authority is the all-zero key and otherwise that key, and carries exactly these extra pairs, in this order and each at most once: key, seller_fee_basis_points (decimal), primary_sale_happened, is_mutable (true/false), creators (unverified, only if there are any), edition_nonce (decimal), token_standard, collection, uses, collection_details, programmable_config, the optional ones exactly when the Metaplex field is present. In the other direction a fee text is accepted exactly if it is a decimal numeral (optional plus sign, leading zeros allowed) of a number up to 65535.", "quantifier": "all Metaplex metadata contents, all account data, all strings, every JSON printer", "why_tests_cant": "There are 2^7 combinations of optional fields and unboundedly many values and strings; tests convert a handful of full or empty accounts.", "anchors": ["program/src/metaplex.rs: extract_additional_metadata, metaplex_to_token_2022_metadata, token_2022_metadata_to_metaplex"]}
{"id": "C73", "title": "More privileges change nothing", "statement": "An instruction of the program that succeeds, succeeds with the same resulting ledger when any of its accounts carry additional signer or writable flags (with the same signatures after the ninth account, where Wrap and Unwrap look for multisig members).", "quantifier": "all seven instructions, all ledgers, environments, account lists and all ways of adding flags", "why_tests_cant": "There are 4^n flag combinations for n accounts and arbitrary ledgers; tests use exactly the flags of the builders.", "anchors": ["program/src/processor.rs: process_create_mint, process_wrap, process_unwrap, process_close_stuck_escrow, process_sync_metadata_to_token_2022, process_sync_metadata_to_spl_token, process_set_canonical_pointer"]}
{"id": "C74", "title": "Client transactions do what their instructions do", "statement": "In a transaction every key has one signer and one writable flag, united over all instructions. A key carries the signer flag exactly if it is the fee payer or marked as signer by some instruction. A sequence of instructions that works with the flags it asks for works, with the same result, packed into one transaction (if the runtime opens the accounts it writes, and accounts after the ninth sign). The transactions of the CLI commands wrap and unwrap, executed at any later state of the chain, have exactly the balance effects of the operation asked for, and the wrap transaction succeeds in every situation in which the tokens can be wrapped.", "quantifier": "all messages, fee payers, instruction lists, ledgers, sets of keys that the runtime refuses to open for writing", "why_tests_cant": "Message compilation mixes the flags of instructions that have nothing to do with each other; tests only send one-instruction transactions.", "anchors": ["clients/cli/src/wrap.rs: command_wrap", "clients/cli/src/unwrap.rs: command_unwrap", "program/src/processor.rs: process_instruction"]}
{"id": "C75", "title": "No transaction takes tokens without a signature on it", "statement": "In a transaction of any instructions, a Wrap takes tokens from the source only if the transaction carries the signature of the transfer authority, or of m members if that is a multisig, and that authority is, at the moment the Wrap runs, the owner of the source, its delegate with sufficient allowance, or the permanent delegate of the mint. Likewise for the wrapped account of an Unwrap (except accounts that belong to nobody), and the canonical pointer is set only in a transaction signed by the mint authority.", "quantifier": "all transactions (any other instructions before and after), all account lists, ledgers and environments", "why_tests_cant": "A signer flag can leak from any other instruction of the transaction; there are unboundedly many transactions.", "anchors": ["program/src/processor.rs: process_wrap, process_unwrap, process_set_canonical_pointer"]}
{"id": "C76", "title": "The JavaScript offline multisig flow works end to end", "statement": "The multisig wrap and unwrap functions produce a transaction consisting of the Wrap or Unwrap exactly as the Rust builder makes it, requiring the signatures of the fee payer and the listed members and of nobody else. However the signers split up and in whatever order their signed copies arrive: once every required signer has signed some copy, combining yields the transaction with exactly one signature per required signer, their own; as long as one is missing, combining fails with a missing-signatures error. Where the members can wrap the tokens, the resulting transaction succeeds.", "quantifier": "all multisigs, member lists, payers, amounts, ways to divide the signatures over copies, orders of copies, ledgers", "why_tests_cant": "The divisions of n signers over copies are unbounded; the e2e script tries one.", "anchors": ["clients/js/src/wrap.ts: multisigOfflineSignWrap, buildWrapIx", "clients/js/src/unwrap.ts: multisigOfflineSignUnwrap, buildUnwrapTransaction", "clients/js/src/utilities.ts: combinedMultisigTx, combineSignatures, messageBytesEqual"]}
{"id": "C77", "title": "The CLI's metadata commands send exactly the sync they describe", "statement": "`sync-metadata-to-token2022` and `sync-metadata-to-spl-token` send one transaction with a single sync instruction on the wrapped mint, authority and (for SPL Token) Metaplex account derived from the unwrapped mint, signed and paid for by the fee payer alone. If the transaction later succeeds, on any state of the chain, the wrapped mint (or its Metaplex account) shows exactly the metadata of the source account that was given or resolved; and with the right arguments it succeeds whenever the metadata can be synced at all. `sync-metadata-to-spl-token` resolves nothing: without arguments it works only for a mint carrying its own metadata, and an owner program without a source account is sent as the source account.", "quantifier": "all command arguments, all chain states at lookup time and all (other) chain states at execution time", "why_tests_cant": "Tests run the commands against one validator state; the claim is about every combination of arguments and any change of the chain between lookup and execution.", "anchors": ["clients/cli/src/sync_metadata_to_token2022.rs: command_sync_metadata_to_token2022, resolve_source_metadata_account", "clients/cli/src/sync_metadata_to_spl_token.rs: command_sync_metadata_to_spl_token"]}
{"id": "C78", "title": "Exactly when the instructions succeed", "statement": "The instructions made by the public builders of CreateMint, Wrap, Unwrap, CloseStuckEscrow, SetCanonicalPointer and the two metadata syncs succeed exactly under the conditions a user can check beforehand on the accounts, and under no others: addresses derived, the accounts initialised, unfrozen and of the right programs and mints, enough tokens, authority and signatures, room for the credited amount, rent prepaid, for the syncs a readable source and either new metadata that the authority address can create, or existing metadata that it may update (or, for Token-2022, that needs no change). In particular, multisig signers given for an authority that is not a multisig make Wrap fail, and nothing can be unwrapped while the escrow is frozen.", "quantifier": "all ledgers, keys, amounts, member lists and flags (token programs that add no restriction of their own, ordinary authority and escrow accounts)", "why_tests_cant": "Tests exercise some failures and some successes; that the list of conditions is complete, and that none of them is superfluous, is a statement about all inputs.", "anchors": ["program/src/processor.rs: process_create_mint, process_wrap, process_unwrap, process_close_stuck_escrow, process_set_canonical_pointer, process_sync_metadata_to_token_2022, process_sync_metadata_to_spl_token", "program/src/instruction.rs: create_mint, wrap, unwrap, close_stuck_escrow, set_canonical_pointer, sync_metadata_to_token_2022, sync_metadata_to_spl_token"]}
{"id": "C79", "title": "The published interface description describes the program", "statement": "idl.json, read with the meaning of the Codama standard, is accurate: the addresses it writes in base58 are those of the programs used; its address nodes give the program's addresses for every mint, token program and deployment; building any described instruction from it yields byte for byte and account for account what the Rust builder makes (where an optional sync account is omitted, the program's own address is named in its place); reading any instruction the program executes through it shows the same instruction, arguments and accounts, except that SetCanonicalPointer is not described and a sync without its optional accounts is not read; its error codes, names and messages are those of the program, none missing; an existing backpointer account has the described size and content. The generated JavaScript builders, parser and messages do for every input, valid or not, what the description says.", "quantifier": "all caller inputs (accounts, arguments, multisig members, omitted or given), all byte strings and account lists, all histories, all error codes", "why_tests_cant": "A description is for arbitrary tools; tests only exercise the one generated client with a few inputs.", "anchors": ["idl.json", "program/idl.ts", "program/src/instruction.rs", "program/src/error.rs: TokenWrapError", "clients/js/src/generated/instructions", "clients/js/src/generated/programs/tokenWrap.ts", "clients/js/src/generated/errors/tokenWrap.ts"]}
{"id": "C80", "title": "A run of the CLI does what it reports", "statement": "Every run of the spl-token-wrap CLI with --dry-run or --sign-only, and every run that ends with an error, leaves the chain as it was. A run that changed the chain sent exactly one transaction that all its required signers had validly signed, with a blockhash still accepted. If wrap or unwrap was sent and reports success, the mint, wrapped mint, escrow and recipient it prints are those the arguments stand for, and between the chain it was sent to and the chain afterwards the balances and the wrapped supply moved by exactly the amount printed (less the transfer fee where it applies), provided the source of a wrap and the recipient of an unwrap are not the escrow itself and the two mints differ; create-mint, create-escrow-account, close-stuck-escrow and the two sync commands executed the instruction for the addresses they print, and the lamports create-mint prints are the lamports it sent. A dry run, however, tells nothing: unless verbose its output and exit status do not depend on whether the simulation succeeded.", "quantifier": "all commands and arguments, all signers (key pairs, absent signers, signatures handed in), all configurations, all ledgers at query time and at sending time, any signature scheme", "why_tests_cant": "CLI tests run each command against one local validator with one wallet; the chain changing between query and sending, absent signers and failed simulations are not covered.", "anchors": ["clients/cli/src/common.rs: process_transaction, parse_presigner, parse_token_program", "clients/cli/src/cli.rs: Command::execute", "clients/cli/src/config.rs: Config", "clients/cli/src/output.rs: println_display", "clients/cli/src/wrap.rs: command_wrap", "clients/cli/src/unwrap.rs: command_unwrap", "clients/cli/src/create_mint.rs", "clients/cli/src/create_escrow_account.rs", "clients/cli/src/close_stuck_escrow.rs", "clients/cli/src/sync_metadata_to_token2022.rs", "clients/cli/src/sync_metadata_to_spl_token.rs"]}
{"id": "C81", "title": "Signatures collected with --sign-only complete the transaction", "statement": "The PUBKEY=SIGNATURE lines printed by wrap --sign-only and unwrap --sign-only read back as the same key and signature, and different ones never print alike. Somebody who brings a key pair gets a line with a valid signature of the message, and everybody who has to sign is reported, with a valid signature or as absent, never as both. For any number of members, in any order and split over any number of runs on any machines: if every required signer is covered by a line from a --sign-only run for the same message and blockhash or brings a key pair, the last run, given the lines with --signer, succeeds and has exactly the effect of the message; if somebody is missing it fails and nothing changes. wrap --sign-only with mint and token program given does not depend on the chain at all; unwrap --sign-only always needs it.", "quantifier": "all keys, signature bytes, numbers of members, distributions of signers over runs, ledgers, any signature scheme", "why_tests_cant": "The CLI tests try one multisig with one distribution of signers on one machine.", "anchors": ["clients/cli/src/wrap.rs: WrapArgs, command_wrap", "clients/cli/src/unwrap.rs: UnwrapArgs, command_unwrap, resolve_addresses", "clients/cli/src/common.rs: parse_presigner, process_transaction"]}
{"id": "C82", "title": "Nobody takes tokens from an account without approval of someone in charge", "statement": "Take any token account (of either token program, of any mint, wrapped or not) whose owner is neither the system program nor the incinerator. As long as no instruction is approved by its owner, its delegate, its close authority or the permanent delegate of its mint, no sequence of instructions of any program, Token Wrap's seven instructions included, takes tokens or confidential tokens from it, closes it, or changes its mint, owner, delegate or close authority. For accounts of wrapped tokens the permanent delegate does not count: the wrapped mint never has one.", "quantifier": "all ledgers, token accounts, mints, histories of any length of any programs' instructions, transfer hooks included", "why_tests_cant": "It is a statement about every instruction sequence anybody can send; tests try single calls with one wrong signer.", "anchors": ["program/src/processor.rs: process_wrap, process_unwrap, process_close_stuck_escrow", "program/src/utilities.rs: get_wrapped_mint_authority_signer_seeds"]}
{"id": "C83", "title": "Only the wrapped mint's freeze authority freezes wrapped tokens", "statement": "In every history of a pair: the freeze authority of the wrapped mint changes only with the approval of its current holder; a wrapped token account becomes frozen only in an instruction that the freeze authority approves, so that without such an instruction no wrapped token account is ever frozen; and if the wrapped mint has no freeze authority, no signature whatsoever ever freezes another wrapped token account.", "quantifier": "all pairs, histories of any length of any programs' instructions, wrapped token accounts", "why_tests_cant": "Tests check that CreateMint copies the freeze authority; what later instructions can do to it and to the accounts is unbounded.", "anchors": ["program/src/mint_customizer/default_token_2022.rs: get_freeze_auth_and_decimals, initialize_extensions", "program/src/processor.rs: process_create_mint"]}
{"id": "C84", "title": "A frozen account of wrapped tokens is out of reach of everyone but the freeze authority", "statement": "A frozen account that holds wrapped tokens (public or confidential) stays frozen with exactly its balance, confidential balance, owner, delegate and close authority in every history without an instruction approved by the wrapped mint's freeze authority, whatever its own owner signs: in particular it can neither be unwrapped from nor wrapped into.", "quantifier": "all pairs, histories, frozen wrapped accounts with a positive balance", "why_tests_cant": "A test shows that one unwrap from one frozen account fails; the claim is about every instruction sequence.", "anchors": ["program/src/processor.rs: process_wrap, process_unwrap", "program/src/mint_customizer/default_token_2022.rs: get_freeze_auth_and_decimals"]}
{"id": "C85", "title": "Locality: an instruction reads only its accounts and writes only its writable accounts", "statement": "A Token Wrap instruction that succeeds changes no account other than those its account list marks as writable. Whether it succeeds, with which error it fails and what it leaves in the accounts it names depends only on the accounts it names: on two ledgers that agree on these it has the same outcome. (The programs it calls are assumed to see only accounts of the calling instruction, as the runtime guarantees.)", "quantifier": "all instruction data (well-formed or not), account lists with any flags and duplicates, pairs of ledgers", "why_tests_cant": "A test compares a few accounts before and after one run; the claim is about every account on the ledger and every two ledgers.", "anchors": ["program/src/processor.rs: process_instruction and all process_*", "program/src/metadata.rs: extract_token_metadata", "program/src/mint_customizer/default_token_2022.rs: initialize_extensions"]}
{"id": "C86", "title": "The order of transactions that do not conflict is irrelevant", "statement": "Two transactions of Token Wrap instructions do not conflict when no account that one of them marks as writable is named by the other. Transactions that do not conflict pairwise have, run in any order or at the same time, the same outcome (each succeeds or fails with the same error as if it ran alone) and leave the same ledger: every account written is as its only writer would have left it, every other account as before. So users of different pairs, different holders with no writable account in common, and failed transactions do not influence each other.", "quantifier": "all lists of transactions of any length that pairwise do not conflict, all permutations, all ledgers", "why_tests_cant": "The number of interleavings is unbounded and the scheduler is not under a test's control.", "anchors": ["program/src/processor.rs: process_instruction", "program/src/instruction.rs: account lists of the builders"]}
{"id": "C87", "title": "The published walk-throughs work", "statement": "The published single-signer and multisig example scripts (create the wrapped mint, create the escrow, create a token account for the wrapped tokens, wrap an amount, unwrap the same amount) succeed step by step on every chain on which the mint charges no transfer fee for the amount and does not create accounts frozen, the source account is ordinary and holds the amount, the payer can pay the rent still missing and nothing occupies the derived addresses - whether the wrapped mint and the escrow exist already or not, and with lamports already sitting at the mint and backpointer addresses. After the wrap the new account holds exactly the amount and the escrow exactly as much more; after the unwrap every token balance and the wrapped supply is what it was before, and no account other than payer, source, the new account, wrapped mint, backpointer and escrow changed. For a mint that charges a fee for the amount the single-signer script cannot finish: its unwrap asks for more than it was credited.", "quantifier": "all ledgers meeting the stated prerequisites, both token programs on either side, all amounts, payers, keys, multisigs (any m and signer list met by the listed members), signature schemes and message encodings", "why_tests_cant": "The scripts are run by hand against one local validator with one mint; the claim is for every chain state they may be pointed at.", "anchors": ["clients/js/src/examples/single-signer.ts: main", "clients/js/src/examples/multisig.ts: main", "clients/js/src/utilities.ts: createTokenAccount, createEscrowAccount, combinedMultisigTx", "clients/js/src/create-mint.ts: createMint", "clients/js/src/wrap.ts", "clients/js/src/unwrap.ts"]}
{"id": "C88", "title": "The published sync scripts work", "statement": "The published script that syncs SPL Token metadata to the wrapped Token-2022 mint succeeds for every unwrapped mint whose metadata sits in its Metaplex account (an SPL Token mint, or a Token-2022 mint without metadata pointer) and every wrapped mint as CreateMint and earlier syncs leave it; afterwards the wrapped mint shows exactly the table's copy of the Metaplex metadata and nothing else changed. The script for the other direction succeeds for every unwrapped Token-2022 mint with well-formed metadata in the mint when the authority of the wrapped SPL Token mint controls the Metaplex account or can pay for it; afterwards that account shows the converted data. As it names no source account, it fails for every mint whose metadata pointer names another account (other than Token Wrap's own program account).", "quantifier": "all ledgers meeting the stated prerequisites, all mints, metadata of any size, hash-map iteration orders", "why_tests_cant": "The scripts are run by hand for one mint on a local validator.", "anchors": ["clients/js/src/examples/sync-spl-to-token2022.ts: main", "clients/js/src/examples/sync-token2022-to-spl.ts: main", "clients/js/src/generated/instructions/syncMetadataToToken2022.ts", "clients/js/src/generated/instructions/syncMetadataToSplToken.ts"]}
{"id": "C89", "title": "Complete post-state of Wrap and Unwrap", "statement": "After a successful Wrap (source other than the escrow) and after a successful Unwrap (recipient other than the escrow) every field of every account is determined: the source / burnt account loses exactly the amount, a delegate's allowance shrinks by exactly the amount and the delegate is removed exactly when it is used up, an owner's or permanent delegate's spending leaves the allowance alone; the receiving account gains amount minus fee and records exactly the fee as withheld; lamports follow native tokens one for one; the wrapped mint changes only in supply; every other account is identical. In the well-formed situation the built instructions succeed with exactly that ledger.", "quantifier": "all ledgers, account lists, amounts, epochs, fee schedules, mints of both token programs, delegates, permanent delegates and native accounts", "why_tests_cant": "The repository's tests compare a few balances of a few fixtures; that no other field of any account changes, for every combination of delegation, fee and native state, is a universal statement.", "anchors": ["program/src/processor.rs:process_wrap", "program/src/processor.rs:process_unwrap"]}
{"id": "C90", "title": "Users of one pair do not disturb each other", "statement": "Take any batch of Wraps and Unwraps of one token pair by users with pairwise disjoint token accounts, each of which would succeed on its own, such that the escrow and the wrapped supply have room for all of them together. Then they all succeed in whatever order they are executed; every user's accounts end exactly as if that user had acted alone; the escrow balance and the wrapped supply change by the sum of the credited amounts minus the sum of the unwrapped amounts; nothing else changes; and all orders give the same ledger.", "quantifier": "all pairs, all finite batches of operations of any length, all orders, all ledgers, amounts, fee schedules, authorities and multisigs", "why_tests_cant": "Interference between users depends on the interleaving; the number of orders grows factorially and the batch is unbounded.", "anchors": ["program/src/processor.rs:process_wrap", "program/src/processor.rs:process_unwrap", "program/src/instruction.rs:wrap", "program/src/instruction.rs:unwrap"]}
{"id": "C91", "title": "Splitting gains nothing", "statement": "The transfer fee of a sum is at most the sum of the fees, and what arrives never decreases when more is sent; therefore wrapping an amount in any number of pieces takes the same tokens from the source and credits at most what wrapping it at once credits (exactly the same without a fee), and unwrapping in pieces burns the same tokens and pays at most what unwrapping at once pays; below the cap a split costs at most one base unit.", "quantifier": "all amounts, all lists of pieces, all fee schedules (monotonicity: rates up to 10000 basis points), all ledgers and account lists", "why_tests_cant": "Rounding and cap interact with the amounts; only a proof covers all schedules and all partitions.", "anchors": ["program/src/processor.rs:process_wrap", "program/src/processor.rs:process_unwrap"]}
{"id": "C92", "title": "The books balance", "statement": "Over every history of anybody's actions starting before the pair exists: what all executed Wraps of the wrapped mint credited (each its amount less the transfer fee in force at that moment) is at most the sum of their amounts, and the amounts of all executed Unwraps of it plus the supply still outstanding never exceed what was credited (no condition on the unwrapped mint, its extensions, hooks or delegates). If no permanent delegate of the unwrapped mint acts, the escrows moreover hold at least everything credited by Wraps and not yet unwrapped, even if wrapped tokens were burnt otherwise. Where nothing was wrapped there is no supply and nothing is ever paid out.", "quantifier": "all finite histories of all programs' instructions, all pairs, all unwrapped mints, all interleavings incl. transfer hooks", "why_tests_cant": "It sums over unbounded histories of adversarial actions, so no finite set of schedules settles it.", "anchors": ["program/src/processor.rs:process_wrap", "program/src/processor.rs:process_unwrap"]}
{"id": "C93", "title": "Token accounts made by the JavaScript client", "statement": "createTokenAccount on a fresh key pair creates, for every mint of either token program that requires no account extensions, an empty account of that mint for the given owner; the payer loses exactly the rent for 165 bytes and nothing else changes. In every history this covers every wrapped mint, and the new account is not frozen. For a Token-2022 mint that requires an account extension (transfer fee, non-transferable, hook, pausable) the transaction fails on every chain, because 165 bytes are always allocated.", "quantifier": "all mints and extension sets, payers, owners, fresh keys, ledgers and histories", "why_tests_cant": "The tests only create accounts for plain mints; the claim ranges over every mint extension set and every reachable wrapped mint.", "anchors": ["clients/js/src/utilities.ts:createTokenAccount", "clients/js/src/utilities.ts:getInitializeTokenFn"]}
{"id": "C94", "title": "The command line walk-through works", "statement": "With one key pair as fee payer and nothing but the required arguments, the path create-mint --idempotent, create-escrow-account --idempotent, creating the payer's associated token account of the wrapped mint, wrap SOURCE PROGRAM AMOUNT, unwrap ACCOUNT SOURCE AMOUNT succeeds command by command from every chain on which the mint charges no fee for the amount and does not freeze new accounts, the payer owns the tokens and can pay the rent still missing, and nothing foreign sits at the derived addresses - whether the wrapped mint and the escrow existed before or not, for both token programs on both sides. Every command resolves the omitted arguments to the addresses of the pair and prints them; after the wrap the account holds exactly the amount, backed by the escrow, and after the unwrap every balance and the supply are what they were; only the accounts involved changed.", "quantifier": "all clusters, key pairs, mints, token programs, amounts, prefunded or existing accounts and starting ledgers meeting the conditions", "why_tests_cant": "The CLI tests run each command on one freshly made chain; the claim is about every chain the commands may be started on and about five commands in sequence.", "anchors": ["clients/cli/src/create_mint.rs:command_create_mint", "clients/cli/src/create_escrow_account.rs:command_create_escrow_account", "clients/cli/src/wrap.rs:command_wrap", "clients/cli/src/unwrap.rs:command_unwrap", "clients/cli/src/common.rs:process_transaction"]}
{"id": "C95", "title": "Rent: five instructions are never refused by the runtime", "statement": "The runtime refuses a transaction at its end if an account it may write would lose its rent exemption. A successful Wrap, Unwrap, CreateMint (with each of the shipped mint customizers) or SetCanonicalPointer never causes this, whatever accounts are passed - for wrapped SOL provided the two accounts carry their rent on top of the balance, as the token program keeps them. A successful CloseStuckEscrow can cause it only on account of the destination, and does not if the destination is rent exempt, or if the escrow is and the destination holds no more data than the escrow.", "quantifier": "all rent tables, ledgers, account lists, amounts, mints and extensions", "why_tests_cant": "The tests run with prefunded accounts of fixed size; the claim is about every size and every rent table.", "anchors": ["program/src/processor.rs:process_create_mint", "program/src/processor.rs:process_wrap", "program/src/processor.rs:process_unwrap", "program/src/processor.rs:process_close_stuck_escrow", "program/src/processor.rs:process_set_canonical_pointer"]}
{"id": "C96", "title": "Rent: funding the wrapped mint for a metadata sync", "statement": "After a successful SyncMetadataToToken2022 the wrapped mint has a size that can be computed in advance from the source's metadata (Borsh length plus header). If the mint was rent exempt before, the runtime accepts the transaction exactly if the mint already held the minimum for that size; otherwise nothing changes. In particular, after create-mint (CLI or JS), which funds the new mint with the minimum for its bare size, every sync in a transaction of its own is refused until somebody sends lamports to the mint; sending at least what is missing makes the sync work, and the mint then shows the source's metadata.", "quantifier": "all ledgers, rent tables (growing with the size), source metadata, extension sets, account lists", "why_tests_cant": "A test fixes one metadata value and one amount of lamports; the claim gives the exact threshold for every one of them.", "anchors": ["program/src/processor.rs:process_sync_metadata_to_token_2022", "program/src/instruction.rs:SyncMetadataToToken2022", "clients/cli/src/create_mint.rs:command_create_mint", "clients/cli/src/sync_metadata_to_token2022.rs:command_sync_metadata_to_token2022"]}
{"id": "C97", "title": "Rent: what the authority must hold for a Metaplex sync", "statement": "When SyncMetadataToSplToken creates the Metaplex account, the wrapped mint authority pays its cost; the runtime accepts the transaction exactly if the authority then holds nothing at all or still the minimum for its size. So it must hold exactly the cost, or at least the cost plus that minimum; every amount in between is refused although the instruction succeeds. A sync that updates an existing Metaplex account is never refused.", "quantifier": "all ledgers, rent tables, Metaplex costs, sources and account lists", "why_tests_cant": "The tests prefund the authority with one amount; the claim is about the set of all amounts that work, which has a gap.", "anchors": ["program/src/processor.rs:process_sync_metadata_to_spl_token", "program/src/instruction.rs:SyncMetadataToSplToken"]}
{"id": "C98", "title": "Lamports are neither created nor destroyed", "statement": "Every successful Token Wrap instruction, whatever accounts it names, leaves the total number of lamports in the accounts it names (each counted once) unchanged, and so in every collection of accounts that includes those that changed. The same holds for every transaction of the clients made of payments, creations of associated token accounts and Token Wrap instructions.", "quantifier": "all account lists (aliased, missing, extra), data bytes, ledgers, client transactions of any length", "why_tests_cant": "Tests look at single balances of one scenario; the claim is about the total in every execution, aliasing included.", "anchors": ["program/src/processor.rs:process_instruction", "program/src/processor.rs:process_close_stuck_escrow", "clients/cli/src/create_mint.rs:command_create_mint", "clients/cli/src/create_escrow_account.rs:command_create_escrow_account"]}
{"id": "C99", "title": "What the program reads from account bytes is what the account holds", "statement": "From the bytes of a mint the program reads its authorities, supply and decimals, its transfer fee configuration, metadata pointer and token metadata and the account extensions it requires; from those of a token account its mint, owner, amount, state and other fields and its extension types; whatever other extensions are present, in whatever order, with leftover bytes behind absent options and spare zeros at the end. A parse as a mint succeeds exactly on mints, a parse as a token account exactly on token accounts, never both on the same bytes; on anything else (raw bytes, allocated but uninitialised mints, multisigs, accounts of the other kind) the error is determined by the contents. The good-state test of CloseStuckEscrow gives the same answer on bytes and on contents. Every mint and token account whose fields fit their widths has such bytes, of the length used for rent.", "quantifier": "all mints and token accounts with any list of extensions and any field values, all byte strings", "why_tests_cant": "Tests build a few accounts with the token program's own packing code; the claim ranges over all contents, extension lists, leftover bytes and malformed data.", "anchors": ["program/src/processor.rs:process_wrap", "program/src/processor.rs:process_close_stuck_escrow", "program/src/processor.rs:process_sync_metadata_to_token_2022", "program/src/metadata.rs:resolve_token_2022_source_metadata", "program/src/mint_customizer/default_token_2022.rs"]}
{"id": "C100", "title": "The CLI's printed result can be read back", "statement": "With --output display or verbose a command prints every address, amount, number of lamports and signature of its result on its own line after a fixed label, so that the first line starting with the label gives the value, optional values appear exactly if present, and two different results of a command never print the same text. With json or json-compact the result can be read back from the printed object under the camelCase names of the fields, addresses in base58, amounts as numbers; signatures are base58 strings in create-mint, create-escrow-account and sync-metadata-to-spl-token but arrays of 64 numbers in the lists of wrap, unwrap, close-stuck-escrow and sync-metadata-to-token2022. With quiet nothing is printed. Exactly the five words select the five formats.", "quantifier": "all results of all eight commands, all formats, all words", "why_tests_cant": "CLI tests parse the output of one run per command; the claim covers every address, amount and list of signatures, and excludes ambiguity between labels.", "anchors": ["clients/cli/src/output.rs:format_output", "clients/cli/src/output.rs:parse_output_format", "clients/cli/src/wrap.rs:WrapOutput", "clients/cli/src/unwrap.rs:UnwrapOutput", "clients/cli/src/create_mint.rs:CreateMintOutput", "clients/cli/src/create_escrow_account.rs:CreateEscrowAccountOutput", "clients/cli/src/close_stuck_escrow.rs:CloseStuckEscrowOutput", "clients/cli/src/sync_metadata_to_spl_token.rs:SyncMetadataToSplTokenOutput", "clients/cli/src/sync_metadata_to_token2022.rs:SyncMetadataToToken2022Output", "clients/cli/src/find_pdas.rs:PdasOutput"]}
{"id": "C101", "title": "Metaplex accounts are read from their bytes", "statement": "The bytes of a Metaplex metadata account (discriminator 4, update authority, mint, name, symbol, uri, seller fee, creators, flags, edition nonce, then the fields added later), followed by anything, are read as exactly these fields; an account written before the later fields existed is read with all of them absent; whatever bytes are accepted start with the mandatory fields found; bytes not starting with 4 are rejected; two different contents never have the same bytes. The conversion to Token-2022 metadata gives on the bytes what it gives on the fields.", "quantifier": "all metadata contents that can be stored, all bytes after them, all byte strings", "why_tests_cant": "Tests read accounts produced by one serializer call with a handful of field combinations; the claim covers all values, all lengths, all paddings and all malformed inputs.", "anchors": ["program/src/metaplex.rs:metaplex_to_token_2022_metadata", "program/src/metadata.rs:extract_token_metadata"]}
{"id": "C102", "title": "The CLI from its flags to its output", "statement": "A run of the CLI changes at most the chain behind --url, or without it the one named by the configuration in force; with --dry-run, with a command that only signs, and whenever it ends with an error it changes none. A configuration file named with --config must load, otherwise the run ends before anything happens; the default file may be missing or broken, and with --url and --fee-payer given no file matters. Without --fee-payer the payer is the configured key pair, never an absent signer; with the public key of an absent payer whose signature is not handed in, no chain changes. A run that ends well prints the result of its command in the format selected by --output or --verbose; other words, and --output together with --verbose, are refused.", "quantifier": "all machines (configuration files, signers, nodes), all flags, all commands, all chain states at query and at sending", "why_tests_cant": "The CLI tests run with one configuration file, one node and one key pair; precedence and absence of effects must hold for every combination of flags, files and failures.", "anchors": ["clients/cli/src/main.rs:main", "clients/cli/src/config.rs:Config::new", "clients/cli/src/cli.rs:Cli", "clients/cli/src/cli.rs:Command::execute", "clients/cli/src/common.rs:process_transaction"]}
{"id": "C103", "title": "The words of the command line mean what they say", "statement": "An amount on the command line is the number written in decimal (an optional + in front) if that is below 2^64, and is refused otherwise: never truncated or wrapped around. A word that is an address is that address whatever files exist; other words name key files. Words for a token program that name neither program, amounts that are no such number, and multisig members or signatures without --blockhash are refused before anything is printed or sent. A run of wrap or unwrap that was sent and ended well moved exactly the written amount between exactly the named accounts, on the chain written (monikers stand for their URL), and touched no other chain. Naming somebody as transfer authority who is not here and whose signature is not handed in has no effect on any chain. Every command that needs no other key file can be written with the addresses, amounts and signature lines the CLI itself prints.", "quantifier": "all words for all arguments of all eight commands, all flags, machines and chain states", "why_tests_cant": "Tests run the binary with a few well-formed argument lists; how every other string is read, and that no unreadable one has an effect, is a statement about all strings.", "anchors": ["clients/cli/src/common.rs:parse_pubkey", "clients/cli/src/common.rs:parse_token_program", "clients/cli/src/common.rs:parse_presigner", "clients/cli/src/wrap.rs:WrapArgs", "clients/cli/src/unwrap.rs:UnwrapArgs", "clients/cli/src/cli.rs:Command", "clients/cli/src/main.rs:main"]}
{"id": "C104", "title": "The wrapped mint is a snapshot of the unwrapped mint", "statement": "In every history an existing wrapped mint was created by one CreateMint, in a state in which the unwrapped mint existed; at that moment it had supply zero and the decimals and freeze authority of the unwrapped mint. Its decimals are for ever those; its freeze authority stays that one unless the freeze authority of the wrapped mint itself approves a change, and a wrapped mint born without freeze authority never gets one. Later changes of the unwrapped mint have no effect on it: there is a history after which the two mints have different freeze authorities, the former authority of the unwrapped mint can still freeze wrapped tokens, the new one cannot, and CreateMint does not repair it.", "quantifier": "all pairs, all histories of actions of any programs, signers and transfer hooks", "why_tests_cant": "Tests create a mint and look at it once; that nothing later, in any order and by anyone, links or separates the two mints differently is a statement about all histories, and the divergence is a history no test runs.", "anchors": ["program/src/processor.rs:process_create_mint", "program/src/mint_customizer/default_token_2022.rs:get_freeze_auth_and_decimals", "README.md"]}
{"id": "C105", "title": "An error code names what is wrong", "statement": "Whenever the program fails with a custom code of its own, the code is one of the sixteen documented errors and the defect this error describes is present in the accounts, amount and state of the call (e.g. EscrowMismatch only if the escrow given is not the associated token account of the authority given; ZeroWrapAmount only if the amount is zero; EscrowInGoodState only if the escrow has the extensions its mint requires); each instruction returns only the codes listed for it, and UnwrappedMintHasNoMetadata and MetadataPointerMissing are never returned. The log line 'Error: <Name>' is written exactly for that error. The JavaScript client recognises such an error at its index in the transaction for its own code and no other and shows the documented message; when isTokenWrapError says yes, the failing instruction is a Token Wrap call and the error is its own or that of a program it called. The recognition is not exact: wrapping more than the source holds is reported as code 1, which the client presents as BackpointerMismatch, a defect Wrap cannot have.", "quantifier": "all inputs, account lists, ledgers, environments and transactions", "why_tests_cant": "A test that provokes an error shows that this call gives this code; that no other call, state or failure of a called program gives it is a statement about all of them.", "anchors": ["program/src/error.rs:TokenWrapError", "program/src/error.rs:log_error", "program/src/entrypoint.rs:process_instruction", "program/src/processor.rs:process_instruction", "clients/js/src/generated/errors/tokenWrap.ts:isTokenWrapError", "clients/js/src/generated/errors/tokenWrap.ts:getTokenWrapErrorMessage"]}
{"id": "C106", "title": "Forks with another mint customizer keep the money safe", "statement": "The README invites to fork the program and exchange the customizer of wrapped mints. In every history of such a build, if the customizer gives wrapped mints a fixed list of extensions without transfer fee and close authority and keeps the decimals (as all three shipped customizers do): the wrapped supply never exceeds the escrowed tokens as long as no permanent delegate of the unwrapped mint acts, all wrapped balances together fit in it, no step lowers the surplus, only Wrap raises the supply and only Unwrap takes from the escrow, one for one; wrapped mint and backpointer exist together, the mint keeps its decimals and its mint authority and never gets a fee or a close authority; and whoever may spend an unfrozen wrapped account can unwrap any positive part of it unless the token program vetoes. The condition is needed: with a close authority a pair can be killed for good.", "quantifier": "all customizers of that kind, all (unwrapped mint, wrapped token program) pairs, all initial ledgers without the pair and all histories of instructions of this build and of other programs", "why_tests_cant": "A test fixes one customizer and one sequence of instructions; forks choose theirs later and the extensions' authorities act in any order.", "anchors": ["README.md", "program/src/processor.rs:process_instruction", "program/src/mint_customizer/interface.rs:MintCustomizer", "program/src/mint_customizer/compliance.rs:ComplianceMintCustomizer", "program/src/mint_customizer/no_extensions.rs:NoExtensionCustomizer", "program/src/mint_customizer/default_token_2022.rs:DefaultToken2022Customizer"]}
{"id": "C107", "title": "A backpointer cannot be forged", "statement": "For every address X whatsoever: in every history that starts with nothing at X's backpointer address, either nothing exists there or X is a genuine wrapped mint: some CreateMint named X, its backpointer and an unwrapped mint u, X's address is the one derived from u and the token program that owns it, X still holds a mint of that program, and the backpointer, owned by Token Wrap, holds exactly u. Accordingly the JavaScript reads by seeds return an unwrapped mint exactly for genuine wrapped mints, report absence exactly if there are no lamports at the address, and throw exactly if only lamports were sent there; batch reads answer as single reads in order. Reads by address do not look at the owner and prove nothing.", "quantifier": "all addresses X, all initial ledgers with nothing at X's backpointer address, all histories of instructions of anybody, all renderings of structured account data as bytes", "why_tests_cant": "A forger chooses the address, the instructions and their order; a test only tries a few.", "anchors": ["program/src/processor.rs:process_create_mint", "program/src/state.rs:Backpointer", "clients/js/src/generated/accounts/backpointer.ts"]}
{"id": "C108", "title": "Towers: wrapping wrapped tokens", "statement": "A wrapped mint can itself be wrapped, by anybody, any number of times. In every history, the supply of each layer is at most what is locked in that layer's escrows, which is at most the supply of the layer below; so the tokens of every layer are backed by the tokens locked in the bottom escrows (under the bottom pair's own condition on permanent delegates only). Wrapping or unwrapping tokens that are themselves wrapped moves exactly the requested amount on all four accounts (no fee can exist). Whoever holds tokens of an upper layer can unwrap any amount he may spend, and then unwrap what he got again, down to the bottom tokens, whatever happened before.", "quantifier": "all towers of pairs of any height over any bottom pair, all histories of instructions of anybody, all amounts, holders and approvals", "why_tests_cant": "The height of the tower, the other pairs and the interleaving of instructions at every layer are unbounded.", "anchors": ["program/src/processor.rs:process_wrap", "program/src/processor.rs:process_unwrap", "program/src/processor.rs:process_create_mint", "program/src/mint_customizer/default_token_2022.rs"]}
{"id": "C109", "title": "Without a freeze authority nobody can ever freeze", "statement": "If the unwrapped mint starts without freeze authority and cannot be closed, then in every history, whoever signs whatever: it never gets a freeze authority, neither does its wrapped mint, nor the wrapped mint of that, up any tower of wrappings; no account of wrapped tokens of any layer (including the escrows of the layers above) is ever frozen; and so the way down a tower to the bottom tokens is open to whoever may spend them, under conditions on the bottom accounts only.", "quantifier": "all unwrapped mints without freeze authority and close authority, all towers over them of any height, all histories of instructions of anybody, all accounts of wrapped tokens", "why_tests_cant": "That nobody can ever do something quantifies over all signers, instructions and orders; the height of the tower is unbounded.", "anchors": ["program/src/processor.rs:process_create_mint", "program/src/processor.rs:process_unwrap", "program/src/mint_customizer/default_token_2022.rs:get_freeze_auth_and_decimals"]}
{"id": "C110", "title": "Metadata climbs a tower of wrappings", "statement": "If wrapped Token-2022 mints are themselves wrapped as Token-2022, any number of times, then in every history, whenever the metadata of the bottom mint can be read, one transaction of SyncMetadataToToken2022 instructions, one per layer from the bottom up, signed by nobody but the fee payer and with extra accounts only at the bottom, succeeds; afterwards every layer shows exactly the metadata of the bottom mint, and nothing but the wrapped mints of these layers has changed. A layer above a wrapped mint without metadata cannot be synced, whatever accounts are supplied.", "quantifier": "all towers of Token-2022 layers of any height over any mint, all histories of instructions of anybody, all metadata and sources", "why_tests_cant": "The height of the tower, the metadata and the history before are unbounded; each layer's sync must find its source in what the sync below has just written.", "anchors": ["program/src/processor.rs:process_sync_metadata_to_token_2022", "program/src/metadata.rs:extract_token_metadata", "program/src/mint_customizer/default_token_2022.rs:initialize_extensions"]}
