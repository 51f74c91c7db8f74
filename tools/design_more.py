
PLAN['C65']='invariant `Funds` over the history (every token account and mint funded, native accounts cover reserve plus balance), together with the pair invariant'
PLAN['C66']='combine the history invariant (`History.inv\'`, `History.plain`) with the liveness theorems of the single instructions: every hypothesis about the state of the pair is discharged by the invariant'
PLAN['C67']='case analysis of `StepEff` for one step; induction over the history for the origin of the metadata'
PLAN['C68']='`Conserved` (finite support, sum equals supply) is shown to be kept by every token-program instruction (`tokenExec_flow`), by every other step and by Token Wrap; induction over the history'
PLAN['C69']='C68 for the wrapped mint, from the empty start; the bound by the escrows is C15'
PLAN['C70']='supply is at least what is escrowed (C68), and a mint with supply cannot be closed, also not inside a transfer hook; the second part is an explicit history evaluated by the kernel'
PLAN['C71']='case analysis over the effects of the seven instructions'
PLAN['C72']='independent table (`Carries`, inductive relation) and numeral specification (`IsU16Text`, by Mathlib\'s `Nat.ofDigits`/`Nat.digits`); the conversion is shown to produce exactly the table, and the table to determine the copy'

PLAN['C73']='monotonicity of the CPI checks in the flags of the caller; success order `OkLe` through the bodies of the seven processors'
PLAN['C74']='`Message.lean` models the flags of a compiled message; C73 lifts each instruction; the effect theorems of C08/C11 hold for accounts with any flags'
PLAN['C75']='split the run of the message at the instruction; C10/C13/C33 there; a signer flag of a compiled message is a required signature'
PLAN['C76']='the two message builders are computed; `js_combine_iff`/`js_combine_sound` (C63) applied to copies signed by arbitrary groups of keys; C52 and C74 for the execution'

PLAN['C77']='the commands as functions ledger → transaction; C35/C39 applied to the compiled message, whose account keys are those of the builder; C58 for the resolved source'

PLAN['C78']='sufficiency is C52 and the liveness theorems; necessity by inverting the processor, the CPI checks and the token program step by step; for the syncs, a loop that makes no change is shown not to call the token program, so the authority is needed exactly if something differs'

PLAN['C79']='`Idl.lean` holds idl.json as data with a generic interpreter of Codama nodes; its output is computed for arbitrary caller inputs and compared with the Rust builders, the JavaScript model and the decoder'

PLAN['C80']='`CliRun.lean`: a run as a function of arguments, signers, ledger when queried and ledger when sent; case analysis over the ways a run ends, then C55–C58, C74, C77 for the transaction sent'
PLAN['C81']='base58 round trip for arbitrary bytes; induction over the collected lines; the slot of each required signer is filled by a line or an own key pair'

PLAN['C82']='`Custody.lean`: an effect analysis of every token-program instruction and of the CPIs of Token Wrap (`held_tokEff`, `instr_twEff`), then induction over the history, hooks included'
PLAN['C83']='`Freeze.lean`: same effects, applied to the frozen flag and to the freeze authority; the wrapped mint has no default-frozen state and no close authority by the invariant of C26'
PLAN['C84']='`Freeze.lean`: every effect on a frozen account is excluded or approved by the freeze authority; no fee extension on the wrapped mint, so withheld fees cannot move'

PLAN['C85']='`Locality.lean`: two relational passes over every function of the processor, one for reads (`Rel (Agree S)`), one for writes (`Wr W L`); the privilege check of a CPI gives that its accounts are accounts of the caller'
PLAN['C86']='locality and framing lifted to transactions, then to batches by induction; the parallel form determines the ledger account by account, which gives independence of the order'

PLAN['C87']='`JsExample.lean` models the scripts as a chain of transactions; each step has its own lemma (success and exact effect), composed by threading the ledger; the last unwrap is shown possible from the effect of the wrap (`wrapped_can_be_unwrapped`)'

PLAN['C88']='`JsExample.lean`; liveness and effect theorems of the syncs (C35, C39, C72), transported to the JS account lists with their placeholder accounts (`js_sync_complete`)'

PLAN['C89']='Closed form of the ledger (`ledgerAfterWrap`, `ledgerAfterUnwrap`), by inverting the two CPIs with the exact result of `spendAuth`; then specialised to the built instructions in the situations `CanWrap` / `CanUnwrap`.'
PLAN['C90']='Induction over the batch with the invariant that every remaining operation stays ready (its own accounts are untouched, no account becomes a multisig, the shared accounts change only in amount, withheld fees, lamports and supply); the exact post-states of C89 make the final ledger a function of sums, hence independent of the order.'
PLAN['C91']='Arithmetic on the fee specification `IsFee` (ceiling and cap are subadditive), then induction over the pieces using C08 and C11.'

PLAN['C92']='Induction over histories: per-step accounting from the step effects of C15, plus the exact burn of every executed Unwrap; the totals are functions of the trace alone; the credited total is a relation on histories, shown to exist and be determined.'

PLAN['C93']='Running the two setup instructions on a symbolic ledger; the size test of `InitializeAccount` against `tokenAccountLen`; `mint_parameters` (C26) for wrapped mints.'

PLAN['C94']='One lemma per command saying that the whole run succeeds, with its exact output and ledger; composed over the ledger as in C87 (`ScriptStart`, `SetupDone`, `script_accounting`).'

PLAN['C95']='`Rent.lean` models the rent rule at the end of a transaction; each instruction is shown to satisfy it from its effect theorem: sizes unchanged, lamports only moved above the reserve, or funded for the new size (checked by the program)'
PLAN['C96']='the size of mint contents is computed from the extensions, Borsh length of the metadata included; permutation of the metadata extension to the front; strict growth of the size on first sync; then the funding of the client builders (C55)'
PLAN['C97']='from the effect of the Metaplex creation: only the payer changes besides the new account; arithmetic of the rule'

PLAN['C98']='every effect is a sequence of data updates and payments; conservation is a relation closed under composition (finite sums over a superset)'

PLAN['C99']='relational specification of the byte layouts (namespace `Layout`); the parser of `Layout.lean` is run on the concatenation of fields: lemmas on slices, then induction over the TLV entries; existence by writing the bytes'

PLAN['C100']='`CliText.lean` models the Display and Serialize implementations; reading functions (lines, label, object members) are the specification; splitting at newlines, labels told apart by their single final colon, base58 and decimal digits injective'

PLAN['C101']='`MplLayout.lean` models Borsh readers as codecs; each is proved to accept exactly the written form (`Lawful`), combinators preserve this; the specification writes the account field by field'
PLAN['C102']='`CliMain.lean` models `main`, `Config::new` and the global flags over a `Machine` (files, signers, nodes); cases over the configuration, then C80 and C100'

PLAN['C103']='`CliArgs.lean` models the value parsers, `requires` and the loading of signers; `Denotes` specifies what the words of every command stand for and the parser is proved equivalent to it; then C80, C81, C102'

PLAN['C104']='induction over `History`: the step in which the wrapped mint appears is a CreateMint (`KeyEff`); composition with C26 and C83; concrete history for the divergence'
PLAN['C37']='the second sync computes the metadata it finds (`syncedMd_stable`), so every update is a no-op: `sync22_settled` composed with C35'

PLAN['C105']='a small calculus of the errors a computation can raise (`Raises`), applied to every function of the processor and of the environment; the table of codes of the token programs for the negative part'

PLAN['C106']='`process_instruction` with the customizer as a parameter, steps and histories of such a build; the invariant of the pair once more with a weaker condition on the extensions, preserved by every step; a history with a closable mint as counterexample'

PLAN['C107']='invariant of the backpointer address of an arbitrary key: blank, or a genuine wrapped mint whose creation is in the trace; what one step can do to an address nobody can sign for (`Held.step`) now gives what CreateMint wrote; the generated JavaScript reads modelled function by function, over any rendering of structured data as bytes'

PLAN['C108']='the invariant of the lower pair shows that its wrapped mint never has a permanent delegate or transfer fee, which discharges the side conditions of the backing, exactness and redemption theorems of the pair above; induction over the tower; for the way down, what one Unwrap leaves alone (`Keeps`) shows that the instructions for the lower layers still succeed'

PLAN['C109']='invariants: a mint without close and freeze authority stays so (every token instruction, every step); the wrapped mint gets its freeze authority from the unwrapped mint at its creation (`Held.step`), then only its holder changes it; induction over the tower; discharges the conditions of C108'

PLAN['C110']='induction over the tower: each sync succeeds in the state its predecessors leave (C66), what it wrote is, by C35 and the pointer to itself that the wrapped mint keeps, the source of the next; equality as key-value maps is transitive; the layers have different mints (C108), so later syncs leave the lower layers alone'
