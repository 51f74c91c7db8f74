import json
P={}
for l in open('/verif/properties.jsonl'):
    d=json.loads(l); P[d['id']]=d
M={c['property']:c for c in json.load(open('/verif/MANIFEST.json'))['claims']}
PLAN={
'C01':'byte-level `pack`/`unpack` of every instruction; case analysis, little-endian lemma for 8 bytes',
'C02':'`unpack` succeeds exactly on the packed forms: inversion of the decoder over all byte strings',
'C03':'finite enum for the codes, statement over all `u32` for the decoder',
'C04':'concrete seed layouts and hash preimages; hash abstract; list-append injectivity',
'C05':'`find_program_address` bump search by recursion; the seeds handed to `invoke_signed` re-derive the validated key',
'C06':'builder output fed to the processors\' own parsers, all keys symbolic',
'C07':'first check of both processors, for every account list and ledger',
'C08':'inversion of the success path of `processWrap`: escrow delta = minted amount, whatever the fee',
'C09':'inversion: success forces the derived keys; separately the exact error for each wrong one',
'C10':'inversion down to the token program\'s authority check (owner / delegate within allowance / multisig)',
'C11':'inversion of `processUnwrap`', 'C12':'as C09','C13':'as C10',
'C14':'inversion with a frame: every other account is equal before and after',
'C15':'invariant `Inv` by induction over `History` (any interleaving of any programs, hook re-entrancy inside Wrap)',
'C16':'two-state version of the invariant, transitive closure',
'C17':'invariant that supply bounds the sum over any duplicate-free list of holders',
'C18':'forward evaluation of the processor from the invariant (liveness)',
'C19':'two inversions/evaluations composed; fee-free mint',
'C20':'arithmetic spec (`IsFee`: least f with f·10000 ≥ amount·bps, capped) against the checked code',
'C21':'inversion of `processCreateMint` for every customizer','C22':'as C21','C23':'case analysis of the initialised branch',
'C24':'inversion and exact errors',
'C25':'history invariant on the backpointer','C26':'history invariant on the wrapped mint','C27':'per-step theorem inside any history',
'C28':'per-step theorem inside any history','C29':'per-step frame of a wrap/unwrap of another pair, by PDA injectivity',
'C30':'inversion and exact errors','C31':'list/set lemma about the extension comparison used by the code',
'C32':'forward evaluation: close, then the ATA program, then the good-state test',
'C33':'inversion, exact errors, and forward evaluation','C34':'history induction with the trace',
'C35':'list-of-pairs refined to finite maps, for every `HashMap` iteration order','C36':'frame theorem','C37':'composition of C35 with itself',
'C38':'soundness, completeness, uniqueness and errors of source resolution','C39':'inversion and forward evaluation incl. the Metaplex calls',
'C40':'structural; round trip also with a concrete model of serde_json and base58','C41':'iff-characterisation of the parsers',
'C42':'concrete history, evaluated by the kernel (a *negative* result: the claim is existential)',
'C43':'iff over all amounts and fee configurations','C44':'invariance of the result under dropping signer flags',
'C45':'transaction wrapper + failing after a successful CPI leaves the ledger unchanged','C46':'history invariant',
'C47':'independence: replacing every token / Metaplex callee on other accounts cannot matter; the PDA signed with is the validated one',
'C48':'arithmetic of the client funding code, executed on the ledger, then fed to the processor',
'C49':'every customizer evaluated; space equals the final mint size','C50':'equality of two address helper computations',
'C51':'concrete history for a counter-intuitive token-program rule','C52':'forward evaluation with symbolic state',
'C53':'history invariant while the unwrapped mint is not re-created','C54':'simulation between runs with and without the trailing accounts',
'C55':'CLI as a function ledger → transaction; transaction run through the C06 parsers and C08/C52','C56':'as C55',
'C57':'as C55','C58':'CLI resolution compared with the program\'s','C59':'equality of computations',
'C60':'JS seeds/discriminators/account roles as data, equal to the Rust builders','C61':'JS decoders run on every byte string the program accepts',
'C62':'as C55 for the JS helpers','C63':'list induction over signature maps','C64':'case analysis of the JS reads',
}
try:
    exec(open('/tmp/w/design_more.py').read())
except FileNotFoundError: pass
rows=[]
for i in sorted(P, key=lambda x: int(x[1:])):
    th=', '.join('`'+t.replace('TokenWrap.','')+'`' for t in M[i]['theorems'])
    rows.append(f"| {i} | {P[i]['title']} | {PLAN[i]} | {th} |")
doc=open('/tmp/w/design_head.md').read().replace('@@TABLE@@','\n'.join(rows))
open('/verif/DESIGN.md','w').write(doc)
