import json,glob,re,os
T={
'C01':['unpack_pack','pack_injective'],
'C02':['unpack_eq_ok_iff','unpack_rejects','pack_length'],
'C03':['error_code_is_position','tryFrom_eq_ok_iff','tryFrom_unknown','toErr_injective','toStr_injective'],
'C04':['pda_preimage_injective','pda_address_injective','pda_off_curve'],
'C05':['wrappedMint_signer_seeds','authority_signer_seeds','backpointer_signer_seeds','canonicalPointer_signer_seeds'],
'C07':['wrap_zero_rejected','unwrap_zero_rejected'],
'C08':['wrap_credits_exactly_what_escrow_receives'],
'C09':['wrap_accounts_derived','wrap_account_errors'],
'C10':['wrap_authorised'],
'C11':['unwrap_pays_one_for_one'],
'C12':['unwrap_accounts_derived','unwrap_account_errors'],
'C13':['unwrap_authorised'],
'C14':['wrap_frame','unwrap_frame'],
'C19':['wrap_unwrap_round_trip'],
'C20':['calculateFee_isFee','isFee_unique','fee_total_and_bounded','epochFee_eq','feeOf_isMintFee'],
'C43':['wrap_mints_zero_iff'],
'C50':['escrowAddress_eq'],
}
NOTE={}
exec(open('/tmp/w/manifest_more.py').read()) if os.path.exists('/tmp/w/manifest_more.py') else None
src=''.join(open(f).read() for f in glob.glob('/verif/lean/Verif/**/*.lean',recursive=True))
claims=[]
for l in open('/verif/properties.jsonl'):
    i=json.loads(l)['id']
    th=T.get(i,[])
    if not th: print('missing',i); continue
    for t in th:
        if not re.search(r'theorem\s+(\S+\.)?'+re.escape(t.split('.')[-1])+r'\b',src): print('no theorem',t)
    st=NOTE.get(i,('proved',''))
    claims.append({'property':i,'status':st[0],'theorems':['TokenWrap.'+t for t in th],'note':st[1]})
json.dump({'claims':claims},open('/verif/MANIFEST.json','w'),indent=1)
mods=sorted(os.path.relpath(f,'/verif/lean')[:-5].replace('/','.') for f in glob.glob('/verif/lean/Verif/**/*.lean',recursive=True))
open('/verif/lean/Verif.lean','w').write(''.join('import %s\n'%m for m in mods))
