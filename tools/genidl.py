import json
d=json.load(open('/repo/idl.json')); p=d['program']
L=open('/repo/idl.json').read().split('\n')
starts=[i+1 for i,l in enumerate(L) if '"kind": "instructionNode"' in l]
pst=[i+1 for i,l in enumerate(L) if '"kind": "pdaNode"' in l]
b=lambda x:'true' if x else 'false'
out=[]
def dflt(v):
    if v is None: return 'none'
    if v['kind']=='publicKeyValueNode': return f'some (.key "{v["publicKey"]}")'
    if v['kind']=='identityValueNode': return 'some .identity'
    raise 0
def val(v):
    if v is None: return 'none'
    if v['kind']=='numberValueNode': return f'some (.num {v["number"]})'
    if v['kind']=='booleanValueNode': return f'some (.bool {b(v["boolean"])})'
    raise 0
def ty(t):
    if t['kind']=='numberTypeNode':
        assert t['endian']=='le'; return '.'+t['format']
    if t['kind']=='booleanTypeNode':
        assert t['size']['format']=='u8'; return '.bool'
    raise 0
ends=[s-1 for s in starts[1:]]+[pst[0]-2]
for ins,s,e in zip(p['instructions'],starts,ends):
    out.append(f'/-- Instruction `{ins["name"]}`: /repo/idl.json:{s-1}-{e-1}. -/')
    out.append(f'def {ins["name"]} : Instruction :=')
    out.append(f'  {{ name := "{ins["name"]}"')
    out.append('    accounts :=')
    rows=[]
    for a in ins['accounts']:
        sg={False:'.no',True:'.yes','either':'.either'}[a['isSigner']]
        rows.append(f'⟨"{a["name"]}", {b(a["isWritable"])}, {sg}, {b(a["isOptional"])}, {dflt(a.get("defaultValue"))}⟩')
    out.append('      ['+',\n       '.join(rows)+']')
    assert ins['optionalAccountStrategy']=='programId'
    rows=[]
    for a in ins['arguments']:
        rows.append(f'⟨"{a["name"]}", {ty(a["type"])}, {val(a.get("defaultValue"))}, {b(a.get("defaultValueStrategy")=="omitted")}⟩')
    out.append('    args := ['+', '.join(rows)+']')
    r=ins.get('remainingAccounts')
    if r:
        assert len(r)==1 and r[0]['isSigner'] is True
        out.append(f'    remaining := some ⟨"{r[0]["value"]["name"]}", true⟩')
    else: out.append('    remaining := none')
    assert len(ins['discriminators'])==1
    ds=ins['discriminators'][0]
    out.append(f'    discriminator := ⟨"{ds["name"]}", {ds["offset"]}⟩ }}')
    out.append('')
pends=[s-1 for s in pst[1:]]+[[i+1 for i,l in enumerate(L) if '"kind": "errorNode"' in l][0]-3]
for q,s,e in zip(p['pdas'],pst,pends):
    rows=[]
    for sd in q['seeds']:
        if sd['kind']=='constantPdaSeedNode': rows.append(f'.utf8 "{sd["value"]["string"]}"')
        else:
            assert sd['type']['kind']=='publicKeyTypeNode'
            rows.append(f'.key "{sd["name"]}"')
    out.append(f'/-- Address `{q["name"]}`: /repo/idl.json:{s-1}-{e-1}. -/')
    out.append(f'def {q["name"]}Pda : PdaNode := ⟨"{q["name"]}", [{", ".join(rows)}]⟩')
    out.append('')
es=[i+1 for i,l in enumerate(L) if '"kind": "errorNode"' in l]
out.append(f'/-- The errors: /repo/idl.json:{es[0]-1}-{es[-1]+4}. -/')
out.append('def errors : List ErrorNode :=')
out.append('  ['+',\n   '.join(f'⟨{e["code"]}, "{e["name"]}", "{e["message"]}"⟩' for e in p['errors'])+']')
print('\n'.join(out))
