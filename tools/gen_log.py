"""Turns the results of the mutation runs (kept outside /verif while they run) into seeded/LOG.jsonl."""
import json, glob, os, sys
src = sys.argv[1] if len(sys.argv) > 1 else '/tmp/mut'
tight = json.load(open(os.path.join(os.path.dirname(__file__), 'tightened.json')))
out = [dict(id='early1', definition='dielectricReflTrans', edit='arguments of fresnelReflectance swapped', claim='C47: the weights are those of Fresnel', theorems_failed=[], survived=True,
            theorems_tightened=['C47_dielectric_energy'], note='the reflectance was existentially quantified in C47; it is now pinned to FresnelR of Spec')]
for f in sorted(glob.glob(src + '/o?.jsonl')):
    for l in open(f):
        r = json.loads(l)
        t = tight.get(r['key'], {})
        out.append(dict(id=r['key'], definition=r['definition'], edit=r['edit'], claim=t.get('claim', r['claim']), theorems_failed=[n for v in r['failed'].values() for n in v],
                        survived=r['ok'], theorems_tightened=t.get('theorems', []), note=t.get('note', '')))
f = src + '/auto.jsonl'
if os.path.exists(f):
    k = 0
    for l in open(f):
        r = json.loads(l)
        if r['result'] == 'invalid':
            continue
        k += 1
        key = f"{r['definition']}: {r['edit']}"
        t = tight.get(key, {})
        out.append(dict(id=f'auto{k}', definition=r['definition'], edit=r['edit'], claim=t.get('claim', 'the properties whose theorems are listed as failed (a random syntactic edit)'), theorems_failed=[n for _, n in r['failed']],
                        survived=r['result'] == 'survived', theorems_tightened=t.get('theorems', []), note=t.get('note', '')))
with open(os.path.join(os.path.dirname(__file__), '..', 'seeded', 'LOG.jsonl'), 'w') as g:
    for r in out:
        g.write(json.dumps(r, ensure_ascii=False) + '\n')
print(len(out), 'mutants,', sum(r['survived'] for r in out), 'survived when first run')
