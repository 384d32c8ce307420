"""Write AXIOMS.md: the axioms of every theorem named in MANIFEST.json (run after `lake build`)."""
import json, re, subprocess, collections
m = json.load(open('/verif/MANIFEST.json'))
ts = [t for c in m['claims'] for t in c['theorems']]
open('/tmp/axioms.lean', 'w').write('import Verif\n' + ''.join(f'#print axioms {t}\n' for t in ts))
s = subprocess.run(['lake', 'env', 'lean', '/tmp/axioms.lean'], cwd='/verif/lean', capture_output=True, text=True).stdout
s = s.replace('\n ', ' ')
g = collections.defaultdict(list)
for l in s.split('\n'):
    r = re.match(r"'(?:Verif\.Props\.)?(.*)' (?:depends on axioms: \[(.*)\]|does not)", l)
    if r: g[r.group(2) or 'none'].append(r.group(1))
    elif l: print('?', l)
out = ['# Axioms of the theorems in MANIFEST.json', '', 'Made by `tools/axioms.py` from `#print axioms`.', '']
for k in sorted(g, key=len):
    out += [f'## {k}', '', ', '.join(sorted(g[k])), '']
open('/verif/AXIOMS.md', 'w').write('\n'.join(out))
print({k: len(v) for k, v in g.items()})
