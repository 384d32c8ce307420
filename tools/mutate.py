"""Try wrong programs against the theorems.

usage: mutate.py [--again] list.py ...      each file defines M, a list of
   (model file, definition, old text, new text, property it should break, Props modules to build)

Works on a scratch copy of /verif/lean in /tmp/mut/lean and appends one line per attempt to seeded/LOG.jsonl.
`failed` are the declarations in which Lean reports errors; `affected` are the property theorems whose proof uses
one of them (from /tmp/mut/deps.txt, see tools/deps.lean.txt); `survived` means that everything still builds.
Edits already in the log are skipped, unless --again is given: then a second line with "again": true is added.
"""
import json, os, re, subprocess, sys, shutil, time
SRC = '/verif/lean'; DST = '/tmp/mut/lean'; LOG = '/verif/seeded/LOG.jsonl'

def sync():
    subprocess.run(['rsync', '-a', '--delete', SRC + '/', DST + '/'], check=True) if shutil.which('rsync') else \
        (shutil.rmtree(DST, ignore_errors=True), shutil.copytree(SRC, DST, symlinks=True))

def deps():
    d = {}
    for l in open('/tmp/mut/deps.txt'):
        n, r = l.rstrip('\n').split(':', 1)
        d[n] = ['.' + x for x in r.split(',')]
    return d

def enclosing(path, line):
    ls = open(path).read().split('\n')
    for i in range(min(line, len(ls)) - 1, -1, -1):
        m = re.match(r'(?:@\[.*\] )?(?:private |noncomputable |protected )*(theorem|lemma|def|abbrev|instance|example|structure|inductive)\b\s*([^\s:({\[]*)', ls[i])
        if m: return m.group(2) if m.group(1) != 'example' else f'example (line {line})'
    return '?'

def main():
    if not os.path.exists(DST): sync()
    D = deps()
    done = set()
    if os.path.exists(LOG):
        for l in open(LOG):
            if l.strip():
                r = json.loads(l); done.add((r['definition'], r['edit']))
    again = '--again' in sys.argv
    for f in [a for a in sys.argv[1:] if a != '--again']:
        g = {}; exec(open(f).read(), g)
        for file, name, old, new, claim, targets in g['M']:
            edit = f'{old}  =>  {new}'
            if (f'{file}: {name}', edit) in done and not again: continue
            p = f'{DST}/Verif/Model/{file}.lean'
            orig = open(f'{SRC}/Verif/Model/{file}.lean').read()
            # locate inside the definition
            k = re.search(r'(def|abbrev|inductive|structure) ' + re.escape(name) + r'\b', orig)
            assert k, (file, name)
            j = orig.find(old, k.start())
            assert j >= 0, (file, name, old)
            open(p, 'w').write(orig[:j] + new + orig[j + len(old):])
            t0 = time.time()
            tg = [('Verif.Props.' + t) if not t.startswith('Verif') else t for t in targets]
            r = subprocess.run(['lake', 'build'] + tg, cwd=DST, capture_output=True, text=True)
            out = r.stdout + r.stderr
            failed = []
            for m in re.finditer(r'error: (Verif/\S+\.lean):(\d+):', out):
                e = enclosing(f'{DST}/{m.group(1)}', int(m.group(2)))
                if 'Model/' in m.group(1): e = 'MODEL ' + e
                if e not in failed: failed.append(e)
            names = tuple('.' + x for x in failed)
            affected = sorted(c for c, s in D.items() if any(x.endswith(names) for x in s))
            open(p, 'w').write(orig)
            rec = {'definition': f'{file}: {name}', 'edit': edit, 'breaks': claim,
                   'failed': failed, 'affected': [a for a in affected],
                   'survived': r.returncode == 0, 'tightened': []}
            if again: rec['again'] = True
            if any(x.startswith('MODEL') for x in failed): print('INVALID', file, name, edit); print(out[-1500:]); continue
            open(LOG, 'a').write(json.dumps(rec, ensure_ascii=False) + '\n')
            hit = [a for a in affected if a.startswith(claim)]
            print('SURVIVED' if rec['survived'] else ('ok' if hit else 'OTHER'), file, name, edit, '|', claim, failed[:4], len(affected), f'{time.time()-t0:.0f}s', flush=True)
main()
