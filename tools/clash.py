import re,glob,collections
d=collections.defaultdict(set)
for f in glob.glob('/verif/lean/Verif/Props/*.lean'):
    for l in open(f):
        m=re.match(r'(?:private |noncomputable |protected |@\[[^\]]*\] )*(?:theorem|lemma|def|abbrev|structure|inductive|instance|class)\s+([^\s:({\[]+)',l)
        if m: d[m.group(1)].add(f.split('/')[-1])
for k,v in sorted(d.items()):
    if len(v)>1 and not k.startswith(':'): print(k,sorted(v))
