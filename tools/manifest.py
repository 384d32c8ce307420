import re,json,glob
# theorem names in Props files begin with the property id
thms={}
for f in sorted(glob.glob('/verif/lean/Verif/Props/*.lean')):
    s=open(f).read()
    ns=re.search(r'^namespace (\S+)',s,re.M).group(1)
    for m in re.finditer(r'^theorem (C\d\d\d?_\w+\'?)',s,re.M):
        n=m.group(1); pid=n.split('_')[0]
        thms.setdefault(pid,[]).append(ns+'.'+n)
notes=json.load(open('/verif/tools/notes.json'))
claims=[]
for l in open('/verif/properties.jsonl'):
    pid=json.loads(l)['id']
    st,note=notes.get(pid,[None,''])
    if pid not in thms:
        claims.append({"property":pid,"status":"not_applicable","theorems":[],"note":note or "Not modelled yet."})
    else:
        assert st, pid
        claims.append({"property":pid,"status":st,"theorems":thms[pid],"note":note})
json.dump({"claims":claims},open('/verif/MANIFEST.json','w'),indent=1)
print(len(claims),sum(c['status']=='proved' for c in claims),sum(c['status']=='partial' for c in claims))
