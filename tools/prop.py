"""Helpers for editing properties.jsonl and notes.json."""
import json
P='/verif/properties.jsonl'; N='/verif/tools/notes.json'
def props(): return [json.loads(l) for l in open(P)]
def save(ps): open(P,'w').write(''.join(json.dumps(p,ensure_ascii=False)+'\n' for p in ps))
def edit(id,**kw):
    ps=props()
    for p in ps:
        if p['id']==id: p.update(kw); break
    else: ps.append({'id':id,**kw})
    save(ps)
def note(id,status,text):
    n=json.load(open(N)); n[id]=[status,text]
    json.dump(dict(sorted(n.items())),open(N,'w'),indent=1,ensure_ascii=False)
