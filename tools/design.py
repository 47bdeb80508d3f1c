"""Writes DESIGN.md: the hand-written text below, and a table generated from properties.jsonl and MANIFEST.json."""
import json,re,glob
props=[json.loads(l) for l in open('/verif/properties.jsonl')]
man={c['property']:c for c in json.load(open('/verif/MANIFEST.json'))['claims']}
where={}
for f in glob.glob('/verif/lean/Verif/*/*.lean'):
    s=open(f).read()
    mod='/'.join(f.split('/')[-2:])[:-5]
    for m in re.finditer(r'(?m)^(?:@\[.*?\] )?theorem\s+(\S+)',s):
        where.setdefault(m.group(1).split('.')[-1],set()).add(mod)
def mods(c):
    out=[]
    for t in c['theorems']:
        for m in sorted(where.get(t.split('.')[-1],[])):
            if m not in out: out.append(m)
    return out
text=open('/verif/tools/design_head.md').read()
PLAN=json.load(open('/verif/tools/design_plan.json'))
rows=[]
for p in sorted(props,key=lambda p:p['id']):
    c=man[p['id']]
    rows.append(f"| {p['id']} | {p['title']} | {PLAN.get(p['id'],'')} | {c['status']} | {', '.join('`'+m+'`' for m in mods(c)[:4])} |")
table="| id | property | what is modelled, and how it is proved | status | theorems in |\n|---|---|---|---|---|\n"+"\n".join(rows)+"\n"
missing=[p['id'] for p in props if p['id'] not in PLAN]
print("no plan:",missing)
open('/verif/DESIGN.md','w').write(text.replace("@@TABLE@@",table))
