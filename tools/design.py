"""Writes DESIGN.md from tools/design_head.md, tools/method.json, properties.jsonl and MANIFEST.json."""
import json,re
import os
R=os.path.dirname(os.path.dirname(os.path.abspath(__file__)))+'/'
head=open(R+'tools/design_head.md').read()
meth=json.load(open(R+'tools/method.json'))
props=[json.loads(l) for l in open(R+'properties.jsonl')]
man={c['property']:c for c in json.load(open(R+'MANIFEST.json'))['claims']}
o=head
for p in props:
    c=man[p['id']]
    o+=f"* **{p['id']} {p['title']}** ({c['status']}). {meth.get(p['id'],'')} {c['note']}\n"
open(R+'DESIGN.md','w').write(o)
