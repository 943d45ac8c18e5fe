#!/usr/bin/env python3
# Source of properties.jsonl (kept in one place so titles/anchors stay consistent).
import json
P=[]
def p(id,title,statement,quantifier,why,anchors):
    P.append(dict(id=id,title=title,statement=statement,quantifier=quantifier,why_tests_cant=why,anchors=anchors))
exec(open('/verif/tools/props_data.py').read())
with open('/verif/properties.jsonl','w') as f:
    for x in P: f.write(json.dumps(x)+'\n')
print(len(P))
