#!/usr/bin/env python3
"""Writes MANIFEST.json.  Theorems are collected from lean/Verif/Props by the
prefix Cnn_; status and notes are kept here."""
import json, os, re, glob
root=os.path.join(os.path.dirname(os.path.abspath(__file__)),"..")
exec(open(os.path.join(root,"tools","status.py")).read())   # STATUS: id -> (status, note)
thms={}
for f in sorted(glob.glob(os.path.join(root,"lean/Verif/Props/*.lean"))):
    ns=[]
    for line in open(f):
        m=re.match(r"namespace (\S+)",line)
        if m: ns.append(m.group(1))
        m=re.match(r"end (\S+)",line)
        if m and ns and ns[-1]==m.group(1): ns.pop()
        m=re.match(r"theorem ((C\d\d\d?)_\S+)",line)
        if m: thms.setdefault(m.group(2),[]).append(".".join(ns+[m.group(1)]))
props=[json.loads(l) for l in open(os.path.join(root,"properties.jsonl"))]
claims=[]
for p in props:
    i=p["id"]
    if i in STATUS and i in thms:
        claims.append(dict(property=i,status=STATUS[i][0],theorems=thms[i],note=STATUS[i][1]))
missing=[p["id"] for p in props if p["id"] not in [c["property"] for c in claims]]
for i in missing:
    if i in STATUS and STATUS[i][0]=="not_applicable":
        claims.append(dict(property=i,status="not_applicable",theorems=[],note=STATUS[i][1]))
json.dump(dict(claims=claims),open(os.path.join(root,"MANIFEST.json"),"w"),indent=1)
with open(os.path.join(root,"lean/Verif/Audit.lean"),"w") as f:
    for g in sorted(glob.glob(os.path.join(root,"lean/Verif/Props/*.lean"))):
        f.write("import Verif.Props.%s\n"%os.path.basename(g)[:-5])
    f.write("\n/-!\nAxioms of every theorem named in `MANIFEST.json` (generated by\n`tools/gen_manifest.py`; the output appears in the build log).\n-/\n\n")
    for c in claims:
        for t in c["theorems"]: f.write("#print axioms %s\n"%t)
print("claims",len(claims),"theorems",sum(len(c["theorems"]) for c in claims))
print("orphans",[k for k in thms if k not in STATUS]," unproved",[i for i in missing if i not in STATUS])
