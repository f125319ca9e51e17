#!/usr/bin/env python3
"""Regenerates the status table of DESIGN.md (between the markers) from MANIFEST.json and `#print axioms`."""
import json,re,subprocess,os,tempfile
R='/verif'
man=json.load(open(R+'/MANIFEST.json'))['claims']
props={json.loads(l)['id']:json.loads(l) for l in open(R+'/properties.jsonl')}
thms=[t for c in man for t in c['theorems']]
src="import Verif\n"+"".join(f"#print axioms {t}\n" for t in thms)
fn='/tmp/axioms_check.lean'; open(fn,'w').write(src)
out=subprocess.run(['lake','env','lean',fn],cwd=R+'/lean',capture_output=True,text=True).stdout
out=re.sub(r'\s+',' ',out)
ax={}
for m in re.finditer(r"'([^']+)' (depends on axioms: \[([^\]]*)\]|does not depend on any axioms)",out):
    ax[m.group(1)]=[a.strip() for a in (m.group(3) or '').split(',') if a.strip()]
assert all(t in ax for t in thms),[t for t in thms if t not in ax]
code={'propext':'P','Classical.choice':'C','Quot.sound':'Q'}
bad={a for t in thms for a in ax[t]}-set(code)
assert not bad,bad
L=["| Id | Property | Status | Theorems (axioms) | Note |","|---|---|---|---|---|"]
for c in man:
    ts=", ".join(f"`{t}` ({''.join(code[a] for a in ax[t]) or '-'})" for t in c['theorems'])
    L.append(f"| {c['property']} | {props[c['property']]['title']} | {c['status']} | {ts} | {c['note'].replace('|','/')} |")
d=open(R+'/DESIGN.md').read()
a,b='<!-- status:begin -->','<!-- status:end -->'
i=d.index(a)+len(a); k=d.index(b)
open(R+'/DESIGN.md','w').write(d[:i]+"\n"+"\n".join(L)+"\n"+d[k:])
print(len(thms),"theorems")
