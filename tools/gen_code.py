"""Writes lean/Verif/Props/CodeTheorems.lean: the theorems of MANIFEST.json about functions of the hand-written model,
restated for the functions translated from the code."""
import re,glob,json
R='/verif/lean'
# model name -> Gen name from same_* theorems of the form @Gen.x = @y
M={}
for f in glob.glob(R+'/Verif/Props/Translation*.lean'):
    for g,m in re.findall(r'@\[translated\] theorem \S+ :\s*@(Gen\.\S+)\s*=\s*@(\S+)',open(f).read()): M.setdefault(m,g)
M['readMessage']='Gen.modes.reader.ReadMessage'; M['checkCRC']='Gen.modes.reader.CheckCRC'; M['computeParity']='Gen.modes.reader.computeParity'
E=['readMessage','checkCRC','computeParity','readResolutionAdvisory']+sorted(m for m in M if re.match(r'readBDS\d\d(V\d)?$',m))
E=[e for e in E if e in M]
G={'getNumberOfLongitudeF':('getNumberOfLongitude','same_geo_fn_getNumberOfLongitude'),'airborneGlobalF':('GetCPRAirborneGlobalPosition','same_geo_fn_airborneGlobal'),'airborneLocalF':('GetCPRAirborneLocalPosition','same_geo_fn_airborneLocal'),'surfaceGlobalF':('GetCPRSurfaceGlobalPosition','same_geo_fn_surfaceGlobal'),'surfaceLocalF':('GetCPRSurfaceLocalPosition','same_geo_fn_surfaceLocal')}
for k,v in G.items(): M[k]='Gen.geo.'+v[0]; E.append(k)
src={f:open(f).read() for f in glob.glob(R+'/Verif/Props/*.lean')}
man=json.load(open('/verif/MANIFEST.json'))['claims']
seen=set(); out=[]
for c in man:
    for t in c['theorems']:
        if t in seen or 'code_' in t or not re.match(r'Modes\.(Geo\.)?[\w\']+$',t): continue
        seen.add(t); n=t.split('.')[-1]
        for f,s in src.items():
            i=re.search(r'^theorem '+re.escape(n)+r"(?![\w'.])",s,re.M)
            if i: break
        else: continue
        # statement: up to ':=' at depth 0
        k=i.end(); d=0
        while not (d==0 and s.startswith(':=',k)):
            if s[k] in '([{⟨': d+=1
            if s[k] in ')]}⟩': d-=1
            k+=1
        sig=s[i.end():k]
        # split binders / stmt at ':' depth 0
        d=0; j=0
        while True:
            ch=sig[j]
            if ch in '([{⟨': d+=1
            if ch in ')]}⟩': d-=1
            if d==0 and ch==':' : break
            j+=1
        b,st=sig[:j].strip(),sig[j+1:].strip()
        if 'GeoSpecial' in f: continue
        names=[e for e in E if re.search(r'(?<![\w.])'+e+r"(?![\w'])",sig)]
        if not names: continue
        full=(f'∀ {b},\n    ' if b else '')+st
        for e in names: full=re.sub(r'(?<![\w.])'+e+r"(?![\w'])",M[e],full)
        out.append((c['property'],n,f.split('/')[-1][:-5],full,names))
mods=sorted({o[2] for o in out})
L=["import Verif.Props.TranslationCommB","import Verif.Props.TranslationGeo"]+[f"import Verif.Props.{m}" for m in mods]+["""/-!
# The theorems, of the translated code

Written by `tools/gen_code.py`: each theorem is the theorem of the same name (without `code_`) with the functions of the hand-written
model replaced by those that `tools/go2lean` translated from the text of /repo.
-/""","set_option linter.unusedSimpArgs false","set_option linter.unusedVariables false","namespace Modes","open Spec Polynomial Text Geo",""]
for p,n,m,full,names in out:
    S=[]
    for e in names: S.append({'readMessage':'same_ReadMessage','checkCRC':'same_CheckCRC','computeParity':'same_computeParity'}.get(e) or (G[e][1] if e in G else 'translated'))
    S=list(dict.fromkeys(S))
    pr=f"by\n  simp only [{', '.join(S)}]; exact @{n}"
    if n in ('status_content','operational_status_content'):
        r='readBDS61' if n[0]=='s' else 'readBDS65'
        pr=f"by\n  intro d m h\n  have h' : {r} d = .ok m := by simpa only [translated] using h\n  have e := {n} d m h'\n  cases m <;> simpa only [translated] using e"
    L.append(f"/-- `{n}` ({p}), of the translated code. -/\ntheorem code_{n} :\n    {full} := {pr}\n")
L.append("end Modes\n")
open(R+'/Verif/Props/CodeTheorems.lean','w').write("\n".join(L))
print(len(out))
