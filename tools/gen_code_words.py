"""Writes lean/Verif/Props/CodeWords.lean: the theorems of MANIFEST.json about the words of errors, restated for the functions
translated from the code with the words of their errors (Model/TranslationWords)."""
import re,glob,json
R='/verif/lean'
W={}; C={}; args={}
for f in glob.glob(R+'/Verif/Props/TranslationWords*.lean'):
    s=open(f).read()
    for m in re.finditer(r'^theorem same_words_(\w+) (.*?):\s*\((Said\.\S+) ([^)]*)\)\.words = (\w+) ([^:]*?) := by',s,re.M|re.S):
        W[m[5]]=(m[3],m[4].split(),m[6].split(),m[1])
    for m in re.finditer(r'^theorem (coherency_words_\w+) \(m : (\w+)\) :\s*(\S+) m = told m\.incoherence',s,re.M):
        C[m[2]]=(m[3],m[1])
M={}
for f in glob.glob(R+'/Verif/Props/Translation*.lean'):
    for g,m in re.findall(r'@\[translated\] theorem \S+ :\s*@(Gen\.\S+)\s*=\s*@(\S+)',open(f).read()): M.setdefault(m,g)
M={m:g for m,g in M.items() if re.match(r'(read|parseDF)\w+$',m)}
src={f:open(f).read() for f in sorted(glob.glob(R+'/Verif/Props/*.lean'))}
out=[]; skipped=[]
for c in json.load(open('/verif/MANIFEST.json'))['claims']:
    if c['property'] not in ('C100','C103','C104','C106'): continue
    for t in c['theorems']:
        n=t.split('.')[-1]
        if n.startswith(('words_','code_','same_')): continue
        for f,s in src.items():
            i=re.search(r'^theorem '+re.escape(n)+r"(?![\w'.])",s,re.M)
            if i: break
        else: continue
        k=i.end(); d=0
        while not (d==0 and s.startswith(':=',k)):
            d+=(s[k] in '([{⟨')-(s[k] in ')]}⟩'); k+=1
        sig=s[i.end():k]; d=0; j=0
        while not (d==0 and sig[j]==':'):
            d+=(sig[j] in '([{⟨')-(sig[j] in ')]}⟩'); j+=1
        b,st=sig[:j].strip(),sig[j+1:].strip()
        full=(f'∀ {b},\n    ' if b else '')+st
        L=[]; ok=True
        for e,(g,a,r,th) in W.items():
            if e in('adsbError','crcError','airbornePositionError'): 
                if re.search(r'\b'+e+r'\b',full): ok=False
                continue
            nn=len(r)
            pat=r'(?<![\w.])'+e+r"(?![\w'])"+r'((?: (?:\w+|\[[^\]]*\])){'+str(nn)+'})'
            if re.search(pat,full):
                if len(a)!=nn:
                    if not re.search(r'\(a( c)? : Bool\)',full): ok=False; continue
                    def rep(m,a=a,r=r,g=g):
                        v=dict(zip(r,m[1].split())); return '('+g+' '+' '.join(v.get(x,x) for x in a)+').words'
                    full=re.sub(pat,rep,full)
                else: full=re.sub(pat,lambda m:'('+g+m[1]+').words',full)
                L.append('same_words_'+th)
        tys=re.search(r'\bm : (\w+)',full)
        if 'm.incoherence' in full and tys and tys[1] in C:
            full=re.sub(r'm\.incoherence',f'({C[tys[1]][0]} m).words',full); L+=[C[tys[1]][1],'told_words']
        if not ok or not L: skipped.append(n); continue
        tr=False
        for m,g in M.items():
            full,x=re.subn(r'(?<![\w.])'+m+r"(?![\w'])",g,full); tr|=x>0
        if tr: L.append('translated')
        out.append((c['property'],n,f.split('/')[-1][:-5],full,L))
mods=sorted({o[2] for o in out})
Z=["import Verif.Props.TranslationWordsReaders"]+[f"import Verif.Props.{m}" for m in mods]+["""/-!
# The theorems about the words of errors, of the translated code

Written by `tools/gen_code_words.py`: each theorem is the theorem of the same name (without `words_`) with the errors and the readers of
the hand-written model replaced by what `tools/go2lean` translated from the text of /repo.
-/""","set_option linter.unusedSimpArgs false","set_option linter.unusedVariables false","namespace Modes","open Spec Text","","/-- The words of an error told. -/\ntheorem told_words (o : Option Txt) : (told o).words = o := by cases o <;> rfl\n"]
for p,n,m,full,L in out:
    Z.append(f"/-- `{n}` ({p}), of the translated code. -/\ntheorem words_{n} :\n    {full} := by\n  simp only [{', '.join(L)}]; exact @{n}\n")
Z.append("end Modes\n")
open(R+'/Verif/Props/CodeWords.lean','w').write("\n".join(Z))
print(len(out),'skipped',skipped)
