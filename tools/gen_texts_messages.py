#!/usr/bin/env python3
"""Writes lean/Verif/Model/TextRegisters.lean: the lines of the ToString methods of the registers, from the Sprintf calls of /repo."""
import re,os,sys
sys.path.insert(0,os.path.dirname(__file__))
import gen_texts as G
TABLES={(os.path.dirname(path),typ):(name[0].lower()+name[1:]) for name,path,a,b,typ,tbl,suf in G.tables()}
ROOT='/repo'
LEAN='/verif/lean/Verif/Model/'
def gofile(p): return open(os.path.join(ROOT,p)).read()
def struct_fields(p,typ):
    m=re.search(r'type '+typ+r' struct \{(.*?)\n\}',gofile(p),re.S)
    if not m: return {}
    d={}
    for l in m.group(1).split('\n'):
        l=l.split('//')[0].strip()
        q=re.match(r'(\w+)\s+(\*?[\w.\[\]]+)$',l)
        if q: d[q.group(1)]=q.group(2)
    return d
def tostring(p,typ):
    L=gofile(p).split('\n')
    for i,l in enumerate(L):
        m=re.match(r'func \((\w+) \*?'+typ+r'\) ToString\(\) string',l)
        if m:
            j=i
            while L[j]!='}': j+=1
            return m.group(1),i+1,j+1,'\n'.join(L[i+1:j])
def split_args(s):
    out=[];d=0;q=False;c=''
    for ch in s:
        if ch=='"': q=not q
        if not q:
            if ch=='(': d+=1
            if ch==')': d-=1
            if ch==',' and d==0: out.append(c.strip()); c=''; continue
        c+=ch
    if c.strip(): out.append(c.strip())
    return out
def sprintf(body):
    m=re.search(r'return fmt\.Sprintf\((.*)\)\s*$',body,re.S); s=m.group(1); i=0; fmt=''
    while True:
        mm=re.match(r'\s*"((?:[^"\\]|\\.)*)"\s*(\+?)',s[i:]); fmt+=mm.group(1); i+=mm.end()
        if not mm.group(2): break
    return fmt,split_args(s[i:].lstrip().lstrip(','))
def lean_struct(name):
    for f in sorted(os.listdir(LEAN)):
        if not f.endswith('.lean'): continue
        m=re.search(r'^structure '+name+r' where\n((?:  .*\n)+)',open(LEAN+f).read(),re.M)
        if m: return dict((a,b.strip()) for a,b in re.findall(r'^  (\w+) : (.*)$',m.group(1),re.M))
    if name=='NoMessageAvailable': return {}
    raise KeyError(name)
REG=dict(re.findall(r'var (BDS\w\w) = Register\{\s*id:\s*"([^"]*)",\s*description:\s*"',gofile('pkg/bds/register/register_reference.go')))
REGD=dict(re.findall(r'var (BDS\w\w) = Register\{\s*id:\s*"[^"]*",\s*description:\s*"([^"]*)"',gofile('pkg/bds/register/register_reference.go')))
def lower(n):
    m=re.match(r'^([A-Z]+)(?=[A-Z][a-z]|$|\d)',n)
    if n[:1].isupper() and n[1:2].islower(): return n[0].lower()+n[1:]
    if m: return m.group(1).lower()+n[len(m.group(1)):]
    return n[0].lower()+n[1:]
# (go file, go type, lean structure, overrides go field -> lean field, nested go field -> lean expression of lines)
B='pkg/bds/'
MSG=[
 ('acas',None,None,None,None),
]
def register_of(p,typ):
    d=os.path.dirname(p)
    m=re.search(r'func \(\w+ \*?'+typ+r'\) GetRegister\(\) register\.Register \{\s*return register\.(\w+)',gofile(p))
    return m.group(1)
problems=[]
def value(arg,recv,p,typ,S,ov,gof,var):
    d=os.path.dirname(p)
    if arg==recv+'.GetRegister().ToString()': return 'registerText Register.'+register_of(p,typ).lower()
    m=re.match(r'common\.PrefixMultiLine\('+recv+r'\.(\w+)\.ToString\(\), "    "\)$',arg)
    if m: return ('NEST',m.group(1))
    m=re.match(recv+r'\.(to\w+String)\(\)$',arg)
    if m: return ov[m.group(1)]
    m=re.match(recv+r'\.(\w+?)(\(\))?\.ToString\(\)$',arg)
    if m:
        f=m.group(1)
        if m.group(2): # getter
            g=re.search(r'func \(\w+ \*?'+typ+r'\) '+f+r'\(\) ([\w.]+) \{\s*return (?:\w+\.)?(\w+)',gofile(p))
            gt=g.group(1); f=f[3:]
        else: gt=gof[f]
        lf=ov.get(f,lower(f))
        if lf.startswith('='): return lf[1:]
        if lf not in S: problems.append((typ,f,lf,'no field')); return '?'
        tp=gt.split('.')[-1]
        dd=d+'/fields' if '.' in gt else d
        t=TABLES.get((dd,tp))
        if tp=='NumericValueStatus': return f'NumericValueStatus.text {var}.{lf}'
        if t is None: problems.append((typ,f,gt,'no table')); return '?'
        lt=S[lf]
        if lt=='UInt8': return f'Text.{t} {var}.{lf}'
        if lt=='Nat': return f'Text.{t} (UInt8.ofNat {var}.{lf})'
        problems.append((typ,f,lt,'type')); return '?'
    m=re.match(recv+r'\.(\w+)$',arg)
    if m:
        f=m.group(1); gt=gof[f]; lf=ov.get(f,lower(f))
        if lf.startswith('='): return lf[1:]
        if lf not in S: problems.append((typ,f,lf,'no field')); return '?'
        lt=S[lf]
        if lt in('UInt8','UInt16','UInt32'): return f'dec {var}.{lf}.toNat'
        if lt=='Int': return f'decInt {var}.{lf}'
        if lt=='Bool': return f'boolText {var}.{lf}'
        if lt=='ℚ': return f'F.{gt} {var}.{lf}'
        if lt=='List UInt8' and gt=='string': return f'asciiText {var}.{lf}'
        problems.append((typ,f,gt,lt)); return '?'
    problems.append((typ,arg)); return '?'
def emit(p,typ,S,ov={},nest={},name='lines',var='m',fp=False):
    recv,a,b,body=tostring(p,typ); fmt,args=sprintf(body); gof=struct_fields(p,typ); LS=lean_struct(S)
    lines=fmt.replace('%%','%').split('\\n') if False else fmt.split('\\n')
    groups=[];cur=[];k=0
    for l in lines:
        l2=l.replace('%%','\0'); n=l2.count('%v'); lab=l2.split('%v')[0].replace('\0','%'); rest=l2[len(l2.split('%v')[0])+2:] if n else ''
        assert n<=1 and rest=='',(typ,l)
        if n==0: cur.append(f'(t! "{lab}", t! "")')
        else:
            v=value(args[k],recv,p,typ,LS,ov,gof,var); k+=1
            if isinstance(v,tuple):
                if lab=='':
                    if cur: groups.append('['+',\n    '.join(cur)+']'); cur=[]
                    groups.append(nest[v[1]])
                else:
                    cur.append(('FIRST',lab,nest[v[1]]))
                    x=cur.pop(); 
                    if cur: groups.append('['+',\n    '.join(cur)+']'); cur=[]
                    groups.append(f'labelled (t! "{lab}") ({nest[v[1]]})')
            elif isinstance(v,str) and v.startswith('LINES '):
                if cur: groups.append('['+',\n    '.join(cur)+']'); cur=[]
                groups.append(v[6:] if lab=='' else f'labelled (t! "{lab}") ({v[6:]})')
            else: cur.append(f'(t! "{lab}", {v})')
    assert k==len(args),(typ,k,args)
    if cur: groups.append('['+',\n    '.join(cur)+']')
    text=' ++\n    '.join(groups)
    fpar='(F : FloatTexts) ' if fp or re.search(r'\bF\b',re.sub(r't! "[^"]*"','',text)) else ''
    return f'/-- `{typ}.ToString`, {p}:{a}-{b}. -/\ndef {S}.{name} {fpar}({var} : {S}) : List (Txt × Txt) :=\n    {text}\n'

F65='pkg/bds/bds65/fields/'
UAT={'UniversalAccessTransceiverCapability':'uatCapability'}
RA={'ACASResolutionAdvisoryActive':'acasRAActive'}
VN={'VersionNumber':'=versionNumberText m.versionNumber'}
NEST65={'AirborneCapabilityClass':'nest m.airborneCapabilityClass.lines','SurfaceCapabilityClass':'nest m.surfaceCapabilityClass.lines','OperationalMode':'nest m.operationalMode.lines','SurveillanceIntegrityLevel':'nest (silLines m.surveillanceIntegrityLevel)'}
def registers():
    out=''
    src=gofile('pkg/bds/register/register_reference.go').split('\n')
    for k in REG:
        ln=[i+1 for i,l in enumerate(src) if l.startswith(f'var {k} =')][0]
        out+=f'/-- `register.{k}`, pkg/bds/register/register_reference.go:{ln}-{ln+3}. -/\ndef Register.{k.lower()} : Register := \u27e8t! "{REG[k]}", t! "{REGD[k]}"\u27e9\n'
    return out+'\n'
def nuc():
    s=gofile('pkg/bds/bds09/fields/navigation_uncertainty_category.go')
    h=re.search(r'nucpHorizontalLabel\s*=\s*"([^"]*)"',s).group(1); v=re.search(r'nucpVerticalLabel\s*=\s*"([^"]*)"',s).group(1)
    ent=[]
    for k,(n,a,b) in enumerate(re.findall(r'return fmt\.Sprintf\("(\d) - %v %v / %v %v",\s*nucpHorizontalLabel, "([^"]*)",\s*nucpVerticalLabel, "([^"]*)"\)',s)):
        ent.append(f'  ({k+1}, t! "{n} - {h} {a} / {v} {b}")')
    return ',\n'.join(ent)+'] (t! " - Unknown code")\n'
def sil(b='65'):
    s=gofile(f'pkg/bds/bds{b}/fields/surveillance_integrity_level.go')
    h=re.search(r'silLabelHorizontal\s*=\s*"([^"]*)"',s).group(1); v=re.search(r'silLabelVertical\s*=\s*"([^"]*)"',s).group(1)
    out='';
    for k,(a,b) in enumerate(re.findall(r'silLabelHorizontal, "([^"]*)",\s*silLabelVertical, "([^"]*)"\)',s)):
        out+=f'  {"else " if k else ""}if level = {k} then [(t! "{h}", t! "{a}"), (t! "{v}", t! "{b}")]\n'
    return out+'  else [(t! "", dec level.toNat ++ t! " - Unknown code")]\n'
def both(f,t,S,ov,nc):
    a=emit(B+f'bds09/{f}_normal.go',t+'Normal',S,ov=ov); b=emit(B+f'bds09/{f}_supersonic.go',t+'Supersonic',S,ov=ov)
    assert a.split('-/')[1]==b.split('-/')[1]
    loc=re.search(r'pkg\S*\d',b).group(0)
    a=a.replace('. -/',f', and `{t}Supersonic.ToString`, {loc}\n(identical). -/',1)
    return a.replace('\ndef ','\nnoncomputable def ') if nc else a
def gs(): return both('airborne_velocity_ground_speed','AirborneVelocityGroundSpeed','GroundSpeedVelocity',{'toSpeedString':'m.speedText','toTrackString':'m.trackText F','NavigationUncertaintyCategory':'=navigationUncertaintyText m.navigationUncertaintyCategory','DifferenceAltitudeGNSSBaroStatus':'heightDifferenceStatus','DifferenceAltitudeGNSSBaro':'heightDifference'},True)
def air(): return both('airborne_velocity_air_speed','AirborneVelocityAirSpeed','AirSpeedVelocity',{'NavigationUncertaintyCategory':'=navigationUncertaintyText m.navigationUncertaintyCategory','HeightDifferenceFromBaroStatus':'heightDifferenceStatus','HeightDifferenceFromBaro':'heightDifference'},False)
if __name__=='__main__':
    parts=open(os.path.join(os.path.dirname(os.path.abspath(__file__)),'texts_registers.txt')).read().split('--INSERT ')
    res=parts[0]
    for part in parts[1:]:
        cmd,rest=part.split('\n',1)
        r=eval(cmd)
        res+=r+(rest[1:] if r.endswith('\n') and rest.startswith('\n') and not r.endswith('\n\n') else rest) if False else r+rest
    for x in problems: print('PROBLEM',x)
    open(LEAN+'TextRegisters.lean','w').write(res)
