#!/usr/bin/env python3
"""Writes lean/Verif/Model/Texts.lean from the ToString methods of /repo that are a switch over a code returning constant texts."""
import re,os
ROOT='/repo'
def funcs():
    for r,ds,ff in sorted(os.walk(ROOT)):
        for f in sorted(ff):
            if not f.endswith('.go') or f.endswith('_test.go'): continue
            p=os.path.join(r,f); L=open(p).read().split('\n'); i=0
            while i<len(L):
                m=re.match(r'func \((\w+) (\*?\w+)\) ToString\(\) string',L[i])
                if m:
                    j=i
                    while L[j]!='}': j+=1
                    yield (os.path.relpath(p,ROOT),i+1,j+1,m.group(1),m.group(2),[x.strip() for x in L[i+1:j] if x.strip()])
                    i=j
                i+=1
def consts(d):
    c={}
    for f in os.listdir(d):
        if not f.endswith('.go'): continue
        s=open(d+'/'+f).read()
        for blk in re.findall(r'const \((.*?)\n\)',s,re.S):
            for ln in blk.split('\n'):
                ln=ln.split('//')[0].strip()
                m=re.match(r'(\w+)\s+(\w+)?\s*=\s*(0x[0-9a-fA-F]+|\d+)$',ln)
                if m: c[m.group(1)]=int(m.group(3),0)
    return c
def prefix(path):
    q=path.split('/')
    return {'bds':q[2],'adsb':(q[2].split('_')[0] if len(q)>3 else 'adsb'),'acas':'acas','modes':'modes'}[q[1]] if q[1]!='commb' else 'commb'
def tables():
    for path,a,b,recv,typ,body in funcs():
        if not body[0].startswith('switch '+recv): continue
        nb=[]
        for x in body:
            if nb and nb[-1].startswith('case ') and not nb[-1].endswith(':'): nb[-1]+=' '+x
            else: nb.append(x)
        body=nb
        if not all(re.match(r'switch \w+ {|case [\w, .]+:$|default:$|return ("(?:[^"\\]|\\.)*"|fmt\.Sprintf\("[^"]*", '+recv+r'\))$|}$',x) for x in body): continue
        C=consts(os.path.join(ROOT,os.path.dirname(path)))
        tbl=[];default=None;cur=None;ok=True
        for x in body:
            if x.startswith('case '): cur=[C[y.strip()] for y in x[5:-1].split(',')]
            elif x=='default:': cur=None
            elif x.startswith('return '):
                v=x[7:]
                if cur is None: default=v
                elif v.startswith('"'): tbl+= [(k,v) for k in cur]
                else: tbl+=[(k,'SPRINTF '+re.match(r'fmt\.Sprintf\("%v([^"]*)"',v).group(1)) for k in cur]
        if default is None: continue
        m=re.match(r'fmt\.Sprintf\("%v([^"]*)", \w+\)$',default)
        if not m: continue
        yield prefix(path)+typ,path,a,b,typ,tbl,m.group(1)
if __name__=='__main__':
    out=['import Verif.Model.Text','/-!','# Texts of the coded fields','',
     'Written by tools/gen_texts.py from the `ToString` methods of /repo that are a `switch` over the code. A code is a byte.','-/',
     'namespace Modes','namespace Text','']
    names=[]
    for name,path,a,b,typ,tbl,suf in tables():
        n=name[0].lower()+name[1:]
        names.append(n)
        # cases that print the code itself
        ent=[(k,'t! '+v) if not v.startswith('SPRINTF') else (k,f'dec {k} ++ t! "{v[8:]}"') for k,v in tbl]
        out.append(f'/-- `{typ}.ToString`, {path}:{a}-{b}. -/')
        if ent:
            out.append(f'def {n} : UInt8 → Txt := tableText [')
            out.append(',\n'.join(f'  ({k}, {v})' for k,v in ent)+f'] (t! "{suf}")')
        else: out.append(f'def {n} : UInt8 → Txt := tableText [] (t! "{suf}")')
        out.append('')
    out+=['end Text','end Modes','']
    open('/verif/lean/Verif/Model/Texts.lean','w').write('\n'.join(out))
    print(len(names)); assert len(set(names))==len(names)
