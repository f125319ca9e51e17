"""Convert raw mutation logs (arguments) to seeded/LOG.jsonl lines (appended, without duplicates).
The claims: by theorem name via MANIFEST.json, otherwise by the properties anchored on the Go file the
edited Lean definition models (via the claim table of that module)."""
import json,sys,re
man=json.load(open('/verif/MANIFEST.json')); props={}
for l in open('/verif/properties.jsonl'):
    d=json.loads(l); props[d['id']]=d
mod2thm={}
import glob,os
thmfile={}
for f in glob.glob('/verif/lean/Verif/Props/*.lean'):
    for m in re.finditer(r'^theorem (\S+)',open(f).read(),re.M): thmfile[m.group(1).split('.')[-1]]=os.path.basename(f)
mod2claim={}
for c in man['claims']:
    for t in c['theorems']:
        g=thmfile.get(t.split('.')[-1])
        if g: mod2claim.setdefault(g,[]).append(c['property'])
out='/verif/seeded/LOG.jsonl'
seen=set()
if os.path.exists(out):
    for l in open(out):
        d=json.loads(l); seen.add((d['definition'],d['edit']))
T={'orIf8':(['C70'],['pack8Bits_digits']),'ADSBMessage.coherent':(['C69'],['adsb_coherent_iff']),'Details.text':(['C98'],['squitter_content_output']),'velocityError':(['C104'],['velocity_register_reason']),'runMain':(['C101'],['run_level_not_number']),'commBTexts':(['C98'],['commBTexts_eq']),'identityText':(['C75'],['identityText_digits']),'lengthError':(['C104'],['velocity_register_reason']),'parityErrorText':(['C106'],['checkCRC_reasons']),'RAComplement.lines':(['C108'],['advisory_text_actual']),'activeRASenseText':(['C108'],['advisory_text_actual'])}
n=0
with open(out,'a') as o:
  for fn in sys.argv[1:]:
    for l in open(fn):
        d=json.loads(l)
        if d['status']=='stillborn' or d['status']=='error': continue
        fails=[x for x in d['failed'] if x!='example']
        cl=d['claims']
        if not cl:
            cl=sorted(set(sum([mod2claim.get(os.path.basename(m),[]) for m in d['module']],[])))
        tight=d.get('tightened',[])
        if d['status']=='SURVIVED' and d['definition'] in T: cl,tight=T[d['definition']]
        e=f"{d['file']}:{d['line']}: `{d['old']}` -> `{d['new']}`"
        if (d['definition'],e) in seen: continue
        seen.add((d['definition'],e)); n+=1
        r=dict(definition=d['definition'],edit=e,claim=d.get('claim') or ', '.join(f"{c} {props[c]['title']}" for c in cl[:6] if c in props),
               failed=d['failed'],tightened=tight)
        if d['status']=='SURVIVED': r['outcome']=d.get('note','survived at first; the theorems named under tightened now reject it')
        o.write(json.dumps(r,ensure_ascii=False)+'\n')
print(n)
