#!/usr/bin/env python3
"""Writes lean/Verif/Props/TextFields.lean: for each structure printed as lines, that its lines are lines and identify its fields.
Reads lean/Verif/Model/TextRegisters.lean (written by gen_texts_messages.py)."""
import re,os,sys
sys.path.insert(0,os.path.dirname(os.path.abspath(__file__)))
import gen_texts_messages as M
src=open('/verif/lean/Verif/Model/TextRegisters.lean').read()
NC={'GroundSpeedVelocity'}
PRE={ # hypotheses on the message
 'OneThreat':'m.preventiveCorrective < 256 ∧ m.verticalSpeedLimitOrPositive < 256',
 'AirbornePosition':'m.altitudeSource < 256 ∧ m.altitudeReportMethod < 256',
 'SurfacePosition':'m.movementStatus < 256',
 'AircraftIdentification':'10 ∉ m.identification',
 'TargetStateAndStatus0':'m.surveillanceIntegrityLevel.toNat < 4',
 'TargetStateAndStatus1':'m.selectedHeading ≠ 0 → (m.selectedHeadingMinus = true ↔ m.selectedHeading < 0)',
 'OpStatusAirborneV1':'m.surveillanceIntegrityLevel.toNat < 4',
 'OpStatusSurfaceV1':'m.surveillanceIntegrityLevel.toNat < 4',
}
NATHYP={('OneThreat','preventiveCorrective'):'.1',('OneThreat','verticalSpeedLimitOrPositive'):'.2',('AirbornePosition','altitudeSource'):'.1',('AirbornePosition','altitudeReportMethod'):'.2',('SurfacePosition','movementStatus'):''}
SKIP={'ResolutionAdvisory','IdentificationAndCategory','StatusACAS','ACASResolutionAdvisory','NoMessageAvailable'}
DROP={'OneThreat':['sense']}
ZERO={'Nat':'0','UInt8':'0','UInt16':'0'}
def val(S,v):
    """(inj term or None, field or None, line term)"""
    if v.startswith('t! '): return None,None,'(by unfold OneLine; decide)'
    if v.startswith('registerText '): return None,None,'(by unfold OneLine; decide +kernel)'
    m=re.match(r'dec m\.(\w+)\.toNat$',v)
    if m:
        t=M.lean_struct(S)[m.group(1)]; return f'{t}.toNat_inj.1 (dec_inj E)',m.group(1),'(oneLine_dec _)'
    m=re.match(r'decInt m\.(\w+)$',v)
    if m: return 'decInt_inj E',m.group(1),'(oneLine_decInt _)'
    m=re.match(r'boolText m\.(\w+)$',v)
    if m: return 'boolText_inj E',m.group(1),'(oneLine_bool _)'
    m=re.match(r'F\.float32 m\.(\w+)$',v)
    if m: return 'hF.inj32 E',m.group(1),'(hF.line32 _)'
    m=re.match(r'F\.signed m\.(\w+) m\.(\w+)$',v)
    if m: return 'hF.signed_inj hm hn E',(m.group(1),m.group(2)),'(hF.lineSigned _ _)'
    m=re.match(r'Text\.(\w+) m\.(\w+)$',v)
    if m: return f'Text.{m.group(1)}_identifies.inj E',m.group(2),f'(Text.{m.group(1)}_identifies.line _)'
    m=re.match(r'Text\.(\w+) \(UInt8\.ofNat m\.(\w+)\)$',v)
    if m:
        h=NATHYP[(S,m.group(2))]
        return f'ofNat_inj hm{h} hn{h} (Text.{m.group(1)}_identifies.inj E)',m.group(2),f'(Text.{m.group(1)}_identifies.line _)'
    m=re.match(r'NumericValueStatus\.text m\.(\w+)$',v)
    if m: return 'statusText_inj E',m.group(1),'(statusText_line _)'
    m=re.match(r'asciiText m\.(\w+)$',v)
    if m: return 'asciiText_inj E',m.group(1),'(asciiText_line hm)'
    m=re.match(r'navigationUncertaintyText m\.(\w+)$',v)
    if m: return 'nucText_identifies.inj E',m.group(1),'(nucText_identifies.line _)'
    m=re.match(r'versionNumberText m\.(\w+)$',v)
    if m: return 'versionText_inj E',m.group(1),'(versionText_line _)'
    m=re.match(r'gpsAntennaLongitudinalText m\.(\w+)$',v)
    if m: return 'gpsText_identifies.inj E',m.group(1),'(gpsText_identifies.line _)'
    m=re.match(r'dteText m\.(\w+)$',v)
    if m: return 'dteText_inj E',m.group(1),'(dteText_line _)'
    if v=='m.speedText': return None,None,'(speedText_line m)'
    if v=='m.trackText F': return None,None,'(trackText_line F hF m)'
    if v.startswith('activeRASenseText'): return None,None,'(by unfold OneLine activeRASenseText; decide)'
    raise Exception((S,v))
def parse(body):
    """groups: ('list',[(label,value)]) | ('expr',text)"""
    gs=[];depth=0;cur='';i=0
    parts=re.split(r' \+\+\n    ',body.strip())
    for p in parts:
        p=p.strip()
        if p.startswith('['):
            ents=re.findall(r'\(t! "([^"]*)", (.*?)\)(?:,\n|\]$)',p+'' if p.endswith(']') else p,re.S)
            assert len(ents)==p.count('(t! "'),(p,ents)
            gs.append(('list',ents))
        else: gs.append(('expr',p))
    return gs
CLASS={} # expression kinds
def lines_of(S):
    m=re.search(r'def '+S+r'\.lines (\(F : FloatTexts\) )?\(m : '+S+r'\) : List \(Txt × Txt\) :=(.*?)(?=\n/--|\nend|\nnoncomputable)',src,re.S)
    return m.group(1) is not None, parse(m.group(2))
STRUCTS=[m.group(1) for m in re.finditer(r'def (\w+)\.lines (?:\(F : FloatTexts\) )?\(m : \w+\)',src)]
def allline(S,ents):
    t='.nil'
    for l,v in reversed(ents):
        t=f'.cons (by decide +kernel) {val(S,v)[2]} ({t})' if t!='.nil' else f'.cons (by decide +kernel) {val(S,v)[2]} .nil'
    return '('+t+')'
def emit(S):
    hasF,gs=lines_of(S)
    fs=M.lean_struct(S)
    Fp='(F : FloatTexts) (hF : F.Faithful) ' if hasF else ''
    Fa=' F' if hasF else ''
    pre=PRE.get(S)
    out=''
    if pre:
        out+=f'/-- Facts about messages that were read. -/\ndef {S}.Printable (m : {S}) : Prop := {pre}\n\n'
    hm=f' (hm : m.Printable)' if pre else ''
    hn=f' (hn : n.Printable)' if pre else ''
    # line theorem
    terms=[]
    for k,g in gs:
        if k=='list': terms.append(allline(S,g))
        else: terms.append(expr(S,g)[1])
    t=terms[0]
    for x in terms[1:]: t=f'({t}.append {x})' if t!=terms[0] else f'(AllLine.append {t} {x})'
    out+=f'theorem {S}.allLine {Fp}(m : {S}){hm} : AllLine (m.lines{Fa}) :=\n  {t}\n\n'
    # injectivity
    shown=[]; pf=''
    used=set()
    names=[f'e{i}' for i in range(len(gs))]
    pf+=f'  unfold {S}.lines at e\n'
    if len(gs)>1:
        pf+='  simp only [List.map_append] at e\n'
        for i in range(len(gs)-1,0,-1):
            lp=expr(S,gs[i][1])[3] if gs[i][0]=='expr' and expr(S,gs[i][1])[3] else 'rfl'
            pf+=f"  obtain ⟨e, e{i}⟩ := List.append_inj' e {lp}\n"
        pf+='  rename\' e => e0\n'
    else: pf+='  rename\' e => e0\n'
    k=0
    for i,(kind,g) in enumerate(gs):
        if kind=='list':
            rows=[val(S,v) for l,v in g]
            pf+=f'  simp only [cat, List.map_cons, List.map_nil, List.cons.injEq, List.append_cancel_left_eq, true_and, and_true] at e{i}\n'
            # rows that vanish: constants (label ++ const = label ++ const simplifies to True)
            live=[r for r,(l,v) in zip(rows,g) if not v.startswith('t! ') and not v.startswith('registerText')]
            if not live: continue
            if len(live)==1: pf+=f'  have x{k} := e{i}\n'; ns=[f'x{k}']; k+=1
            else:
                ns=[f'x{k+j}' for j in range(len(live))]; k+=len(live)
                pf+=f'  obtain ⟨{", ".join(ns)}⟩ := e{i}\n'
            for n,r in zip(ns,live):
                if r[0] is None: continue
                rr=re.sub(r'\bE\b',n,r[0])
                if isinstance(r[1],tuple):
                    pf+=f"  obtain ⟨{n}a, {n}b⟩ := {rr}\n"; used|=set(r[1]); shown+=[n+'a',n+'b']; continue
                pf+=f'  replace {n} := {rr}\n'; used.add(r[1]); shown.append(n)
        else:
            f,_,inj,_=expr(S,g)
            if inj is None: continue
            ii=re.sub(r'\bE\b',f'e{i}',inj)
            if isinstance(f,list):
                pf+=f'  obtain ⟨x{k}, x{k+1}⟩ := {ii}\n'; shown+=[f'x{k}',f'x{k+1}']; k+=2
            else:
                pf+=f'  have x{k} := {ii}\n'; shown.append(f'x{k}'); k+=1
            used|=set(f if isinstance(f,list) else [f])
    drop=[f for f in fs if f not in used]
    assert set(drop)<= {'formatTypeCode','modeACode','subtype','continuationFlag','sense'},(S,drop)
    def w(v): return f'{v}' if not drop else '{ '+v+' with '+', '.join(f'{d} := {ZERO[fs[d]]}' for d in drop)+' }'
    concl=f'{w("m")} = {w("n")}'
    pf+='  cases m; cases n\n'
    if shown: pf+=f'  simp only at {" ".join(shown)}\n  subst {" ".join(shown)}\n'
    pf+='  rfl\n'
    # conj results handled in expr
    out+=f'theorem {S}.lines_inj {Fp}(m n : {S}){hm}{hn}\n    (e : (m.lines{Fa}).map cat = (n.lines{Fa}).map cat) : {concl} := by\n{pf}\n'
    return out
def expr(S,g):
    """(field, allLine term, injectivity term from E, length proof)"""
    m=re.match(r'nest m\.(\w+)\.lines$',g)
    if m:
        T=M.lean_struct(S)[m.group(1)]
        return m.group(1),f'(({T}.allLine _).nest)',f'{T}.lines_inj _ _ (nest_cat E)','rfl'
    if g=='nest (silLines m.surveillanceIntegrityLevel)':
        return 'surveillanceIntegrityLevel','((sil_allLine _ hm).nest)','sil_inj hm hn (nest_cat E)','(sil_length hm hn)'
    if g.startswith('labelled') and 'sil62Lines' in g:
        lab=re.match(r'labelled \((t! "[^"]*")\)',g).group(1)
        return 'surveillanceIntegrityLevel','((sil62_allLine _ hm).labelled (by decide +kernel))','sil62_inj hm hn E','(sil62_length hm hn)'
    if g.startswith('labelled') and 'gpsLines' in g:
        return ['gpsAntennaLateral','gpsAntennaLongitudinal'],'((gps_allLine m).nest.labelled (by decide +kernel))','gps_inj E','rfl'
    raise Exception((S,g))
HEAD='''import Verif.Lemmas.TextLines
/-!
# The lines of the registers identify their fields

Written by tools/gen_texts_messages_props.py, from tools/texts_fields.txt.
-/
set_option linter.unusedSimpArgs false
set_option linter.unusedVariables false
namespace Modes
open Spec

'''

REGTXT={k.lower():f'{M.REG[k]} - {M.REGD[k]}' for k in M.REG}
def first12(S):
    """(text of the first line or None, first 12 characters of each line)"""
    out=[]; head=None
    for kind,g in lines_of(S)[1]:
        if kind=='list':
            for l,v in g:
                m=re.match(r'registerText Register\.(\w+)',v)
                if m and head is None: head=l+REGTXT[m.group(1)]
                full=l+(REGTXT[m.group(1)] if m else re.match(r't! "(.*)"$',v).group(1) if v.startswith('t! ') else '')
                assert len(full)>=12 or v.startswith('t! '),(S,l,v)
                out.append(full[:12])
        elif 'sil62' in g: out+=['Surveillance'[:12],'Probability of exceeding'[:12]]
        elif 'silLines' in g: out+=['    Probability of'[:12]]*2
        elif 'gpsLines' in g: out+=['GPS Antenna:                     '[:12],'    Longitudinal'[:12]]
        else:
            T=M.lean_struct(S)[re.match(r'nest m\.(\w+)\.lines$',g).group(1)]
            out+=[('    '+x)[:12] for x in [l+v for l,v in full_labels(T)]]
    return head,out
def full_labels(T):
    r=[]
    for kind,g in lines_of(T)[1]:
        if kind=='list': r+=[(l,'') for l,v in g]
        elif 'gpsLines' in g: r+=[('GPS Antenna:                     ',''),('    Longitudinal Axis','')]
        else: raise Exception(g)
    return r
def ra12(a,t):
    n=lambda T:[('    '+l)[:12] for l,v in full_labels(T)]
    act=[n('OneThreat'),n('MultipleThreats'),['    Type: no Resolution'[:12]]][a]
    thr=[[],['Threat Mode-'],['Threat Altit','Threat Range','Threat Beari']][t]
    return ['Active Resol']+act+['Active Resol']+n('RAComplement')+['Active Resol','Multiple Thr','Threat Type ']+thr
def sigdef(name,doc,ents):
    out=f'/-- {doc} -/\ndef {name} : Nat → Option Txt × List Txt\n'
    for i,(h,l) in enumerate(ents):
        out+=f'  | {i} => (some (t! "{h}"), [' + ', '.join(f't! "{x}"' for x in l)+'])\n'
    return out+'  | _ => (none, [])\n\n'
def signatures():
    pos=lambda S,extra:(first12(S)[0],first12(S)[1]+extra)
    NI,HP,CR,HC='Navigation I','Horizontal P','Containment ','Horizontal C'
    A=[('Message:                           No Position Information',['Message:    ','Format Type ','Altitude Bar',NI]),
       pos('AirbornePosition',[NI]),pos('AirbornePosition',[HP,CR]),pos('AirbornePosition',[NI,HC,NI]),pos('AirbornePosition',[NI,NI,HC,NI]),
       pos('SurfacePosition',[HP,CR]),pos('SurfacePosition',[NI,HC,NI]),pos('SurfacePosition',[NI,NI,HC,NI])]
    A+=[first12(S) for S in ['GroundSpeedVelocity','AirSpeedVelocity','IdentificationAndCategory','StatusNoInformation','StatusEmergency','TargetStateAndStatus0','TargetStateAndStatus1','OpStatusV0','OpStatusAirborneV1','OpStatusAirborneV2','OpStatusSurfaceV1','OpStatusSurfaceV2']]
    h='Message:                   '+REGTXT['bds61']
    A+=[(h,['Message:    ','Subtype:    ','ACAS Data:  ']+ra12(a,t)) for a in range(3) for t in range(3)]
    C=[first12(S) for S in ['NoMessageAvailable','Status07','AircraftIdentification','DataLinkCapabilityReport','GICBCapabilityReport','SelectedVerticalIntention','RoutineAirReportV0','RoutineAirReportV1','RoutineAirReportV2','HazardReportV0','HazardReportV1','TrackAndTurnReport','HeadingAndTrackReport']]
    h='Message:                   '+REGTXT['bds30']
    C+=[(h,['Message:    ','ACAS Data:  ']+ra12(a,t)) for a in range(3) for t in range(3)]
    return sigdef('adsbSig','The first line of each kind of ADS-B message and the first characters of all its lines.',A)+sigdef('commBSig','The first line of each kind of Comm-B message and the first characters of all its lines.',C)
if __name__=='__main__':
    res=HEAD+open(os.path.join(os.path.dirname(os.path.abspath(__file__)),'texts_fields.txt')).read()
    for S in STRUCTS:
        if S in SKIP: continue
        res+=emit(S)
    res+=signatures()
    res+='end Modes\n'
    open('/verif/lean/Verif/Props/TextFields.lean','w').write(res)
