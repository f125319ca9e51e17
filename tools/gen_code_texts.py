"""Writes lean/Verif/Props/CodeTexts.lean: the theorems about texts, restated for the ToString functions that tools/go2lean translated from /repo."""
import re, glob
R = '/verif/lean/Verif/Props/'
NAMES = '''airborne_text type0_text surface_text velocity_text airspeed_text status_text target_state_text_partial operationalV0_text operationalAirborneV1_text
operationalAirborneV2_text operationalSurfaceV1_text_partial operationalSurfaceV2_text_partial operational_surface_text_refuted broadcast_advisory_text
bds50_text bds60_text bds40_text_refuted bds17_text bds44_text_partial bds45_text bds10_text_partial bds10_text_refuted commB_advisory_text
surface_numbers ground_speed_numbers airspeed_numbers target_state_numbers bds40_numbers bds44_numbers bds45_numbers bds50_numbers bds60_numbers'''.split()
src = {f: open(f).read() for f in glob.glob(R + '*.lean')}
out = []; mods = set()
for n in NAMES:
    for f, s in src.items():
        i = re.search(r'^theorem ' + re.escape(n) + r"(?![\w'.])", s, re.M)
        if i: break
    else: print('missing', n); continue
    k = i.end(); d = 0
    while True:
        if d == 0 and s.startswith(':= by\n', k): break
        if d == 0 and s.startswith(':=\n', k): break
        if s[k] in '([{⟨': d += 1
        if s[k] in ')]}⟩': d -= 1
        k += 1
    sig = s[i.end():k].rstrip()
    j = 0; d = 0
    while True:
        if sig[j] in '([{⟨': d += 1
        if sig[j] in ')]}⟩': d -= 1
        if d == 0 and sig[j] == ':': break
        j += 1
    b, st = sig[:j].strip(), sig[j+1:].strip()
    FT = r'(F|\(goFloats A\))'
    F = re.search(r'\btext ' + FT, st); F = F and F.group(1)
    args = ' '.join(x for g in re.findall(r'\(([^():]+) :', b) for x in g.split())
    adsb = 'readADSBMessage' in b
    if adsb:
        new = re.sub(r'\bm\.text ' + FT, r'Shown.adsb.Message.ToString \1 m', st)
        pr = f'  rw [shown_adsb_read {F} h]\n  exact {n} {args}'
    else:
        mm = re.search(r'\(hm : \.val \(\.(\w+) (\w+)\) ∈ l\)', b)
        if not F or not mm: print('skip', n, F, b[-80:]); continue
        new = re.sub(r'CommBMessage\.text ' + FT, r'Shown.bds.Message.ToString \1', st)
        new = re.sub(r'\(CommBMessage\.' + mm.group(1) + r' ' + mm.group(2) + r'\)\.text ' + FT, lambda z: f'Shown.bds.Message.ToString {z.group(1)} (.{mm.group(1)} {mm.group(2)})', new)
        b2 = b.replace('(l : List (Iface CommBMessage))', '(l : List CommBMessage)').replace('readCommBMessage d', 'Gen.commb.ReadCommBMessage d').replace(f'(hm : .val (.{mm.group(1)} {mm.group(2)}) ∈ l)', f'(hm : .{mm.group(1)} {mm.group(2)} ∈ l)')
        a2 = re.sub(r'\bl h\b', '(l.map .val) (code_commB_read h)', args); a2 = re.sub(r'\bhm\b', '(List.mem_map_of_mem hm)', a2)
        pr = f'  rw [shown_commB_read {F} (code_commB_read h) (List.mem_map_of_mem hm)]\n  exact {n} {a2}'
        b = b2
    if new == st: print('unchanged', n)
    out.append(f'/-- `{n}` -/\ntheorem code_{n} {b} :\n    {new} := by\n{pr}\n'); mods.add(f.split('/')[-1][:-5])
body = open('/verif/tools/code_texts_body.txt').read()
L = ['import Verif.Props.TranslationTexts', 'import Verif.Props.CodeEntry'] + [f'import Verif.Props.{m}' for m in sorted(mods)] + ['''/-!
# The theorems about texts, of the translated code

Written by `tools/gen_code_texts.py`. `Shown.….ToString` are the functions that `tools/go2lean` translated from the text of /repo.
-/
set_option linter.unusedVariables false
namespace Modes
open Spec Text
variable {A : Bool → Bool → ℕ → ℕ → ℝ}
''']
open(R + 'CodeTexts.lean', 'w').write('\n'.join(L) + body + '\n' + '\n'.join(out) + '\nend Modes\n'); print(len(out))
