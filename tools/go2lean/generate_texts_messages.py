"""Writes lean/Verif/Props/TranslationTextsRegisters.lean: the texts of the registers of the code are those of the model."""
import re, os
HERE = os.path.dirname(os.path.abspath(__file__)); L = os.path.join(HERE, '../../lean/Verif/')
src = open(L + 'Model/TranslationTexts.lean').read()
out = []
for m in re.finditer(r'def (\S+\.GetRegister) \(message : (\S+)\) : Register :=\n  \(⟨t! "BDS (\d),(\d)"', src):
    n = m.group(1)[len('Shown.bds.'):].replace('.', '_')
    out.append(f'@[shown_text] theorem shown_{n} (m : {m.group(2)}) : {m.group(1)} m = Register.bds{m.group(3)}{m.group(4)} := rfl')
# the texts of one line that are not tables
for m in re.finditer(r'def (\S+ToString) \((\w+) : (UInt\d+)\) : List Char :=\n  dec \2\.toNat\n', src):
    n = m.group(1)[len('Shown.'):].replace('.ToString', '').replace('.fields', '').replace('.', '_')
    out.append(f'@[shown_text] theorem shown_{n} (c : {m.group(3)}) : {m.group(1)} c = dec c.toNat := rfl')
lines = {}
for m in re.finditer(r'/-- ((?:(?!-/).)*)-/\n(?:noncomputable )?def (\S+)\.lines (.*?):=(.*?)(?=\n\n)', open(L + 'Model/TextRegisters.lean').read(), re.S):
    for p, a in re.findall(r'(pkg/\S+?\.go):(\d+)', m.group(1)): lines[p, a] = (m.group(2), '++' in m.group(4), '(F :' in m.group(3))
SPECIAL = {'ActiveRA', 'ResolutionAdvisory', 'StatusACAS', 'ACASResolutionAdvisory', 'SurfaceOperationalMode', 'OpStatusAirborneV1', 'OpStatusAirborneV2', 'OpStatusSurfaceV1', 'OpStatusSurfaceV2', 'TargetStateAndStatus0'}
HYPS = {'AirbornePosition': ['shown_bds05AltitudeSource hm.1', 'shown_bds05AltitudeReportMethod hm.2'], 'SurfacePosition': ['shown_bds06MovementStatus hm'],
        'OneThreat': ['shown_acasActiveRAPreventiveCorrective hm.1', 'shown_acasActiveRAVerticalSpeedLimitOrPositive hm.2']}
todo = []
for m in re.finditer(r'/-- (\S+):(\d+)-\d+ -/\ndef (\S+ToString) (\(F : FloatTexts\) )?\((\w+) : (\w+)\) : List Char :=', src):
    k = lines.get((m.group(1), m.group(2)))
    if not k or k[0] in SPECIAL: continue
    F = bool(m.group(4)); n = m.group(3)[len('Shown.'):].replace('.ToString', '').replace('.fields', '').replace('.', '_')
    h = HYPS.get(k[0]); assert k[0] == m.group(6), (k, m.group(0))
    FF = ' F' if F else ''
    out.append(f'/-- {m.group(1)}:{m.group(2)} -/\n@[shown_text] theorem shown_{n}{" (F : FloatTexts)" if F else ""} (m : {k[0]}){" (hm : m.Printable)" if h else ""} :\n'
      f'    {m.group(3)}{FF} m = linesText (m.lines{" F" if k[2] else ""}) := by\n  unfold {m.group(3)} {k[0]}.lines\n'
      f'  simp only [linesText_two, linesText_one, List.append_assoc, List.nil_append, List.append_nil, shown_text{"".join(", " + x for x in h or [])}]')
head = '''import Verif.Props.TranslationTextsLines
/-!
# The texts of the registers: the code and the model agree

Written by tools/go2lean/generate_texts_messages.py. `Shown.…` is the text of the code (Model/TranslationTexts), `linesText (m.lines F)` that of the
model.
-/
namespace Modes
open Spec

'''
open(L + 'Props/TranslationTextsRegisters.lean', 'w').write(head + '\n\n'.join(out) + '\n\nend Modes\n'); print(len(out))
