"""Writes lean/Verif/Props/CodeReports.lean: the theorems about the printed line, for the translated cmd/main.go."""
import os, re
P = os.path.join(os.path.dirname(os.path.abspath(__file__)), '../lean/Verif/Props/')
NAMES = 'reported_output output_identifies plain_output commB_output acas_output acas_unknown_output squitter_content_output squitter_not_adsb_output ' \
    'squitter_output squitter_shows adsb_refusal_printed_partial acas_refusal_printed_partial'
src = ''.join(open(P + f).read() for f in ('Program.lean', 'ProgramReplies.lean', 'Errors.lean'))
out = ['''import Verif.Props.CodeProgram
/-!
# The reports of the program, for the translated cmd/main.go (C110)

Written by `tools/gen_code_reports.py`: each theorem is that of the same name (without `program_`) of Props/Program, Props/ProgramReplies or
Props/Errors, with `CodePrints`, what the translated code prints, for `printSingleLine`, what the model prints.
-/
namespace Modes
open Spec Text
''']
for n in NAMES.split():
    m = re.search(rf'^theorem {n}(\s.*?) :=', src, re.S | re.M)
    sig = ' '.join(m.group(1).split())
    # split the binders from the conclusion
    d = 0
    for i, c in enumerate(sig):
        if c in '([{⟨': d += 1
        if c in ')]}⟩': d -= 1
        if c == ':' and d == 0: break
    bind, concl = sig[:i].strip(), sig[i + 1:].strip()
    groups, d, st = [], 0, 0
    for i, c in enumerate(bind):
        if c == '(':
            if d == 0: st = i
            d += 1
        if c == ')':
            d -= 1
            if d == 0: groups.append(bind[st:i + 1])
    call, keep, pre = [], [], []
    for g in groups:
        nm = g[1:g.index(' : ')].split()
        if nm == ['E']: call.append('goErrors'); continue
        if 'printSingleLine' in g:
            call.append(f'((code_line F _ {"hl" if nm[0] == "h" else "hl2"} _ _).1 {nm[0]})')
        else: call += nm
        keep.append(g)
        if 'level' in nm and '(hl :' not in bind: keep.append('(hl : level.toNat ≤ 2)')
        if "level'" in nm: keep.append("(hl2 : level'.toNat ≤ 2)")
    def sub(t): return re.sub(r"printSingleLine F (?:E|goErrors) (s'?) (level'?) = \.ok", r'CodePrints F \1 \2', t)
    stmt = [f'/-- `{n}` for the code. -/', f'theorem program_{n} ' + ' '.join(sub(g) for g in keep) + ' :', '    ' + sub(concl).replace('E.', 'goErrors.') + ' := by',
            f'  have key := {n} ' + ' '.join(call),
            '  simpa only [← code_line F level hl] using key' if 'printSingleLine' in concl else '  exact key', '']
    out.append('\n'.join(stmt))
open(P + 'CodeReports.lean', 'w').write('\n'.join(out) + '\nend Modes\n')
