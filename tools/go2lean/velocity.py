"""Writes lean/Verif/Model/TranslationVelocity.lean: the functions of /repo that the other translators leave out, from the text of
the code: the speed and the track computed by the two ground speed messages of register 0,9 with their texts, `PrefixMultiLine`
and `DTESubAddressStatuses.ToString`.

A float64 is a real number with its sign bit; the operations are those of the header. Errors are their texts. A slice of strings
made with `make` and filled by a loop is a list in which the positions are replaced one after the other."""
import os, sys
import goparse
from config import ENUMS, B

HERE = os.path.dirname(os.path.abspath(__file__))
OUT = os.path.join(HERE, '../../lean/Verif/Model/TranslationVelocity.lean')
STATUS = ENUMS[B + 'bds09/fields', 'NumericValueStatus'][1]
CONSTS = {}
for p in ('velocity_ew', 'velocity_ns', 'numeric_value_status'):
    for c in goparse.parse_file(f'/repo/pkg/bds/bds09/fields/{p}.go')['consts']: CONSTS[c[0]] = c
MATH = {'Sqrt': 'realSqrt', 'Atan2': 'realAtan2 atan2'}
OPS = {'+': 'realAdd', '*': 'realMul'}
low = lambda n: n[0].lower() + n[1:]
text = lambda s: f't! {s}'

def constant(n):
    v = int(CONSTS[n][2][1])
    return STATUS[v] if CONSTS[n][1][2] == 'NumericValueStatus' else v

class V:
    def __init__(s, f, rec): s.f, s.rec, s.types, s.out = f, rec, {}, []
    def e(s, x):
        k = x[0]
        if k == 'par': return s.e(x[1])
        if k == 'id': return '«prefix»' if x[1] == 'prefix' else x[1]
        if k == 'sel' and x[1] == ('id', 'message'): return f'message.{low(x[2])}'
        if k == 'num': return f'(realConst {x[1]})'
        if k == 'un' and x[1] == '-': return f'(realNeg {s.e(x[2])})'
        if k == 'bin' and x[1] == '/' and x[2][0] == 'num' and x[3] == ('sel', ('id', 'math'), 'Pi'): return f'(realConst ({x[2][1]} / Real.pi))'
        if k == 'bin' and x[1] in OPS: return f'({OPS[x[1]]} {s.e(x[2])} {s.e(x[3])})'
        if k == 'call':
            f, a = x[1], x[2]
            if f == ('id', 'float64'): return f'realOf {s.e(a[0])}'
            if f == ('id', 'uint32'): return f'realToUInt32 {s.e(a[0])}'
            if f == ('id', 'float32'): return f'realTo32 {s.e(a[0])}'
            if f[0] == 'sel' and f[1] == ('id', 'math'): return f'{MATH[f[2]]} ' + ' '.join(map(s.e, a))
        raise Exception(f'not translated: {x}')
    def cond(s, c):
        _, op, a, b = c
        if a[0] == 'sel' and b[0] == 'sel' and b[1] == ('id', 'fields'):
            return f'{s.e(a)} {dict([("!=", "≠"), ("==", "=")])[op]} {constant(b[2])}'
        if op == '<' and b == ('num', '0'): return f'{s.e(a)}.1 < 0'
        raise Exception(str(c))
    def ret(s, es):
        if len(es) == 2:
            if es[1] == ('id', 'nil'): return f'.ok ({s.e(es[0])})'
            assert es[1][1] == ('sel', ('id', 'errors'), 'New'); return f'.error ({text(es[1][2][0][1])})'
        return s.sprintf(es[0])
    def sprintf(s, x):
        assert x[1] == ('sel', ('id', 'fmt'), 'Sprintf') and len(x[2]) == 2
        f, v = x[2][0][1].strip('"'), x[2][1][1]
        a, b = f.split('%v')
        shown = s.shows[v]
        return ' ++ '.join(([text(f'"{a}"')] if a else []) + [shown] + ([text(f'"{b}"')] if b else []))
    def body(s, b, ind):
        P = '  ' * ind
        for i, x in enumerate(b):
            if x[0] == 'if' and x[4][-1][0] == 'return':
                s.out.append(f'{P}if {s.cond(x[3])} then {s.ret(x[4][0][2])}'); s.out.append(f'{P}else')
                return s.body(b[i + 1:], ind + 1)
            if x[0] == 'if':
                (a,) = x[4]; n = a[2][0][1]; s.out.append(f'{P}let {n} := if {s.cond(x[3])} then {s.e(a[3][0])} else {n}')
            elif x[0] == 'define' and len(x[2]) == 2:                   # v, err := message.Get...()
                v, err = x[2][0][1], x[2][1][1]; m = x[3][0][1][2]
                extra, kind = {'GetSpeed': ('', f'dec {v}.toNat'), 'GetTrack': (' F.atan2', f'F.realText {v}')}[m]
                y = b[i + 1]; assert y[0] == 'if' and y[3] == ('bin', '!=', ('id', err), ('id', 'nil'))
                s.shows = {err: err, v: kind}
                s.out += [f'{P}match {s.rec}.{m}{extra} message with', f'{P}| .error {err} => {s.ret(y[4][0][2])}', f'{P}| .ok {v} => {s.ret(b[i + 2][2])}']
                return
            elif x[0] == 'define': s.out.append(f'{P}let {x[2][0][1]} := {s.e(x[3][0])}')
            elif x[0] == 'return': s.out.append(f'{P}{s.ret(x[2])}')
            else: raise Exception(str(x))

SIG = {'GetSpeed': ' (message : GroundSpeedVelocity) : Except (List Char) UInt32', 'GetTrack': ' (atan2 : Bool → Bool → ℕ → ℕ → ℝ) (message : GroundSpeedVelocity) : Except (List Char) (ℝ × Bool)',
       'toSpeedString': ' (message : GroundSpeedVelocity) : List Char', 'toTrackString': ' (F : FloatTexts) (message : GroundSpeedVelocity) : List Char'}

def prefix_multi_line(f):
    """the statements of PrefixMultiLine, checked one by one"""
    split, make, loop, ret = f.body
    sub, new = split[2][0][1], make[2][0][1]
    assert split[3][0][1] == ('sel', ('id', 'strings'), 'Split') and split[3][0][2][1] == ('str', '"\\n"')
    assert make[3][0][1] == ('id', 'make') and make[3][0][2][1] == ('call', ('id', 'len'), [('id', sub)])
    i, line = loop[2][0][1], loop[2][1][1]; (a,) = loop[4]
    assert loop[3] == ('id', sub) and a[2][0] == ('index', ('id', new), ('id', i)) and a[3][0][:2] == ('bin', '+')
    assert ret[2][0][1] == ('sel', ('id', 'strings'), 'Join') and ret[2][0][2] == [('id', new), ('str', '"\\n"')]
    v = V(f, ''); q = lambda n: '«prefix»' if n == 'prefix' else n
    ps = ' '.join(f'({q(n)} : List Char)' for n, _ in f.params)
    return f'''/-- `PrefixMultiLine`, pkg/common/printable.go:{f.a}-{f.b}. -/
def Gen.common.PrefixMultiLine {ps} : Go (List Char) := do
  let {sub} := List.splitOn '\\n' {split[3][0][2][0][1]}
  let {new} : List (List Char) := List.replicate {sub}.length []
  let {new} ← List.foldlM (fun {new} (({line}, {i}) : List Char × ℕ) => setAt {new} {i} ({v.e(a[3][0][2])} ++ {v.e(a[3][0][3])})) {new} {sub}.zipIdx
  return (t! "\\n").intercalate {new}
'''

def dte(f):
    make, loop, ret = f.body
    st = make[2][0][1]; n = make[3][0][2][1][1]
    _, _, init, cond, post, body = loop
    i = init[2][0][1]
    assert init[3][0] == ('call', ('id', 'uint'), [('num', '0')]) and cond[:3] == ('bin', '<', ('id', i)) and post[2:] == ('+', ('id', i), ('num', '1'))
    d1, d2, a = body
    assert d1[3][0] == ('bin', '-', ('num', d1[3][0][2][1]), ('id', i))
    sh = d2[3][0]; assert sh[:2] == ('bin', '&') and sh[2] == ('par', ('bin', '>>', ('id', 'dss'), ('id', d1[2][0][1])))
    assert a[2][0] == ('index', ('id', st), ('id', i)) and a[3][0][2] == [('str', '"%d"'), ('id', d2[2][0][1])]
    assert ret[2][0][1] == ('sel', ('id', 'strings'), 'Join') and ret[2][0][2][0] == ('id', st)
    return f'''/-- `DTESubAddressStatuses.ToString`, pkg/bds/bds10/fields/dte_sub_address_statuses.go:{f.a}-{f.b}. A `uint` has 64 bits. -/
def Gen.bds.bds10.fields.DTESubAddressStatuses.ToString (dss : UInt16) : Go (List Char) := do
  let {st} : List (List Char) := List.replicate {n} []
  let {st} ← List.foldlM (fun {st} ({i} : UInt64) => do
    let {d1[2][0][1]} : UInt64 := {d1[3][0][2][1]} - {i}
    let {d2[2][0][1]} : UInt16 := (shiftRight16 dss {d1[2][0][1]}) &&& {sh[3][1]}
    setAt {st} {i}.toNat (dec {d2[2][0][1]}.toNat)) {st} ((List.range {cond[3][1]}).map UInt64.ofNat)
  return (t! {ret[2][0][2][1][1]}).intercalate {st}
'''

HEAD = '''import Verif.Model.TextRegisters
import Verif.Model.VelocityFloat
import Verif.Model.Main
/-!
# The computed speed and track, and the texts filled by loops, translated mechanically

Written by `tools/go2lean/velocity.py` from the text of /repo; not edited by hand. A `float64` or a `float32` is a real number with
its sign bit (which matters for zeros); the operations round as Go's do. `math.Atan2` is a parameter, the function of the signs and
magnitudes of its arguments, and its result has the sign of its first argument. `Props/TranslationVelocity` proves that the
functions of the model agree.
-/
set_option linter.unusedVariables false
noncomputable section
namespace Modes

/-- `float64(x)` for an integer. -/
def realOf (x : UInt16) : ℝ × Bool := (f64R (x.toNat : ℝ), false)
/-- A constant, exact until it is used. -/
def realConst (x : ℝ) : ℝ × Bool := (f64R x, decide (x < 0))
/-- `-x`. -/
def realNeg (x : ℝ × Bool) : ℝ × Bool := (-x.1, !x.2)
/-- `x * y`. -/
def realMul (x y : ℝ × Bool) : ℝ × Bool := (f64R (x.1 * y.1), x.2 != y.2)
/-- `x + y`: a sum that is zero has a minus sign only when both terms have one. -/
def realAdd (x y : ℝ × Bool) : ℝ × Bool := (f64R (x.1 + y.1), if x.1 + y.1 = 0 then x.2 && y.2 else decide (x.1 + y.1 < 0))
/-- `math.Sqrt(x)`, of a number that is not negative. -/
def realSqrt (x : ℝ × Bool) : ℝ × Bool := (f64R (Real.sqrt x.1), x.2)
/-- `math.Atan2(y, x)`, of whole numbers: `atan2` applied to their signs and magnitudes. -/
def realAtan2 (atan2 : Bool → Bool → ℕ → ℕ → ℝ) (y x : ℝ × Bool) : ℝ × Bool := (atan2 y.2 x.2 ⌊|y.1|⌋₊ ⌊|x.1|⌋₊, y.2)
/-- `float32(x)`. -/
def realTo32 (x : ℝ × Bool) : ℝ × Bool := (f32R x.1, x.2)
/-- `uint32(x)`: the whole part. -/
def realToUInt32 (x : ℝ × Bool) : UInt32 := UInt32.ofNat ⌊x.1⌋₊
/-- `%v` of a `float32`. -/
def FloatTexts.realText (F : FloatTexts) (x : ℝ × Bool) : List Char := if x.2 = true ∧ x.1 = 0 then F.minusZero else F.degrees x.1
/-- `x >> n` of a `uint16` by any count: zero when nothing is left. -/
def shiftRight16 (x : UInt16) (n : UInt64) : UInt16 := if n.toNat < 16 then x >>> UInt16.ofNat n.toNat else 0
/-- `s[i] = x`; a panic when there is no such element. -/
def setAt {α : Type} (s : List α) (i : ℕ) (x : α) : Go (List α) := if i < s.length then .ok (s.set i x) else goPanic

'''
if __name__ == '__main__':
    defs = []
    for kind, path in (('Normal', 'normal'), ('Supersonic', 'supersonic')):
        p = f'bds09/airborne_velocity_ground_speed_{path}'
        fs = {f.name: f for f in goparse.parse_file(f'/repo/pkg/bds/{p}.go')['funcs']}
        rec = f'Gen.bds.bds09.AirborneVelocityGroundSpeed{kind}'
        for n in ('GetSpeed', 'GetTrack', 'toSpeedString', 'toTrackString'):
            v = V(fs[n], rec); v.body(fs[n].body, 1)
            defs.append(f'/-- `{n}`, pkg/bds/{p}.go:{fs[n].a}-{fs[n].b}. -/\ndef {rec}.{n}{SIG[n]} :=\n' + '\n'.join(v.out) + '\n')
    defs.append(prefix_multi_line([f for f in goparse.parse_file('/repo/pkg/common/printable.go')['funcs'] if f.name == 'PrefixMultiLine'][0]))
    defs.append(dte([f for f in goparse.parse_file('/repo/pkg/bds/bds10/fields/dte_sub_address_statuses.go')['funcs'] if f.name == 'ToString'][0]))
    open(OUT, 'w').write(HEAD + '\n'.join(defs) + '\nend Modes\n')
