"""Writes lean/Verif/Model/TranslationGeo.lean, the Lean text of the functions of /repo/pkg/geo, from the text of the code.

A float64 is a real number; `fl` is applied to the result of every +, -, *, / and conversion and to the constants computed
with a division or with math.Pi (constant expressions are exact until they are used). The functions of package math other than
Floor, Abs, Max, Sqrt and Pow(x, 2) are parameters. Loops over arrays of fixed length are unrolled; an assignment inside an
`if` becomes a conditional value."""
import os
from fractions import Fraction
import goparse

HERE = os.path.dirname(os.path.abspath(__file__))
OUT = os.path.join(HERE, '../../lean/Verif/Model/TranslationGeo.lean')
FILES = ['cpr_common', 'cpr_airborne_global_position', 'cpr_airborne_local_position', 'cpr_surface_global_position',
         'cpr_surface_local_position', 'ground_distance']
PARAMS = {'cosF': 'ℝ → ℝ', 'acosF': 'ℝ → ℝ', 'sinF': 'ℝ → ℝ', 'atan2F': 'ℝ → ℝ → ℝ', 'nl': 'ℝ → ℝ'}
PRIM = {'Cos': 'cosF', 'Acos': 'acosF', 'Sin': 'sinF', 'Atan2': 'atan2F'}
CONSTS = {}

class Const:
    """an exact constant: its Lean text, and its value when rational"""
    def __init__(self, text, value, divided): self.text, self.value, self.divided = text, value, divided

def lit(fr):
    return str(fr.numerator) if fr.denominator == 1 else f'{fr.numerator} / {fr.denominator}'

def use(e):
    """the float64 of an expression"""
    if not isinstance(e, Const): return e
    if e.divided or e.value is None: return f'fl ({e.text})'
    assert e.value.denominator & (e.value.denominator - 1) == 0
    return lit(e.value) if e.value.denominator == 1 else f'({lit(e.value)})'

def par(s): return s if isinstance(s, str) and (s.replace('_', '').isalnum() or (s[0] == '(' and s[-1] == ')' and s.count('(') == 1)
                                                or (s[0] == '⌊' ) or (s[0] == '|' )) else f'({s})'

def target(s): return (s[2][0] if s[0] == 'assign' else s[3])[1]

class Gen:
    def __init__(self, f):
        self.f, self.types, self.arrays, self.used, self.out, self.opt = f, {}, {}, [], [], False
        for n, t in f.params: self.types[n] = t[2]

    def need(self, p):
        if p not in self.used: self.used.append(p)
        return p

    def expr(self, e):
        k = e[0]
        if k == 'par': return self.expr(e[1])
        if k == 'num':
            v = Fraction(e[1]); return Const(lit(v), v, False)
        if k == 'id':
            if e[1] in CONSTS:
                v = CONSTS[e[1]]; return Const(lit(v), v, False)
            return e[1]
        if k == 'un' and e[1] == '-':
            x = self.expr(e[2])
            if isinstance(x, Const): return Const(f'-{x.text}', -x.value, x.divided)
            return f'-{par(x)}'
        if k == 'sel' and e[1] == ('id', 'math') and e[2] == 'Pi': return Const('Real.pi', None, False)
        if k == 'bin' and e[1] in '+-*/':
            a, b = self.expr(e[2]), self.expr(e[3])
            if isinstance(a, Const) and isinstance(b, Const):
                v = None
                if a.value is not None and b.value is not None:
                    v = {'+': a.value + b.value, '-': a.value - b.value, '*': a.value * b.value}.get(e[1]) if e[1] != '/' else a.value / b.value
                wa = f'({a.text})' if not a.text.replace('.', '').isalnum() else a.text
                wb = f'({b.text})' if not b.text.replace('.', '').isalnum() else b.text
                return Const(f'{wa} {e[1]} {wb}', v, a.divided or b.divided or e[1] == '/')
            x, y = use(a), use(b)
            x = x if self.app(x) else par(x)
            y = y if self.app(y) else par(y)
            return f'fl ({x} {e[1]} {y})'
        if k == 'bin' and e[1] in ('==', '<', '>', '>=', '!='):
            op = {'==': '=', '<': '<', '>': '>', '>=': '≥', '!=': '≠'}[e[1]]
            return f'{use(self.expr(e[2]))} {op} {use(self.expr(e[3]))}'
        if k == 'index' and e[1][0] == 'id' and e[1][1] in self.arrays:
            names = self.arrays[e[1][1]]; i = self.expr(e[2])
            assert self.types.get(e[2][1]) == 'int'
            return ('go', f'idxI [{", ".join(names)}] {i}')
        if k == 'call':
            f, args = e[1], [self.expr(a) for a in e[2]]
            if f == ('id', 'float64'):
                assert self.types[e[2][0][1]] == 'uint32'; return f'fl ({args[0]}.toNat : ℝ)'
            if f == ('id', 'mod'): return f'Gen.geo.mod fl {par(use(args[0]))} {par(use(args[1]))}'
            if f == ('id', 'getNumberOfLongitude'): return f'{self.need("nl")} {par(use(args[0]))}'
            if f[0] == 'sel' and f[1] == ('id', 'math'):
                n = f[2]; a = [use(x) for x in args]
                if n == 'Floor': return f'(⌊{a[0]}⌋ : ℝ)'
                if n == 'Abs': return f'|{a[0]}|'
                if n == 'Max': return f'max {par(a[0])} {par(a[1])}'
                if n == 'Pow':
                    assert isinstance(args[1], Const) and args[1].value == 2
                    return f'fl ({par(a[0]) if not self.app(a[0]) else a[0]} ^ 2)'
                if n == 'Sqrt':
                    self.opt = True
                    v = f'root{len([o for o in self.out if "sqrtGo" in o]) + 1}'
                    self.line(f'let {v} ← sqrtGo fl {par(a[0])}')
                    return v
                p = self.need(PRIM[n])
                return p + ''.join(' ' + par(x) for x in a)
        raise Exception(f'not translated: {e}')

    def app(self, s):
        """an application or an atom: binds tighter than an operator"""
        depth = 0
        for w in s.replace('(', ' ( ').replace(')', ' ) ').split():
            if w == '(': depth += 1
            elif w == ')': depth -= 1
            elif depth == 0 and w in ('+', '-', '*', '/', '^'): return False
        return True

    def line(self, s): self.out.append(self.ind + s)

    def assigned(self, b):
        r = []
        for s in b:
            if s[0] in ('assign', 'opassign'):
                n = target(s)
                if n not in r: r.append(n)
            elif s[0] == 'if':
                for n in self.assigned(s[4]) + self.assigned(s[5] or []):
                    if n not in r: r.append(n)
            else: raise Exception(str(s))
        return r

    def value(self, b, names):
        """the values of the variables after a block of assignments"""
        env = {n: n for n in names}
        for s in b:
            n = target(s); assert n in names
            env[n] = self.assign_value(s)
        r = [env[n] for n in names]
        return r[0] if len(r) == 1 else '(' + ', '.join(r) + ')'

    def assign_value(self, s):
        if s[0] == 'assign': return use(self.expr(s[3][0]))
        return use(self.expr(('bin', s[2], s[3], s[4])))

    def ret(self, es):
        if es[-1][0] == 'call' and es[-1][1] == ('sel', ('id', 'errors'), 'New'): return '.error .err'
        vs = [use(self.expr(e)) for e in es if e != ('id', 'nil')]
        v = vs[0] if len(vs) == 1 else '(' + ', '.join(vs) + ')'
        return f'return {v}' if self.monadic() else v

    def monadic(self): return self.mon

    def block(self, b):
        for i, s in enumerate(b):
            k = s[0]
            if k == 'define':
                n, e = s[2][0][1], s[3][0]
                if e[0] == 'lit' and e[1][0] == 'array':
                    c = int(e[1][1][1])
                    self.arrays[n] = [f'{n}{j}' for j in range(c)]
                    for j, x in enumerate(e[2]): self.line(f'let {n}{j} := {use(self.expr(x[1]))}')
                    continue
                v = self.expr(e)
                self.types[n] = 'float64'
                if isinstance(v, tuple): self.line(f'let {n} ← {v[1]}'); continue
                if isinstance(v, Const) and e == ('un', '-', ('num', '1')):
                    self.types[n] = 'int'; self.line(f'let {n} : Int := {v.text}')
                else: self.line(f'let {n} : ℝ := {use(v)}')
            elif k == 'if':
                if s[4][-1][0] == 'return':
                    self.line(f'if {self.expr(s[3])} then {self.ret(s[4][0][2])}')
                    self.line('else')
                    self.ind += '  '
                    self.block((s[5] or []) + b[i + 1:])
                    return
                names = self.assigned(s[4]) + [n for n in self.assigned(s[5] or []) if n not in self.assigned(s[4])]
                lhs = names[0] if len(names) == 1 else '(' + ', '.join(names) + ')'
                c = self.expr(s[3])
                self.line(f'let {lhs} := if {c} then {self.value(s[4], names)} else {self.value(s[5] or [], names)}')
            elif k == 'forrange':
                idx, var, arr = s[2][0][1], s[2][1][1], s[3][1]
                for j, a in enumerate(self.arrays[arr]):
                    self.line(f'let {var} := {a}')
                    for t in s[4]:
                        if t[0] == 'assign' and t[2][0][0] == 'index':
                            assert t[2][0][2] == ('id', idx)
                            self.line(f'let {self.arrays[t[2][0][1][1]][j]} := {use(self.expr(t[3][0]))}')
                        else:
                            assert t[0] == 'if' and t[5] is None
                            names = self.assigned(t[4]); self.loop = (idx, j)
                            vals = []
                            for n in names:
                                rhs = [x for x in t[4] if x[2][0][1] == n][0][3][0]
                                vals.append(str(j) if rhs == ('id', idx) else use(self.expr(rhs)))
                            c = self.expr(t[3])
                            for n, v in zip(names, vals): self.line(f'let {n}\' := if {c} then {v} else {n}')
                            for n in names: self.line(f'let {n} := {n}\'')
            elif k == 'return':
                self.line(self.ret(s[2]))
            else: raise Exception(str(s))

    def define(self, path):
        f = self.f
        self.ind = '  '
        sig = []
        body = str(f.body)
        res = [t[2] for _, t in f.results]
        self.mon = 'error' in res or 'Sqrt' in body
        self.block(f.body)
        T = {'uint32': 'UInt32', 'float64': 'ℝ', 'bool': 'Bool'}
        ps = ' '.join(f'({n} : {T[t[2]]})' for n, t in f.params)
        fl = ' '.join(f'({p} : {PARAMS[p]})' for p in ['cosF', 'acosF', 'sinF', 'atan2F', 'nl'] if p in self.used)
        r = [t for t in res if t != 'error']
        ty = ' × '.join('ℝ' for _ in r)
        if 'error' in res: ty = f'Go ({ty})'
        elif self.mon: ty = f'Option {ty}' if len(r) == 1 else f'Option ({ty})'
        head = f'def Gen.geo.{f.name} (fl : ℝ → ℝ) {fl + " " if fl else ""}{ps} : {ty} :=' + (' do' if self.mon else '')
        return f'/-- `{f.name}`, pkg/geo/{path}.go:{f.a}-{f.b}. -/\n{head}\n' + '\n'.join(self.out) + '\n'

HEAD = '''import Verif.Model.GeoFloat
import Verif.Model.Translation
/-!
# The functions of `pkg/geo`, translated mechanically

Written by `tools/go2lean/geo.py` from the text of /repo; not edited by hand. A `float64` is a real number and `fl` its rounding,
applied to the result of every operation and conversion; constant expressions are exact until they are used. `math.Floor`,
`math.Abs` and `math.Max` are exact, `math.Pow(x, 2)` is a rounded square, `math.Sqrt` is `sqrtGo`, the other functions of
package `math` are parameters, and so is `getNumberOfLongitude` where it is called. Loops over arrays are unrolled.
Props/TranslationGeo proves that Model/GeoFloat and this translation agree.
-/
set_option linter.unusedVariables false
noncomputable section
namespace Modes

/-- `math.Sqrt`: NaN (`none`) for a negative number, the rounded root otherwise. -/
def sqrtGo (fl : ℝ → ℝ) (x : ℝ) : Option ℝ := if x < 0 then none else some (fl (Real.sqrt x))

'''
if __name__ == '__main__':
    defs = []
    for p in FILES:
        d = goparse.parse_file(f'/repo/pkg/geo/{p}.go')
        for c in d['consts']: CONSTS[c[0]] = Fraction(c[2][1])
        for f in d['funcs']: defs.append(Gen(f).define(p))
    open(OUT, 'w').write(HEAD + '\n'.join(defs) + '\nend Modes\n')
    print(len(defs), 'functions')
