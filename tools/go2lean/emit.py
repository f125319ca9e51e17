"""Translation of the Go functions of /repo/pkg into Lean, from their text. See DESIGN.md, "Translation"."""
import os, re, glob, sys
from fractions import Fraction
sys.path.insert(0, os.path.dirname(os.path.abspath(__file__)))
import goparse
from config import *

ROOT = '/repo/'
TEXTS = False   # all the functions that return a string (texts.py)
WORDS = False   # keep the words of errors (words.py)
MODPATH = None

class No(Exception): pass

BASIC = {'byte': 'u8', 'uint8': 'u8', 'uint16': 'u16', 'uint32': 'u32', 'uint64': 'u64', 'int': 'int', 'int16': 'i16', 'int32': 'int', 'int64': 'int', 'bool': 'bool',
         'string': 'string', 'float32': 'f32', 'float64': 'f64', 'error': 'error', 'rune': 'int', 'uint': 'u64'}
LEAN = {'u8': 'UInt8', 'u16': 'UInt16', 'u32': 'UInt32', 'u64': 'UInt64', 'int': 'Int', 'i16': 'Int', 'bool': 'Bool', 'f32': 'ℚ', 'f64': 'ℚ', 'string': 'List UInt8', 'chars': 'List Char', 'nat': 'Nat'}
WIDTH = {'u8': 8, 'u16': 16, 'u32': 32, 'u64': 64}
KEYWORDS = set('at from fun end open in mut let do by then else if match with where have show this local section namespace variable example def theorem instance class structure'.split())

class World:
    def __init__(w):
        w.pk = {}
        for p in sorted(glob.glob(ROOT + 'pkg/**/*.go', recursive=True)):
            if p.endswith('_test.go'): continue
            f = goparse.parse_file(p); d = os.path.dirname(p)[len(ROOT):]
            k = w.pk.setdefault(d, dict(types={}, consts={}, vars={}, funcs={}, files=[]))
            f['dir'] = d; k['files'].append(f)
            for n, t in f['types'].items(): k['types'][n] = (f, t)
            for n, t, e, i in f['consts']: k['consts'][n] = (f, t, e, i)
            for n, t, e in f['vars']: k['vars'][n] = (f, t, e)
            for g in f['funcs']:
                key = g.name if not g.recv else (g.recv[1][1] if g.recv[1][0] == 'ptr' else g.recv[1])[2] + '.' + g.name
                k['funcs'][key] = (f, g)
        w.done = {}   # (dir,key) -> info
    def rtype(w, f, t):
        if t[0] == 'name':
            if t[1] is None:
                if t[2] in w.pk[f['dir']]['types']: return ('named', f['dir'], t[2])
                if t[2] in BASIC: return BASIC[t[2]]
                raise No('type ' + t[2])
            p = f['imports'].get(t[1])
            d = p.split('twuillemin/modes/')[-1] if p else None
            if d not in w.pk: raise No(f'type {t[1]}.{t[2]}')
            return ('named', d, t[2])
        if t[0] in ('slice', 'ptr'): return (t[0], w.rtype(f, t[1]))
        if t[0] == 'map': return ('map', w.rtype(f, t[1]), w.rtype(f, t[2]))
        if t[0] == 'array': raise No('array')
        if t[0] in ('struct', 'interface', 'func'): return (t[0], t, f)
        raise No(str(t))
    def under(w, t):
        while isinstance(t, tuple) and t[0] == 'named':
            f, u = w.pk[t[1]]['types'][t[2]]; t = w.rtype(f, u)
        return t
    def kind(w, t):
        if isinstance(t, tuple) and t[0] == 'named' and (t[1], t[2]) in ENUMS: return 'enum'
        if isinstance(t, tuple) and t[0] == 'named' and (t[1], t[2]) in ALIAS: return ALIAS[t[1], t[2]]
        u = w.under(t)
        if u == 'f32' and STACK and STACK[-1] in SIGNED: return 'sf32'
        return u if isinstance(u, str) else u[0]
    def lean(w, t):
        if t == 'f32' and STACK and STACK[-1] in SIGNED: return '(ℚ × Bool)'
        if isinstance(t, str): return LEAN[t]
        if t[0] == 'ptr': return w.lean(t[1])
        if t[0] == 'slice': return f'List {w.lean(t[1])}' if ' ' not in w.lean(t[1]) else f'List ({w.lean(t[1])})'
        if t[0] == 'map': return 'AllowList'
        if t[0] == 'opt': return f'Option {w.lean(t[1])}'
        if t[0] == 'named':
            if (t[1], t[2]) in WRAP: return WRAP[t[1], t[2]][1]
            if (t[1], t[2]) in ALIAS: return LEAN[ALIAS[t[1], t[2]]]
            if (t[1], t[2]) in CTORS: return CTORS[t[1], t[2]][0]
            if (t[1], t[2]) in INTERFACES: return INTERFACES[t[1], t[2]][0]
            if (t[1], t[2]) in ENUMS: return ENUMS[t[1], t[2]][0]
            if (t[1], t[2]) in STRUCTS: return STRUCTS[t[1], t[2]]
            u = w.under(t)
            if isinstance(u, tuple) and u[0] in ('struct', 'interface'): raise No(f'no Lean type for {t[1]}.{t[2]}')
            return w.lean(u)
        raise No(str(t))

W = World()

def q(fr):
    if fr.denominator == 1: return str(fr.numerator) if fr >= 0 else f'(-{-fr.numerator})'
    return f'({fr.numerator} / {fr.denominator})'

def exact(fr, p):
    d = fr.denominator
    return d & (d - 1) == 0 and abs(fr.numerator).bit_length() <= p

class E:   # a translated expression
    def __init__(s, code, ty, const=None, mon=False, call=False): s.code, s.ty, s.const, s.mon, s.call = code, ty, const, mon, call

class Fn:
    def __init__(s, f, g, key):
        s.f, s.g, s.key = f, g, key; s.mon = False; s.deps = []; s.sizes = {}; s.err = False; s.rets = []
    # ---- names
    def lean_name(s): return gen_name(s.f['dir'], s.key)
    def var(s, n): return n + '_' if n in KEYWORDS else n
    def atom(s, c): return c if re.fullmatch(r"[\w.']+", c) or (c.startswith('(') and s.closed(c)) else f'({c})'
    def closed(s, c):
        d = 0
        for i, ch in enumerate(c):
            if ch == '(': d += 1
            if ch == ')':
                d -= 1
                if d == 0 and i < len(c) - 1: return False
        return d == 0
    # ---- constants
    def const(s, fr, ty):
        k = W.kind(ty)
        if isinstance(fr, bool): return 'true' if fr else 'false'
        if isinstance(fr, str): return s.text(fr)
        if k == 'enum':
            return ENUMS[ty[1], ty[2]][1][int(fr)]
        if k in WIDTH:
            assert fr.denominator == 1 and 0 <= fr < 2 ** WIDTH[k], (fr, k); return str(fr)
        if k in ('int', 'i16', 'nat'):
            assert fr.denominator == 1; return q(fr)
        if k == 'f32': return q(fr) if exact(fr, 24) else f'f32 {q(fr)}'
        if k == 'sf32' and fr > 0: return f'signedOf {q(fr)}' if exact(fr, 24) else f'signedOf (f32 {q(fr)})'
        if k == 'f64': return q(fr) if exact(fr, 53) else f'f64 {q(fr)}'
        raise No(f'constant of kind {k}')
    def text(s, lit): return f't! {lit}' if WORDS else f'{lit}.toList'
    def conv(s, e, ty):
        """e used where ty is wanted (untyped constants get their type)"""
        if e.ty == 'untyped': return E(s.const(e.const, ty), ty, e.const)
        if isinstance(ty, tuple) and ty[0] == 'opt' and isinstance(e.ty, tuple) and e.ty[0] == 'ptr': return E(f'some {s.atom(e.code)}', ty, None, e.mon)
        if e.ty == 'nat' and W.kind(ty) == 'int': return E(f'({e.code} : Int)', ty, None, e.mon)
        return e
    def lookup_const(s, d, n):
        f, t, e, i = W.pk[d]['consts'][n]
        sub = Fn(f, None, n); v = sub.expr(e, {'iota': E(str(i), 'untyped', Fraction(i))})
        if t is None: return v if v.ty != 'untyped' else E(v.code, 'untyped', v.const)
        ty = W.rtype(f, t)
        return E(s.const(v.const, ty), ty, v.const)
    # ---- expressions
    def expr(s, e, env, want=None):
        k = e[0]
        if k == 'par': return s.expr(e[1], env, want)
        if k == 'num':
            v = Fraction(int(e[1], 16)) if e[1].startswith('0x') else Fraction(e[1]); return E(e[1], 'untyped', v)
        if k == 'chr':
            c = e[1][1:-1]
            if len(c) != 1 or c == '\\': raise No('character ' + e[1])
            return E(str(ord(c)), 'untyped', Fraction(ord(c)))
        if k == 'str': return E(s.text(e[1]), 'chars', None)
        if k == 'id':
            n = e[1]
            if n in env: return env[n]
            if n in ('true', 'false'): return E(n, 'bool', n == 'true')
            if n in W.pk[s.f['dir']]['consts']: return s.lookup_const(s.f['dir'], n)
            if n in W.pk[s.f['dir']]['vars']: return s.globalvar(s.f['dir'], n)
            raise No(f'identifier {n}')
        if k == 'sel':
            if e[1][0] == 'id' and e[1][1] not in env and e[1][1] in s.f['imports']:
                p = s.f['imports'][e[1][1]].split('twuillemin/modes/')[-1]
                if p in W.pk and e[2] in W.pk[p]['consts']: return s.lookup_const(p, e[2])
                if p in W.pk and e[2] in W.pk[p]['vars']: return s.globalvar(p, e[2])
                raise No(f'{e[1][1]}.{e[2]}')
            x = s.expr(e[1], env)
            return s.select(x, e[2])
        if k == 'un': return s.unary(e, env, want)
        if k == 'bin': return s.binary(e, env, want)
        if k == 'index':
            x = s.expr(e[1], env); i = s.expr(e[2], env); u = W.under(x.ty)
            if u[0] == 'map': return E((x, i), 'mapindex')
            if u[0] != 'slice': raise No('index of ' + str(u[0]))
            s.mon = True; fn, ic = s.index(i)
            return E(f'(← idx{fn} {s.atom(x.code)} {ic})', u[1], None, True)
        if k == 'slice':
            x = s.expr(e[1], env); u = W.under(x.ty)
            if u[0] != 'slice': raise No('slice of ' + str(u[0]))
            lo = s.expr(e[2], env) if e[2] else None; hi = s.expr(e[3], env) if e[3] else None
            s.mon = True; ii = any(v is not None and v.const is None and W.kind(v.ty) == 'int' for v in (lo, hi)); I = 'I' if ii else ''
            def n(v):
                f, c = s.index(v); return c
            if lo is None: c = f'sliceTo{I} {s.atom(x.code)} {n(hi)}'
            elif hi is None: c = f'sliceFrom{I} {s.atom(x.code)} {n(lo)}'
            else: c = f'slice{I} {s.atom(x.code)} {n(lo)} {n(hi)}'
            return E(f'(← {c})', ('slice', u[1]), None, True)
        if k == 'call': return s.callx(e, env, want)
        if k == 'lit': return s.lit(e, env)
        raise No('expression ' + k)
    def globalvar(s, d, n):
        f, t, e = W.pk[d]['vars'][n]
        if e is None or e[0] != 'lit' or e[1] is None or e[1][0] != 'slice': raise No(f'variable {n}')
        x = Fn(f, None, n).expr(e, {}); return E(f'({x.code} : {W.lean(x.ty)})', x.ty)
    def index(s, i):
        if i.const is not None: assert i.const >= 0; return '', str(i.const)
        ik = W.kind(i.ty)
        if ik == 'int': return 'I', s.atom(i.code)
        if ik == 'nat': return '', s.atom(i.code)
        return '', s.atom(s.atom(i.code) + '.toNat')
    def select(s, x, n):
        t = x.ty[1] if x.ty[0] == 'ptr' else x.ty
        if isinstance(x.code, dict):    # a receiver given by the fields of its constructor
            if n in x.code: return x.code[n]
            for m, y in x.code.items():
                if isinstance(y.ty, tuple) and m == (y.ty[2] if y.ty[0] == 'named' else None):
                    try: return s.select(y, n)
                    except No: pass
            raise No(f'no field {n}')
        if t[0] == 'named' and (t[1], t[2]) in WRAP and WRAP[t[1], t[2]][0] == n:
            return E(x.code, WRAP[t[1], t[2]][2], None, x.mon)
        fl, ty = s.field(x.ty, n)
        return E(f'{s.atom(x.code)}.{fl}', ty, None, x.mon)
    def field(s, ty, n):
        t = ty[1] if ty[0] == 'ptr' else ty
        u = W.under(t)
        if u[0] != 'struct': raise No(f'field {n} of {t}')
        for fn, ft, emb in u[1][1]:
            if fn == n: return lean_field(W.lean(t), n), W.rtype(u[2], ft)
        for fn, ft, emb in u[1][1]:
            if emb:
                try:
                    et = W.rtype(u[2], ft); fl, ty2 = s.field(et, n); return lean_field(W.lean(t), fn) + '.' + fl, ty2
                except No: pass
        raise No(f'no field {n}')
    def lit(s, e, env):
        t = W.rtype(s.f, e[1]); u = W.under(t)
        if u[0] == 'struct':
            name = W.lean(t); parts = []; mon = False
            if (t[1], t[2]) in WRAP:
                if len(e[2]) != 1: raise No('wrapper')
                x = s.expr(e[2][0][1], env); return E(x.code, t, None, x.mon)
            if e[2] and e[2][0][0] is None: e = (e[0], e[1], [(('id', fn), v) for (fn, _, _), (_, v) in zip(u[1][1], e[2], strict=True)])
            fts = {fn: W.rtype(u[2], ft) for fn, ft, _ in u[1][1]} if name not in () else {}
            given = []
            for kx, v in e[2]:
                if kx is None: raise No('positional struct literal')
                x = s.expr(v, env, fts[kx[1]]); x = s.inject(s.conv(x, fts[kx[1]]), fts[kx[1]])
                mon |= x.mon; parts.append((kx[1], x.code)); given.append(kx[1])
            for fn in fts:
                if fn not in given: parts.append((fn, s.zero(fts[fn]).code))
            if (t[1], t[2]) in CTORS:
                _, ctor, order = CTORS[t[1], t[2]]; dp = dict(parts); assert set(order) == set(dp), (order, dp)
                return E(ctor + ''.join(' ' + s.atom(dp[o]) for o in order), t, None, mon)
            if name.startswith('('): return E('(' + ', '.join(b for _, b in parts) + ')', t, None, mon)
            fs = []
            for a, b in parts:
                if (name, a) in FLATTEN: fs += [f'{l} := {s.atom(b)}.{i + 1}' for i, l in enumerate(FLATTEN[name, a])]
                else: fs.append(f'{lean_field(name, a)} := {b}')
            fs += [f'{l} := {v}' for l, v in FILL.get(name, [])]
            c = '{ ' + ', '.join(fs) + f' : {name} }}' if fs else f'({{}} : {name})'
            return E(c, t, None, mon)
        if u[0] == 'slice':
            xs = [s.conv(s.expr(v, env, u[1]), u[1]) for _, v in e[2]]
            return E('[' + ', '.join(x.code for x in xs) + ']', t, None, any(x.mon for x in xs))
        raise No('literal of ' + u[0])
    def zero(s, ty):
        kk = W.kind(ty)
        if kk == 'enum': return E(s.const(Fraction(0), ty), ty)
        if kk == 'bool': return E('false', ty)
        if kk in LEAN and kk not in ('string', 'chars'): return E('0', ty)
        raise No('zero value')
    def unary(s, e, env, want):
        op = e[1]; x = s.expr(e[2], env, want)
        if op in ('&', '*'): return E(x.code, ('ptr', x.ty) if op == '&' else (x.ty[1] if x.ty[0] == 'ptr' else x.ty), None, x.mon)
        if x.const is not None and x.ty == 'untyped' and op in '-+': return E('', 'untyped', -x.const if op == '-' else x.const)
        if op == '!': return E(f'!{s.atom(x.code)}', 'bool', None, x.mon)
        if op == '-':
            k = W.kind(x.ty)
            if k in WIDTH or k in ('int', 'f32', 'f64'): return E(f'-{s.atom(x.code)}', x.ty, None, x.mon)
            if k == 'sf32': return E(f'signedNeg {s.atom(x.code)}', x.ty, None, x.mon)
            if k == 'i16': return E(f'wrap16 (-{s.atom(x.code)})', x.ty, None, x.mon)
        raise No('unary ' + op)
    def binary(s, e, env, want):
        op = e[1]
        if op in ('<<', '>>'):
            l = s.expr(e[2], env, want); r = s.expr(e[3], env)
            if l.const is not None and r.const is not None and l.ty == 'untyped': return E('', 'untyped', Fraction(int(l.const) << int(r.const) if op == '<<' else int(l.const) >> int(r.const)))
            k = W.kind(l.ty)
            if k == 'u8' and op == '>>' and r.const is None: return E(f'shiftRight8 {s.atom(l.code)} {s.atom(r.code)}', l.ty, None, l.mon or r.mon)
            if k not in WIDTH or r.const is None: raise No('shift')
            assert 0 <= r.const < WIDTH[k]
            return E(f'{s.atom(l.code)} {op[0]*3} {r.const}', l.ty, None, l.mon)
        if op in ('==', '!=') and e[3] == ('id', 'nil') and e[2][0] == 'call':
            x = s.expr(e[2], env)
            if x.ty != ('tuple', []) or not x.code.startswith('(← '): raise No('comparison with nil')
            c = f'{"saysNothing" if WORDS else "returnsNil"} ({x.code[3:-1]})'; return E(c if op == '==' else f'!{c}', 'bool')
        l = s.expr(e[2], env, want); r = s.expr(e[3], env, want)
        if l.ty == 'untyped' and r.ty == 'untyped':
            a, b = l.const, r.const
            v = {'+': lambda: a + b, '-': lambda: a - b, '*': lambda: a * b, '/': lambda: a / b if '.' in str(e) else Fraction(a // b) if a.denominator == b.denominator == 1 else a / b}[op]()
            if op == '/' and a.denominator == 1 and b.denominator == 1:
                isf = any('.' in t for t in re.findall(r"'num', '([^']*)'", str(e)))
                v = a / b if isf else Fraction(int(a / b))
            return E('', 'untyped', v)
        if isinstance(l.const, Fraction) and isinstance(r.const, Fraction) and op in '+-*':
            v = l.const + r.const if op == '+' else l.const - r.const if op == '-' else l.const * r.const; ty = r.ty if l.ty == 'untyped' else l.ty
            return E(s.const(v, ty), ty, v)
        if op in ('&&', '||'):
            if r.mon:
                return E(f"(← {'andGo' if op == '&&' else 'orGo'} {s.atom(l.code)} (do pure {s.atom(r.code)}))", 'bool', None, True)
            return E(f'{s.atom(l.code)} {op} {s.atom(r.code)}', 'bool', None, l.mon or r.mon)
        ty = r.ty if l.ty == 'untyped' else l.ty
        if op == '-' and 'nat' in (l.ty, r.ty):
            l, r = [E(f'({z.code} : Int)', 'int', None, z.mon) if z.ty == 'nat' else s.conv(z, 'int') for z in (l, r)]; ty = 'int'
        elif l.ty == 'nat' and r.ty == 'untyped' or r.ty == 'nat' and l.ty == 'untyped': ty = 'nat'
        l = s.conv(l, ty); r = s.conv(r, ty); mon = l.mon or r.mon; k = W.kind(ty); a, b = s.atom(l.code), s.atom(r.code)
        if op in ('==', '!='):
            return E(f'{a} {op} {b}', 'bool', None, mon)
        if op in ('<', '<=', '>', '>='):
            return E(f"decide ({a} {op.replace('<=', '≤').replace('>=', '≥')} {b})", 'bool', None, mon)
        lop = {'&': '&&&', '|': '|||', '^': '^^^'}.get(op, op)
        if k in WIDTH: return E(f'{a} {lop} {b}', ty, None, mon)
        if k == 'nat' and op == '-':
            return E(f'{a} - {b}', ty, None, mon)
        if k == 'nat' and op in '*/%': return E(f'{a} {op} {b}', ty, None, mon)
        if k == 'nat' and op == '+': return E(f'{a} + {b}', ty, None, mon)
        if k == 'int':
            if op in '+-*': return E(f'{a} {op} {b}', ty, None, mon)
            if op == '/': return E(f'Int.tdiv {a} {b}', ty, None, mon)
            if op == '%': return E(f'Int.tmod {a} {b}', ty, None, mon)
        if k == 'i16' and op in '+-*': return E(f'wrap16 ({a} {op} {b})', ty, None, mon)
        if k == 'sf32' and op in '*/': return E(f"{'signedMul' if op == '*' else 'signedDiv'} {a} {b}", ty, None, mon)
        if k in ('f32', 'f64') and op in '+-*/': return E(f'{k} ({a} {op} {b})', ty, None, mon)
        raise No(f'operator {op} on {k}')
    def unsafe(s, e, env): return '(←' in s.expr(e, env).code and not s.same_index(e)
    def same_index(s, e): return False
    def cond(s, e, env):
        """a condition as a proposition, with the comparisons as in Go"""
        if e[0] == 'par': return s.cond(e[1], env)
        if e[0] == 'un' and e[1] == '!':
            c, m = s.cond(e[2], env); x = s.expr(e[2], env)
            return (f'!{s.atom(x.code)}', x.mon) if e[2][0] in ('id', 'sel', 'call') else (f'¬ {s.atom(c)}', m)
        if e[0] == 'bin':
            op = e[1]
            if op in ('&&', '||'):
                l, lm = s.cond(e[2], env); r, rm = s.cond(e[3], env)
                if rm:
                    x = s.binary(e, env, None); return x.code, True
                return f"{s.catom(l)} {'∧' if op == '&&' else '∨'} {s.catom(r)}", lm or rm
            if op in ('==', '!=', '<', '<=', '>', '>='):
                x = s.binary(e, env, None); c = x.code
                if 'returnsNil' in c or 'saysNothing' in c: return c, x.mon
                if c.startswith('decide '): c = c[7:]; c = c[1:-1]
                else: c = re.sub(r' == (?!.* == )', ' = ', c) if op == '==' else re.sub(r' != (?!.* != )', ' ≠ ', c)
                return c, x.mon
        x = s.expr(e, env); return x.code, x.mon
    def catom(s, c): return c if s.atom(c) == c or ' ' not in c else f'({c})' if re.search(r'[∧∨]', c) else c
    def callx(s, e, env, want):
        fn, args = e[1], e[2]
        # conversions
        ty = None
        if fn[0] == 'id' and fn[1] not in env:
            if fn[1] in BASIC: ty = BASIC[fn[1]]
            elif fn[1] in W.pk[s.f['dir']]['types']: ty = ('named', s.f['dir'], fn[1])
        elif fn[0] == 'sel' and fn[1][0] == 'id' and fn[1][1] in s.f['imports'] and fn[1][1] not in env:
            p = s.f['imports'][fn[1][1]].split('twuillemin/modes/')[-1]
            if p in W.pk and fn[2] in W.pk[p]['types']: ty = ('named', p, fn[2])
        if ty == 'string':
            x = s.expr(args[0], env); return E(x.code, 'string', None, x.mon)
        if ty: return s.convert(s.expr(args[0], env, ty), ty)
        if fn == ('id', 'make') and args[0][0] == 'type' and args[0][1][0] == 'slice':
            t = W.rtype(s.f, args[0][1]); n = s.expr(args[1], env)
            if n.const == 0: return E('[]', t)
            return E(f'List.replicate {n.const if n.const is not None else s.atom(n.code)} ({s.zero(t[1]).code} : {W.lean(t[1])})', t)
        if fn == ('id', 'append'):
            l = s.expr(args[0], env); x = s.expr(args[1], env); x = s.inject(x, W.under(l.ty)[1]); return E(f'{s.atom(l.code)} ++ [{x.code}]', l.ty, None, x.mon)
        if fn == ('sel', ('id', 'strings'), 'ContainsAny') and args[1][0] == 'str':
            x = s.expr(args[0], env); return E(f'{s.atom(x.code)}.any (fun c => {[ord(c) for c in args[1][1].strip(chr(34))]}.contains c)', 'bool', None, x.mon)
        if fn == ('sel', ('id', 'fmt'), 'Sprintf') and re.fullmatch(r'"(%v)+"', args[0][1]):
            xs = [s.expr(a, env) for a in args[1:]]
            if any(W.kind(x.ty) not in WIDTH for x in xs): raise No('Sprintf')
            return E(' ++ '.join(f'sprintfUint {s.atom(x.code)}.toNat' for x in xs), 'chars', None, any(x.mon for x in xs))
        if WORDS and fn == ('sel', ('id', 'fmt'), 'Sprintf'):
            return E(s.format(args, env), 'chars')
        if fn == ('id', 'len'):
            x = s.expr(args[0], env)
            m = re.fullmatch(r'\(\[([\d, ]*)\] : List \w+\)', x.code)
            if m: return E(str(m.group(1).count(',') + 1), 'int', Fraction(m.group(1).count(',') + 1))
            if args[0][0] == 'id' and args[0][1] in s.sizes: n = s.sizes[args[0][1]]; return E(str(n), 'int', Fraction(n))
            return E(f'{s.atom(x.code)}.length', 'nat', None, x.mon)
        # functions
        if fn[0] == 'id': d, key, recv = s.f['dir'], fn[1], None
        elif fn[0] == 'sel' and fn[1][0] == 'id' and fn[1][1] in s.f['imports'] and fn[1][1] not in env:
            d = s.f['imports'][fn[1][1]].split('twuillemin/modes/')[-1]; key, recv = fn[2], None
            if d not in W.pk: raise No(f'call of {fn[1][1]}.{fn[2]}')
        elif fn[0] == 'sel':
            recv = s.expr(fn[1], env); t = recv.ty[1] if recv.ty[0] == 'ptr' else recv.ty
            if not (isinstance(t, tuple) and t[0] == 'named'): raise No('method')
            d, key = t[1], t[2] + '.' + fn[2]
            if W.kind(t) == 'interface': info = dispatch(t, fn[2])
            elif key not in W.pk[d]['funcs']:    # promoted method
                u = W.under(t)
                for fnm, ft, emb in (u[1][1] if u[0] == 'struct' else []):
                    et = W.rtype(u[2], ft)
                    if emb and et[0] == 'named' and (et[2] + '.' + fn[2] in W.pk[et[1]]['funcs'] or W.kind(et) == 'interface'):
                        return s.callx(('call', ('sel', ('sel', fn[1], fnm), fn[2]), args), env, want)
        else: raise No('call')
        if not (recv and W.kind(t) == 'interface'):
            if key not in W.pk[d]['funcs']: raise No(f'call of {key}')
            info = translate(d, key)
        xs = [s.conv(s.expr(a, env, pt), pt) for a, (_, pt) in zip(args, info['params'])]
        if len(args) != len(info['params']): raise No('arity')
        if recv and isinstance(recv.code, dict): recv = [recv.code[o] for o in CTORS[t[1], t[2]][2]]
        elif recv: recv = [recv]
        allx = (recv or []) + xs
        c = info['name'] + ''.join(' ' + s.atom(x.code) for x in allx)
        s.deps.append((d, key)); mon = any(x.mon for x in allx)
        if info['mon']:
            s.mon = True; return E(f'(← {c})', info['ret'], None, True, call=True)
        return E(c, info['ret'], None, mon)
    def convert(s, x, ty):
        k = W.kind(ty)
        if x.ty == 'untyped': return E(s.const(x.const, ty), ty, x.const)
        f = W.kind(x.ty); a = s.atom(x.code)
        if f in WIDTH and k == 'nat': return E(f'{a}.toNat', ty, None, x.mon)
        if k == 'enum' or f == 'enum': raise No('conversion of an enumeration')
        if f == k: return E(x.code, ty, x.const, x.mon)
        if x.const is not None and f in WIDTH and k in WIDTH: return E(s.const(x.const, ty), ty, x.const)
        if f in WIDTH and k in WIDTH: return E(f'{a}.to{LEAN[k]}', ty, None, x.mon)
        if f in WIDTH and k == 'int': return E(f'({a}.toNat : Int)', ty, None, x.mon)
        if f == 'nat' and k in ('f32', 'f64'): return E(f'{k} ({a} : ℚ)', ty, None, x.mon)
        if f == 'int' and k == 'u64': return E(f'uintOf {a}', 'nat', None, x.mon)
        if f in WIDTH and k == 'i16': return E(f'wrap16 {a}.toNat', ty, None, x.mon)
        if f in WIDTH and k == 'sf32': return E(f'signedOf (f32 ({a}.toNat : ℚ))', ty, None, x.mon)
        if f in WIDTH and k in ('f32', 'f64'): return E(f'{k} ({a}.toNat : ℚ)', ty, None, x.mon)
        if f in ('int', 'i16') and k in ('f32', 'f64'): return E(f'{k} ({a} : ℚ)', ty, None, x.mon)
        if f == 'f64' and k == 'f32': return E(f'f32 {a}', ty, None, x.mon)
        if f == 'f32' and k == 'f64': return E(x.code, ty, None, x.mon)
        raise No(f'conversion {f} to {k}')
    # ---- statements
    def iserr(s, e):
        if e[0] == 'call' and e[1][0] == 'sel' and e[1][1][0] == 'id' and (e[1][1][1], e[1][2]) in (('errors', 'New'), ('fmt', 'Errorf')): return True
        return e == ('id', 'err')
    def terminates(s, st):
        if not st: return False
        l = st[-1]
        if l[0] == 'return': return True
        if l[0] == 'if': return l[5] is not None and s.terminates(l[4]) and s.terminates(l[5])
        if l[0] == 'switch': return any(v is None for v, _ in l[3]) and all(s.terminates(b) for _, b in l[3])
        return False
    def fails(s, st): return len(st) == 1 and st[0][0] == 'return' and s.err and s.iserr(st[0][2][-1])
    def assigned(s, st):
        out = []
        for x in st:
            if x[0] in ('assign',): out += [l[1] if l[0] == 'id' else l[1][1] for l in x[2] if l != ('id', 'err')]
            elif x[0] == 'opassign': out.append(x[3][1] if x[3][0] == 'id' else x[3][1][1])
            elif x[0] == 'for': out += s.assigned(x[5])
            elif x[0] == 'forrange': out += s.assigned(x[4])
            elif x[0] == 'if': out += s.assigned(x[4]) + s.assigned(x[5] or [])
            elif x[0] == 'switch':
                for _, b in x[3]: out += s.assigned(b)
            elif x[0] in ('define', 'return', 'var', 'expr', 'break'): pass
            else: raise No('statement ' + x[0])
        return list(dict.fromkeys(out))
    def failure(s, e, env):
        if not WORDS: return 'fail'
        if e == ('id', 'err') and 'err' in env: return 'say err'
        if e[0] != 'call': raise No('words of err')
        return f'say ({s.format(e[2], env)})'
    def format(s, args, env):
        """the text of a format with %v and its arguments"""
        lit = args[0][1]; xs = list(args[1:]); parts = []
        if not lit.startswith('"') or re.search(r'%(?!v)', lit): raise No('format')
        for i, w in enumerate(lit[1:-1].split('%v')):
            if i: parts.append(s.shown(s.expr(xs.pop(0), env)))
            if w: parts.append(f't! "{w}"')
        if xs: raise No('format')
        return ' ++ '.join(parts) or '[]'
    def shown(s, x):
        if x.ty == 'chars': return s.atom(x.code)
        if W.kind(x.ty) in WIDTH: return f'dec {s.atom(x.code)}.toNat'
        if W.kind(x.ty) == 'nat': return f'dec {s.atom(x.code)}'
        raise No('format of ' + str(x.ty))
    def ret(s, es, env):
        r = s.rets
        if s.err:
            if s.iserr(es[-1]) and es[-1][0] == 'call' or es[-1] == ('id', 'err'): s.mon = True; return s.failure(es[-1], env)
            if len(es) == 1 and es[0][0] == 'call':   # return f(x)
                x = s.expr(es[0], env)
                return s.wrapret(x)
            if es[-1] != ('id', 'nil'): raise No('returned error')
            es = es[:-1]
        if len(es) == 1 and len(r) > 1:
            x = s.expr(es[0], env); return s.wrapret(x)
        xs = [s.inject(s.conv(s.expr(e, env, t), t), t) for e, t in zip(es, r)]
        c = '()' if not xs else xs[0].code if len(xs) == 1 else '(' + ', '.join(x.code for x in xs) + ')'
        return f'RETURN {c}'
    def wrapret(s, x):
        if x.code.startswith('(← ') and s.closed(x.code):
            rt = s.rets[0] if s.rets else None
            y = s.inject(E('x', x.ty), rt) if rt and isinstance(x.ty, tuple) else None
            if y is not None and y.code != 'x': return f'RETURN {s.inject(x, rt).code}'
            return x.code[3:-1]
        return f'RETURN {x.code}'
    def inject(s, x, t):
        """a concrete type used as an interface"""
        if isinstance(t, tuple) and t[0] == 'named' and (t[1], t[2]) in INTERFACES:
            xt = x.ty[1] if isinstance(x.ty, tuple) and x.ty[0] == 'ptr' else x.ty
            if xt == t: return x
            key = (xt[1], xt[2])
            if key in CTORS and CTORS[key][0] == INTERFACES[t[1], t[2]][0]: return E(x.code, t, None, x.mon)
            if key not in INTERFACES[t[1], t[2]][1]: raise No(f'{key} in interface {t[2]}')
            return E(f'{INTERFACES[t[1], t[2]][0]}{INTERFACES[t[1], t[2]][1][key]} {s.atom(x.code)}', t, None, x.mon)
        return x
    def bindline(s, names, x, ann=None):
        if ann and len(names) == 1: return f'let {names[0]} : {ann} := {x.code}'
        pat = names[0] if len(names) == 1 else '(' + ', '.join(names) + ')'
        if x.code.startswith('(← ') and s.closed(x.code): return f'let {pat} ← {x.code[3:-1]}'
        return f'let {pat} := {x.code}'
    def stmts(s, st, env, ind, tail):
        """lines for the statements; tail(env) gives the last expression when the end is reached"""
        L = []; pad = '  ' * ind; env = dict(env)
        for n, x in enumerate(st):
            rest = st[n + 1:]; k = x[0]
            if k == 'return': L.append(pad + s.ret(x[2], env)); return L
            if k in ('define', 'assign'):
                lhs = []
                for l in x[2]:
                    if l[0] == 'index' and l[1][0] == 'id' and len(x[2]) == len(x[3]) == 1:
                        lhs = s.store(L, pad, l, x[3][0], env); break
                    if l[0] == 'sel' and l[1][0] == 'id' and len(x[2]) == len(x[3]) == 1:
                        b = s.expr(l[1], env); fl, ty = s.field(b.ty, l[2]); v = s.conv(s.expr(x[3][0], env, ty), ty)
                        L.append(pad + f'let {b.code} := {{ {b.code} with {fl} := {v.code} }}'); lhs = None; break
                    if l[0] != 'id': raise No('assignment to ' + l[0])
                    lhs.append(l[1])
                if lhs is None: continue
                if len(x[3]) == 1 and len(lhs) >= 1:
                    if k == 'assign' and lhs[0] in env and len(lhs) == 1:
                        v = s.conv(s.expr(x[3][0], env, env[lhs[0]].ty), env[lhs[0]].ty)
                    else: v = s.expr(x[3][0], env)
                    if v.ty == 'untyped': v = s.conv(v, 'int' if v.const.denominator == 1 else 'f64')
                    if v.ty == 'mapindex' and len(lhs) == 2 and lhs[0] == '_':
                        L.append(pad + f'let {s.var(lhs[1])} := {v.code[0].code}.has {s.atom(v.code[1].code)}'); env[lhs[1]] = E(s.var(lhs[1]), 'bool'); continue
                    if k == 'define' and len(lhs) == 1 and v.const is not None and lhs[0] not in s.assigned_ok(st): env[lhs[0]] = E(s.var(lhs[0]), v.ty, v.const); L.append(pad + f'let {s.var(lhs[0])} : {W.lean(v.ty)} := {v.code}'); continue
                    if v.code.startswith('List.replicate ') and len(lhs) == 1 and v.code.split()[1].isdigit(): s.sizes[lhs[0]] = int(v.code.split()[1])
                    tys = v.ty[1] if isinstance(v.ty, tuple) and v.ty[0] == 'tuple' else [v.ty]
                    names = list(lhs)
                    if names[-1] == 'err':
                        nx = rest[0] if rest else None
                        if nx and nx[0] == 'if' and s.errnil(nx[3]) is not None and nx[5] is None: return L + s.attempt(names[:-1], v, tys, nx, rest[1:], env, ind, tail)
                        if not (nx and nx[0] == 'if' and nx[3] == ('bin', '!=', ('id', 'err'), ('id', 'nil')) and s.fails(nx[4]) and not nx[5]): raise No('use of err')
                        names = names[:-1]; st = st[:n + 1] + [('skip',)] + st[n + 2:]
                        if WORDS and nx[4][0][2][-1] != ('id', 'err'):
                            if not v.call: raise No('words')
                            v = E(f"(← saying ({s.failure(nx[4][0][2][-1], env)[4:]}) ({v.code[3:-1]}))", v.ty, None, True)
                        L += [pad + s.bindline([s.var(a) for a in names] or ['_'], v)]
                        for a, t in zip(names, tys): env[a] = E(s.var(a), t)
                        return L + s.stmts(rest[1:], env, ind, tail)
                    if k == 'assign' and len(names) == 1 and names[0] in env: v = s.inject(v, env[names[0]].ty); tys = [env[names[0]].ty]
                    L.append(pad + s.bindline([s.var(a) for a in names], v, W.lean(v.ty) if v.const is not None else None))
                    for a, t in zip(names, tys): env[a] = E(s.var(a), t)
                elif len(x[3]) == len(lhs):
                    vs = [s.expr(a, env) for a in x[3]]
                    for a, v in zip(lhs, vs):
                        if v.ty == 'untyped': v = s.conv(v, env[a].ty if k == 'assign' else 'int')
                        L.append(pad + s.bindline([s.var(a)], v)); env[a] = E(s.var(a), v.ty)
                else: raise No('assignment')
                continue
            if k == 'var' and len(x[2]) == 2 and x[2][1][0] == 'err' and x[2][0][2] is not None:
                v = s.expr(x[2][0][2], env); a = x[2][0][0]
                j = [i for i, y in enumerate(rest) if y[0] == 'if' and y[3] == ('bin', '!=', ('id', 'err'), ('id', 'nil')) and s.fails(y[4]) and not y[5]]
                if not j: raise No('use of err')
                L.append(pad + s.bindline([s.var(a)], v)); env[a] = E(s.var(a), v.ty)
                return L + s.stmts(rest[:j[0]] + rest[j[0] + 1:], env, ind, tail)
            if k == 'var':
                for nme, t, e in x[2]:
                    if e == ('id', 'nil') and t and t[0] == 'ptr':
                        v = E('none', ('opt', W.rtype(s.f, t[1])))
                    elif e is not None:
                        v = s.expr(e, env)
                        if t: v = s.conv(v, W.rtype(s.f, t))
                    else:
                        ty = W.rtype(s.f, t); kk = W.kind(ty)
                        if kk == 'error': continue
                        if kk == 'interface': env[nme] = E(s.var(nme), ty); continue
                        v = s.zero(ty)
                    L.append(pad + f'let {s.var(nme)} : {W.lean(v.ty)} := {v.code}'); env[nme] = E(s.var(nme), v.ty)
                continue
            if k == 'opassign':
                if x[3][0] == 'index' and x[3][1][0] == 'id':
                    s.store(L, pad, x[3], ('bin', x[2], x[3], x[4]), env); continue
                if x[3][0] != 'id': raise No('assignment to ' + x[3][0])
                v = s.expr(('bin', x[2], x[3], x[4]), env)
                L.append(pad + s.bindline([s.var(x[3][1])], v)); continue
            if k in ('if', 'switch') and rest and s.errcheck(rest[0]):
                x, rest = s.push(x, rest[0]), rest[1:]
            if k == 'if':
                if x[2] is not None:
                    return L + s.stmts([x[2], x[:2] + (None,) + x[3:]] + rest, env, ind, tail)
                return L + s.ifstmt(x, rest, env, ind, tail)
            if k == 'switch':
                if x[2] and x[2][2][0] not in ('id', 'sel'):
                    v = s.expr(x[2][2], env); L.append(pad + s.bindline(['tag'], v)); env['tag'] = E('tag', v.ty); x = x[:2] + ((x[2][0], x[2][1], ('id', 'tag')),) + x[3:]
                return L + s.ifstmt(s.switch(x), rest, env, ind, tail)
            if k == 'skip': continue
            if k == 'for': return L + s.forstmt(x, rest, env, ind, tail)
            if k == 'forrange': return L + s.rangestmt(x, rest, env, ind, tail)
            raise No('statement ' + k)
        L.append(pad + tail(env)); return L
    def errnil(s, c):
        """the other condition of `err == nil && C` (True when there is none)"""
        if c == ('bin', '==', ('id', 'err'), ('id', 'nil')): return True
        if c[0] == 'bin' and c[1] == '&&' and c[2] == ('bin', '==', ('id', 'err'), ('id', 'nil')): return c[3]
        return None
    def errcheck(s, x): return x[0] == 'if' and x[3] == ('bin', '!=', ('id', 'err'), ('id', 'nil')) and s.fails(x[4]) and not x[5] and x[2] is None
    def push(s, x, chk):
        """the check of `err` after a conditional, moved to the end of each branch"""
        def add(b):
            if b and b[-1][0] == 'assign' and b[-1][2] == [('id', 'err')]: return b[:-1] + [('return', b[-1][1], [('id', 'nil')] * len(s.rets) + b[-1][3])]
            if b and b[-1][0] in ('assign', 'define') and b[-1][2][-1] == ('id', 'err'): return b + [chk]
            raise No('err')
        if x[0] == 'switch':
            if not any(v is None for v, _ in x[3]): raise No('err')
            return x[:3] + ([(v, add(b)) for v, b in x[3]],)
        if x[5] is None: raise No('err')
        return x[:4] + (add(x[4]), add(x[5]))
    def attempt(s, names, v, tys, nx, rest, env, ind, tail):
        pad = '  ' * ind; c = s.errnil(nx[3]); s.mon = True; a = s.var(names[0])
        if not (v.code.startswith('(← ') and s.closed(v.code)) or len(names) != 1: raise No('attempt')
        env = dict(env); old = env.get(names[0])
        raw = E(a, tys[0]); env[names[0]] = raw
        if old is not None: raw = s.inject(raw, old.ty); env[names[0]] = E(raw.code, old.ty)
        L = [f"{pad}let {a}? ← {'attemptSaid' if WORDS else 'attempt'} ({v.code[3:-1]})"]
        if c is not True:
            m = c[2]
            if c[0] != 'bin' or c[1] != '==' or c[3] != ('id', 'nil') or m[0] != 'call': raise No('attempt')
            x = s.expr(m, env); L.append(f'{pad}let {a}? := {a}?.filter (fun {a} => {"saysNothing" if WORDS else "returnsNil"} ({x.code[3:-1]}))')
        if s.terminates(nx[4]):
            # `err` is nil in the branch, unless the branch assigns it
            if any(('id', 'err') in y[2] for y in nx[4] if y[0] in ('assign', 'define')): raise No('attempt')
            nx = nx[:4] + ([(y[0], y[1], y[2][:-1] + [('id', 'nil')]) if y[0] == 'return' and y[2][-1] == ('id', 'err') else y for y in nx[4]],) + nx[5:]
            if WORDS and c is True:
                none = {**env, 'err': E('err', 'chars')}; none = s.stmts(rest, none if old is None else {**none, names[0]: old}, ind + 1, tail)
                if any(l.strip() == 'say err' for l in none):
                    L = [f"{pad}let {a}? ← attemptWords ({v.code[3:-1]})"]
                    return L + [f'{pad}match {a}? with', f'{pad}| .ok {a} =>'] + s.stmts(nx[4], env, ind + 1, None) + [f'{pad}| .error err =>'] + none
            return L + [f'{pad}match {a}? with', f'{pad}| some {a} =>'] + s.stmts(nx[4], env, ind + 1, None) + [f'{pad}| none =>'] + s.stmts(rest, env if old is None else {**env, names[0]: old}, ind + 1, tail)
        st = nx[4]
        if len(st) == 1 and st[0][0] == 'assign' and st[0][2][0][0] == 'id':
            w = st[0][2][0][1]; y = s.expr(st[0][3][0], env)
            L.append(f'{pad}let {s.var(w)} := match {a}? with | some {a} => {y.code} | none => {s.var(w)}')
            return L + s.stmts(rest, env if old is None else {**env, names[0]: old}, ind, tail)
        raise No('attempt')
    def assigned_ok(s, st):
        try: return s.assigned(st)
        except No: return ['?']
    def store(s, L, pad, l, e, env):
        b = s.expr(l[1], env); i = s.expr(l[2], env); u = W.under(b.ty)
        if u[0] != 'slice': raise No('store')
        fn, ic = s.index(i); v = s.conv(s.expr(e, env, u[1]), u[1]); s.mon = True
        L.append(pad + f'let {b.code} ← setIdx{fn} {b.code} {ic} {s.atom(v.code)}'); return None
    def forstmt(s, x, rest, env, ind, tail):
        _, ln, init, cond, post, body = x; pad = '  ' * ind
        if not (init and init[0] == 'define' and len(init[2]) == 1 and cond[0] == 'bin' and cond[1] == '<' and cond[2] == init[2][0] and post == ('opassign', post[1], '+', init[2][0], ('num', '1'))): raise No('loop')
        i = init[2][0][1]; a = s.expr(init[3][0], env); n = s.expr(cond[3], env)
        if a.const is not None and n.const is not None:
            L = []; env = dict(env)
            if s.hasret(body):
                seq = []
                for j in range(int(a.const), int(n.const)): seq += [s.subst(b, i, j) for b in body]
                return s.stmts(seq + rest, env, ind, tail)
            for j in range(int(a.const), int(n.const)):
                e2 = dict(env); e2[i] = E(str(j), a.ty if a.ty != 'untyped' else 'int', Fraction(j))
                L += s.stmts(body, e2, ind, lambda en: 'END')[:-1]
            return L + s.stmts(rest, env, ind, tail)
        if a.const != 0 or s.hasret(body): raise No('loop')
        names = [v for v in s.stored(body) if v in env]
        if len(names) != 1: raise No('loop state')
        v = s.var(names[0]); e2 = dict(env); e2[i] = E(s.var(i), 'nat')
        b = s.stmts(body, e2, ind + 1, lambda en: f'pure {v}'); s.mon = True
        return [f'{pad}let {v} ← (List.range {s.atom(n.code)}).foldlM (fun ({v} : {W.lean(env[names[0]].ty)}) ({s.var(i)} : Nat) => do'] + b[:-1] + [b[-1] + f') {v}'] + s.stmts(rest, env, ind, tail)
    def rangestmt(s, x, rest, env, ind, tail):
        _, ln, names, e, body = x; pad = '  ' * ind
        if s.hasret(body): raise No('loop')
        l = s.expr(e, env); u = W.under(l.ty); st = [v for v in s.stored(body) if v in env]
        if u[0] != 'slice' or len(st) != 1: raise No('loop')
        v = s.var(st[0]); e2 = dict(env); i, c = [n[1] for n in names]; e2[c] = E(s.var(c), u[1])
        if i != '_': e2[i] = E(s.var(i), 'nat')
        b = s.stmts(body, e2, ind + 1, lambda en: f'pure {v}'); s.mon = True
        src, pat = (f'{s.atom(l.code)}', s.var(c)) if i == '_' else (f'{s.atom(l.code)}.zipIdx', f'({s.var(c)}, {s.var(i)})')
        return [f'{pad}let {v} ← {src}.foldlM (fun ({v} : {W.lean(env[st[0]].ty)}) {pat} => do'] + b[:-1] + [b[-1] + f') {v}'] + s.stmts(rest, env, ind, tail)
    def stored(s, st):
        out = []
        for y in st:
            if y[0] == 'assign': out += [l[1] if l[0] == 'id' else l[1][1] for l in y[2]]
            elif y[0] == 'opassign': out.append(y[3][1] if y[3][0] == 'id' else y[3][1][1])
            elif y[0] == 'if': out += s.stored(y[4]) + s.stored(y[5] or [])
            elif y[0] == 'for': out += s.stored(y[5])
        return list(dict.fromkeys(out))
    def subst(s, t, i, j):
        if t == ('id', i): return ('num', str(j))
        if isinstance(t, tuple): return tuple(s.subst(y, i, j) for y in t)
        if isinstance(t, list): return [s.subst(y, i, j) for y in t]
        return t
    def switch(s, x):
        tag = x[2][2] if x[2] else None; cases = [c for c in x[3] if c[0] is not None]; de = [c for c in x[3] if c[0] is None]
        if tag is not None and tag[0] not in ('id', 'sel'): raise No('switch on an expression')
        out = de[0][1] if de else None
        cut = lambda b: b[:-1] if b and b[-1][0] == 'break' else b
        out = cut(out) if out else out
        for vs, body in [(v, cut(b)) for v, b in reversed(cases)]:
            c = None
            for v in vs:
                one = ('bin', '==', tag, v) if tag is not None else v
                c = one if c is None else ('bin', '||', c, one)
            out = [('if', x[1], None, c, body, out)]
        return out[0]
    def ifstmt(s, x, rest, env, ind, tail):
        pad = '  ' * ind; _, ln, _, c, th, el = x
        cc, cm = s.cond(c, env)
        if el is None and s.fails(th):
            s.mon = True
            return [f'{pad}if {cc} then {s.failure(th[0][2][-1], env)}'] + s.stmts(rest, env, ind, tail)
        if s.terminates(th):
            return [f'{pad}if {cc} then'] + s.stmts(th, env, ind + 1, None) + [f'{pad}else'] + s.stmts((el or []) + rest, env, ind + 1, tail)
        if el is not None and s.terminates(el):
            return [f'{pad}if {cc} then'] + s.stmts(th + rest, env, ind + 1, tail) + [f'{pad}else'] + s.stmts(el, env, ind + 1, None)
        try:
            names = [n for n in s.assigned(th) + s.assigned(el or []) if n in env]; names = list(dict.fromkeys(names))
            if s.hasret(th) or s.hasret(el or []): raise No('mixed')
        except No:
            names = None
        if names is None:
            return [f'{pad}if {cc} then'] + s.stmts(th + rest, env, ind + 1, tail) + [f'{pad}else'] + s.stmts((el or []) + rest, env, ind + 1, tail)
        tup = lambda: s.var(names[0]) if len(names) == 1 else '(' + ', '.join(map(s.var, names)) + ')'
        old = s.mon; s.mon = False
        sub = lambda b: s.stmts(b, env, ind + 2, lambda en: f'RETURN {tup()}')
        a, b = sub(th), sub(el or [])
        m = s.mon or any('←' in l for l in a + b); s.mon = old or m
        fix = (lambda l: l.replace('RETURN ', 'pure ')) if m else (lambda l: l.replace('RETURN ', ''))
        arrow = '← ' if m else ':= '
        lines = [f'{pad}let {tup()} {arrow}if {cc} then' + (' do' if m else '')] + [fix(l) for l in a] + [f'{pad}  else' + (' do' if m else '')] + [fix(l) for l in b]
        if not m and len(a) == 1 and len(b) == 1:
            lines = [f'{pad}let {tup()} := if {cc} then {fix(a[0]).strip()} else {fix(b[0]).strip()}']
        return lines + s.stmts(rest, env, ind, tail)
    def hasret(s, st):
        for x in st:
            if x[0] == 'return': return True
            if x[0] == 'if' and (s.hasret(x[4]) or s.hasret(x[5] or [])): return True
            if x[0] == 'switch' and any(s.hasret(b) for _, b in x[3]): return True
        return False
    # ---- the function
    def run(s):
        g = s.g; rt = [W.rtype(s.f, t) for _, t in g.results]
        s.err = bool(rt) and rt[-1] == 'error'; s.rets = rt[:-1] if s.err else rt
        if WORDS and (TEXTS or s.key.endswith('ToString')) and s.rets == ['string']: s.rets = ['chars']
        params = []; env = {}; nrecv = 0
        recv = [g.recv] if g.recv else []
        for n, t in recv + g.params:
            ty = W.rtype(s.f, t); n = n or '_'; bt = ty[1] if ty[0] == 'ptr' else ty
            if recv and (n, t) == recv[0] and bt[0] == 'named' and (bt[1], bt[2]) in CTORS and CTORS[bt[1], bt[2]][2]:
                u = W.under(bt); fts = {fn: W.rtype(u[2], ft) for fn, ft, _ in u[1][1]}; code = {}
                for o in CTORS[bt[1], bt[2]][2]: v = o[0].lower() + o[1:]; code[o] = E(v, fts[o]); params.append((v, fts[o]))
                env[n] = E(code, ty); nrecv = len(params); continue
            if recv and (n, t) == recv[0]: nrecv = 1
            env[n] = E(s.var(n), ty); params.append((s.var(n), ty))
        if s.err: s.mon = True
        lines = s.stmts(g.body, env, 1, None)
        ret = ' × '.join(s.lean_par(t) for t in s.rets) or 'Unit'
        mon = s.mon; monad = 'Saying' if WORDS and s.err else 'Go'
        sig = ''.join(f' ({n} : {W.lean(t)})' for n, t in params)
        head = f'def {s.lean_name()}{sig} : ' + (f'{monad} ({ret})' if mon and ' ' in ret else f'{monad} {ret}' if mon else ret) + ' :=' + (' do' if mon else '')
        body = [l.replace('RETURN ', 'return ' if mon else '') for l in lines]
        path = s.f['path'][len(ROOT):]
        doc = f'/-- {path}:{g.a}-{g.b} -/'
        return dict(name=s.lean_name(), mon=mon, ret=self_ret(s.rets), params=[(n, t) for n, t in params[nrecv:]], code='\n'.join([doc, head] + body), deps=s.deps)
    def lean_par(s, t): return W.lean(t)

def self_ret(r): return r[0] if len(r) == 1 else ('tuple', r)

def gen_name(d, key):
    return ('Said.' if WORDS and speaks(d, key) else 'Gen.') + d[len('pkg/'):].replace('/', '.') + '.' + key

def speaks(d, key):
    """the function returns an error or a text"""
    if key not in W.pk[d]['funcs']: return key.endswith('.CheckCoherency')
    f, g = W.pk[d]['funcs'][key]
    return key.endswith('ToString') or bool(g.results) and g.results[-1][1] == ('name', None, 'error')

def lean_field(struct, n):
    fs = FIELDS.get(struct)
    if fs is None: raise No(f'no fields for {struct}')
    ov = RENAMES.get((struct, n))
    if ov: return ov
    for x in fs:
        if x.lower() == n.lower(): return x
    raise No(f'{struct} has no field {n}')

def load_fields():
    out = {}
    for p in glob.glob(os.path.join(os.path.dirname(os.path.abspath(__file__)), '../../lean/Verif/Model/*.lean')):
        cur = None
        for l in open(p):
            m = re.match(r'structure (\S+)', l)
            if m: cur = out.setdefault(m.group(1), [])
            elif cur is not None:
                m = re.match(r'  (\w+(?: \w+)*) :', l)
                if m: cur += m.group(1).split()
                elif l.strip() and not l.startswith('  '): cur = None
    return out
FIELDS = load_fields()

def dispatch(t, m):
    k = (t[1], t[2] + '.' + m)
    if k in W.done:
        if isinstance(W.done[k], No): raise W.done[k]
        return W.done[k]
    if (t[1], t[2]) not in INTERFACES or not INTERFACES[t[1], t[2]][1]: raise No(f'interface {t[2]}')
    ty, ctors = INTERFACES[t[1], t[2]]; arms = []; infos = []
    for (d, n), c in ctors.items():
        if W.kind(('named', d, n)) == 'interface': i = dispatch(('named', d, n), m)
        else: i = translate(d, n + '.' + m)
        infos.append(i); arms.append(f'  | {c} x => {i["name"]} x')
    for (d, n), (cty, c, order) in CTORS.items():
        if cty == ty: i = translate(d, n + '.' + m); infos.append(i); arms.append(f"  | {c}{''.join(' x%d' % j for j in range(len(order)))} => {i['name']}{''.join(' x%d' % j for j in range(len(order)))}")
    mon = infos[0]['mon']
    if any(i['mon'] != mon or i['params'] for i in infos): raise No('dispatch')
    r = infos[0]['ret']; lr = 'Unit' if r == ('tuple', []) else W.lean(r); lr = f'{"Saying" if WORDS and m in ("CheckCoherency", "CheckConsistency") else "Go"} {lr}' if mon else lr
    ds = sorted({f"{W.pk[d]['funcs'][n + '.' + m][0]['path'][len(ROOT):]}" for (d, n) in ctors if n + '.' + m in W.pk[d]['funcs']})
    code = '\n'.join([f'/-- The method {m} called through the interface {t[1]}.{t[2]}; its implementations are in {", ".join(ds)}. -/', f"def {gen_name(*k)} : {ty} → {lr}"] + arms)
    W.done[k] = dict(name=gen_name(*k), mon=mon, ret=r, params=[], code=code, deps=[], dispatch=True); ORDER.append(k); return W.done[k]

ORDER = []
STACK = []
def translate(d, key):
    k = (d, key)
    if k in W.done:
        if isinstance(W.done[k], No): raise No(f'{key}: {W.done[k]}')
        return W.done[k]
    if k in STACK: raise No('recursion')
    if k in SKIP: W.done[k] = No('excluded: ' + SKIP[k]); raise W.done[k]
    STACK.append(k)
    try:
        f, g = W.pk[d]['funcs'][key]
        if any(x[0] is None and False for x in g.params): raise No('params')
        info = Fn(f, g, key).run()
        W.done[k] = info; ORDER.append(k); return info
    except No as e:
        W.done[k] = e; raise
    except (KeyError, TypeError, IndexError, AssertionError, AttributeError) as e:
        W.done[k] = No(f'{type(e).__name__} {e}'); raise W.done[k]
    finally: STACK.pop()

if __name__ == '__main__':
    bad = []
    for d in W.pk:
        for key in W.pk[d]['funcs']:
            if re.search(r'(ToString|String|GetName|GetRegister|GetCategorySetName|GetId|GetDescription)$', key): continue
            try: translate(d, key)
            except No as e: bad.append((d, key, str(e)))
    print(len(ORDER), 'translated', len(bad), 'not')
    for b in bad: print(*b)
    open('/tmp/gen.lean', 'w').write('\n\n'.join(W.done[k]['code'] for k in ORDER))
