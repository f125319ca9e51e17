"""Writes lean/Verif/Model/TranslationTexts.lean: the Go functions of /repo/pkg that return a text (ToString, GetName, ...), from the text of the code."""
import re, os, sys
import emit
from emit import *
from generate import wrap

HERE = os.path.dirname(os.path.abspath(__file__))
OUT = os.path.join(HERE, '../../lean/Verif/Model/TranslationTexts.lean')
TEXTUAL = re.compile(r'(ToString|GetName|GetRegister|GetCategorySetName|GetId|GetDescription|getSILLabel\w*|silTo\w*)$')

emit.WORDS = emit.TEXTS = True
STRUCTS[(B + 'register', 'Register')] = 'Register'

def textual(d, key):
    if key in W.pk[d]['funcs']:
        f, g = W.pk[d]['funcs'][key]
        return len(g.results) == 1 and (g.results[0][1] == ('name', None, 'string') or g.results[0][1][-1] == 'Register')
    return bool(TEXTUAL.search(key))

def gen_name(d, key): return ('Shown.' if textual(d, key) else 'Gen.') + d[len('pkg/'):].replace('/', '.') + '.' + key
emit.gen_name = gen_name
emit.speaks = lambda d, key: False

class T(emit.Fn):
    def __init__(s, *a): super().__init__(*a); s.F = False
    def select(s, x, n):
        t = x.ty[1] if x.ty[0] == 'ptr' else x.ty
        if t[0] == 'named' and not isinstance(x.code, dict):
            if W.lean(t) == 'TargetStateAndStatus1' and n == 'SelectedHeading':    # with the sign of a zero
                r = super().select(x, n); return E((f'{s.atom(x.code)}.selectedHeadingMinus', r.code), 'signed')
            if (W.lean(t), n) in FLATTEN:    # a structure kept as fields of the one around it
                return E('(' + ', '.join(f'{s.atom(x.code)}.{l}' for l in FLATTEN[W.lean(t), n]) + ')', s.go_type(t, n))
            if W.lean(t).startswith('('):
                return E(f'{s.atom(x.code)}.{[fn for fn, _, _ in W.under(t)[1][1]].index(n) + 1}', s.go_type(t, n))
        r = super().select(x, n)
        if t[0] == 'named' and t[2] == 'Register': return E(r.code, 'chars', None, r.mon)
        return r
    def go_type(s, t, n):
        u = W.under(t)
        for fn, ft, emb in u[1][1]:
            if fn == n: return W.rtype(u[2], ft)
        raise No(n)
    def globalvar(s, d, n):
        f, t, e = W.pk[d]['vars'][n]
        if e is not None and e[0] == 'lit' and e[1] == ('name', None, 'Register'):
            fs = {k[1]: s.text(v[1]) for k, v in e[2]}
            return E(f"(⟨{fs['id']}, {fs['description']}⟩ : Register)", ('named', d, 'Register'))
        if e is not None and e[0] == 'str' and not e[1].count('\\'): return E(s.text(e[1]), 'chars')
        return super().globalvar(d, n)
    def literal(s, e):
        """the value of a constant string expression, or None"""
        if e[0] == 'str': return e[1][1:-1] if e[1][0] == '"' else None
        if e[0] == 'par': return s.literal(e[1])
        if e[0] == 'bin' and e[1] == '+':
            a, b = s.literal(e[2]), s.literal(e[3])
            return None if a is None or b is None else a + b
        return None
    def binary(s, e, env, want):
        if e[1] == '+':
            l = s.literal(e)
            if l is not None: return E(f't! "{l}"', 'chars')
            x = s.expr(e[2], env); y = s.expr(e[3], env)
            if x.ty == 'chars' and y.ty == 'chars': return E(f'{x.code} ++ {y.code}', 'chars')
        return super().binary(e, env, want)
    def format(s, args, env):
        lit = s.literal(args[0]); xs = list(args[1:]); parts = []
        if lit is None: raise No('format')
        toks = []
        for w in re.split(r'(%v|%d|%02X|%%)', lit):
            if w == '%%': w = '%'
            elif '%' in w and w not in ('%v', '%d', '%02X'): raise No('format ' + w)
            if w and toks and w not in ('%v', '%d', '%02X') and toks[-1] not in ('%v', '%d', '%02X'): toks[-1] += w
            elif w: toks.append(w)
        for w in toks:
            if w in ('%v', '%d', '%02X'):
                x = s.expr(xs.pop(0), env)
                if w == '%02X':
                    if W.kind(x.ty) != 'u8': raise No('%02X')
                    parts.append(f'hex02 {s.atom(x.code)}')
                else: parts.append(s.shown(x))
            else: parts += [f't! "{v}"' for v in re.split(r'(\\n)', w) if v]
        if xs: raise No('format')
        return (' ++ ' if sum(map(len, parts)) < 110 else ' ++\n    ').join(parts) or '[]'
    def shown(s, x):
        if x.ty == 'signed': s.F = True; return f'F.signed {x.code[0]} {x.code[1]}'
        k = 'chars' if x.ty == 'chars' else W.kind(x.ty)
        if k == 'enum':
            return 'dec (match ' + x.code + ' with' + ''.join(f' | {c} => {v}' for v, c in ENUMS[x.ty[1], x.ty[2]][1].items()) + ')'
        if k == 'bool': return f'boolText {s.atom(x.code)}'
        if k in ('int', 'i16'): return f'decInt {s.atom(x.code)}'
        if k == 'f32': s.F = True; return f'F.float32 {s.atom(x.code)}'
        if k == 'f64': s.F = True; return f'F.float64 {s.atom(x.code)}'
        if k == 'string': return f'asciiText {s.atom(x.code)}'
        if k == 'slice' and W.under(x.ty)[1] == 'u8': return f't! "[" ++ decList {s.atom(x.code)} ++ t! "]"'
        return super().shown(x)
    def callx(s, e, env, want):
        fn, args = e[1], e[2]
        if fn == ('sel', ('id', 'fmt'), 'Sprintf'): return E(s.format(args, env), 'chars')
        if fn == ('sel', ('id', 'strconv'), 'Itoa'): return E(f'decInt {s.atom(s.expr(args[0], env).code)}', 'chars')
        if fn[0] == 'sel' and fn[2] == 'PrefixMultiLine':
            x = s.expr(args[0], env); y = s.expr(args[1], env); return E(f'prefixMultiLine {s.atom(x.code)} ({y.code})', 'chars')
        if fn[0] == 'sel' and fn[2] == 'ToString':
            x = s.expr(fn[1], env)
            if isinstance(x.ty, tuple) and x.ty[-1] == 'DTESubAddressStatuses': return E(f'dteText {s.atom(x.code)}', 'chars')
        if fn[0] == 'sel' and fn[2] in HAND:
            x = s.expr(fn[1], env); s.F |= ' F' in HAND[fn[2]]; return E(f'{HAND[fn[2]]} {s.atom(x.code)}', 'chars')
        x = super().callx(e, env, want)
        # does the function called print floating point numbers?
        m = re.match(r'(\(← )?(Shown\.[\w.]+)', x.code)
        if m and NEEDS.get(m.group(2)):
            s.F = True; x = E(x.code.replace(m.group(2), m.group(2) + ' F', 1), x.ty, x.const, x.mon, x.call)
        return x
    def run(s):
        i = super().run()
        if s.F:
            NEEDS[i['name']] = True
            i['code'] = i['code'].replace('def ' + i['name'], 'def ' + i['name'] + ' (F : FloatTexts)', 1)
        return i
    def ifstmt(s, x, rest, env, ind, tail):
        _, ln, _, c, th, el = x
        if c[0] == 'bin' and c[1] == '!=' and c[3] == ('id', 'nil') and c[2][0] == 'sel' and el:    # a pointer: an optional value
            p = s.expr(c[2], env); names = list(dict.fromkeys(s.assigned(th) + s.assigned(el))); assert len(names) == 1
            pad = '  ' * ind; v = c[2][2][0].lower() + c[2][2][1:]
            def swap(t): return ('id', v) if t == c[2] else type(t)(map(swap, t)) if isinstance(t, (tuple, list)) else t
            end = lambda en: names[0]
            a = s.stmts(swap(th), dict(env, **{v: E(v, p.ty)}), ind + 2, end); b = s.stmts(el, env, ind + 2, end)
            return [f'{pad}let {names[0]} := match {p.code} with', f'{pad}  | some {v} =>'] + a + [f'{pad}  | none =>'] + b + s.stmts(rest, env, ind, tail)
        return super().ifstmt(x, rest, env, ind, tail)
    def conv(s, e, ty):
        if e.ty == 'chars': return e
        return super().conv(e, ty)
NEEDS = {}
# texts computed by functions that the translation does not read (math.Sqrt, math.Atan2; a loop that fills a slice of strings): those of the model
HAND = {'toSpeedString': 'GroundSpeedVelocity.speedText', 'toTrackString': 'GroundSpeedVelocity.trackText F'}
emit.Fn = T

old_dispatch = emit.dispatch
def dispatch(t, m):
    k = (t[1], t[2] + '.' + m); new = k not in W.done; i = old_dispatch(t, m)
    if new:
        L = i['code'].split('\n'); out = []; need = any(NEEDS.get(w) for l in L[2:] for w in re.findall(r'Shown\.[\w.]+', l))
        for l in L:
            if l.startswith('  | '):
                w = re.search(r'=> (Shown\.[\w.]+)', l).group(1)
                if NEEDS.get(w): l = l.replace(w, w + ' F')
                if l.startswith('  | .none =>'): l += ' .none'
            elif need and l.startswith('def '): l = l.replace(' : ', ' (F : FloatTexts) : ', 1)
            out.append(l)
        i['code'] = '\n'.join(out)
        if need: NEEDS[i['name']] = True
    return i
emit.dispatch = dispatch

def last(t, m):
    """the method called through an interface of messages; with a result in `Go` when one of them has it"""
    ty, ctors = INTERFACES[t[1], t[2]]; arms = []
    for (d, n), c in ctors.items(): arms.append((c + ' x', dispatch(('named', d, n), m) if W.kind(('named', d, n)) == 'interface' else translate(d, n + '.' + m), ' x'))
    for (d, n), (cty, c, order) in CTORS.items():
        if cty == ty: v = ''.join(f' x{j}' for j in range(len(order))); arms.append((c + v, translate(d, n + '.' + m), v))
    mon = any(i['mon'] for _, i, _ in arms); need = any(NEEDS.get(i['name']) for _, i, _ in arms)
    L = [f'/-- The method {m} called through the interface {t[1]}.{t[2]}. -/', f"def {gen_name(t[1], t[2] + '.' + m)}{' (F : FloatTexts)' if need else ''} : {ty} → {'Go (List Char)' if mon else 'List Char'}"]
    for p, i, v in arms:
        c = i['name'] + (' F' if NEEDS.get(i['name']) else '') + v
        L.append(f"  | {p} => {f'pure ({c})' if mon and not i['mon'] else c}")
    k = (t[1], t[2] + '.' + m); W.done[k] = dict(code='\n'.join(L)); ORDER.append(k)

if __name__ == '__main__':
    LEAN['string'] = 'List UInt8'
    bad = []
    for d in W.pk:
        for key in W.pk[d]['funcs']:
            if not textual(d, key) or key.split('.')[-1] in HAND or key in ('PrefixMultiLine', 'DTESubAddressStatuses.ToString'): continue
            try: translate(d, key)
            except No as e: bad.append((d, key, str(e)))
    ks = [k for k in ORDER if textual(*k)]
    print(len(ks), 'translated'); [print('not translated:', *b) for b in bad]
    for t, m in ((('named', 'pkg/bds', 'Message'), 'ToString'), (('named', M + 'messages', 'ModeSMessage'), 'ToString'), (('named', M + 'messages', 'ModeSMessage'), 'GetName'), (('named', 'pkg/adsb', 'Message'), 'ToString')): last(t, m)
    ks = [k for k in ORDER if textual(*k)]
    code = '\n\n'.join(wrap(W.done[k]['code']) for k in ks)
    head = os.path.join(HERE, 'header_texts.txt')
    open(sys.argv[1] if len(sys.argv) > 1 else OUT, 'w').write((open(head).read() if os.path.exists(head) else '') + code + '\n\nend\n\nend Modes\n')
