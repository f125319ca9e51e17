"""Writes lean/Verif/Model/TranslationProgram.lean: the procedures of /repo/cmd/main.go, from the text of the code."""
import os, re
import goparse, emit
from emit import W

HERE = os.path.dirname(os.path.abspath(__file__))
OUT = os.path.join(HERE, '../../lean/Verif/Model/TranslationProgram.lean')
SRC = '/repo/cmd/main.go'
FUNCS = {f.name: f for f in goparse.parse_file(SRC)['funcs']}
IMPORTS = {}
for m in re.finditer(r'^\t(?:(\w+) )?"github.com/twuillemin/modes/(pkg/[\w/]+)"', open(SRC).read(), re.M):
    IMPORTS[m[1] or m[2].split('/')[-1]] = m[2]
# the readers: package, name -> Lean function, type of the value
READERS = {('pkg/modes/reader', 'ReadMessage'): ('Said.modes.reader.ReadMessage', 'modes'),
           ('pkg/modes/reader', 'CheckCRC'): ('Said.modes.reader.CheckCRC', 'address'),
           ('pkg/adsb/reader', 'ReadADSBMessage'): ('Said.adsb.reader.ReadADSBMessage', 'adsb'),
           ('pkg/commb', 'ReadCommBMessage'): ('Said.commb.ReadCommBMessage', 'commbs'),
           ('pkg/acas/ra', 'ReadResolutionAdvisory'): ('Said.acas.ra.ReadResolutionAdvisory', 'ra'),
           ('hex', 'DecodeString'): ('hexDecodeString', 'bytes')}
# the texts: type -> Lean function, can it panic
TEXTS = {'modes': ('Shown.modes.messages.ModeSMessage.ToString', True), 'address': ('Shown.modes.common.ICAOAddress.ToString', False),
         'adsb': ('Shown.adsb.Message.ToString F', False), 'commb': ('Shown.bds.Message.ToString F', False),
         'ra': ('Shown.acas.ra.ResolutionAdvisory.ToString F', False)}
LEAN = {'string': 'List UInt8', 'bytes': 'List UInt8', 'level': 'UInt8'}
FIELDS = {'MessageACAS': 'bytes', 'MessageCommB': 'bytes', 'MessageExtendedSquitter': 'bytes', 'ControlField': 'byte'}

def lower(n): return n[0].lower() + n[1:]
def gotype(t):
    if t[0] == 'ptr': return t[1][2]
    if t == ('name', None, 'string'): return 'string'
    if t == ('name', 'adsb', 'ADSBVersion'): return 'level'
    assert t == ('slice', ('name', None, 'byte')) or t[0] in ('slice', 'array'), t
    return 'bytes'

def const(pkg, n):
    d = IMPORTS[pkg]
    f, g = next(iter(W.pk[d]['funcs'].values())) if W.pk[d]['funcs'] else next(iter(W.pk['pkg/adsb/reader']['funcs'].values()))
    return str(int(emit.Fn(f, g, '').lookup_const(d, n).const))

class P:
    def __init__(s): s.n = 0
    def fresh(s): s.n += 1; return f'v{s.n}'
    def atom(s, c): return c if re.fullmatch(r"[\w.']+", c) or c == '[]' else f'({c})'
    def expr(s, e, env, pre):
        """Lean text and type; pre: the evaluations that can panic, before"""
        k = e[0]
        if k == 'par': return s.expr(e[1], env, pre)
        if k == 'un' and e[1] == '*': return s.expr(e[2], env, pre)
        if k == 'num': return str(int(e[1], 0)), 'num'
        if k == 'id':
            if e[1] == 'nil': return '[]', 'nil'
            if e[1] in ('true', 'false'): return e[1], 'bool'
            return env[e[1]][0], env[e[1]][1]
        if k == 'sel':
            if e[1][0] == 'id' and e[1][1] in IMPORTS and e[1][1] not in env: return const(e[1][1], e[2]), 'num'
            if e == ('sel', ('id', 'os'), 'Args'): return 'args', 'strings'
            x, t = s.expr(e[1], env, pre)
            assert t.startswith('MessageDF') and e[2] in FIELDS, e
            return f'{x}.{lower(e[2])}', FIELDS[e[2]]
        if k == 'index':
            x, t = s.expr(e[1], env, pre); i, _ = s.expr(e[2], env, pre); v = s.fresh()
            pre.append(f'withValue (idx {x} {i}) fun {v} =>')
            return v, {'bytes': 'byte', 'strings': 'string'}[t]
        if k == 'slice':
            x, t = s.expr(e[1], env, pre); i, _ = s.expr(e[2], env, pre); assert e[3] is None; v = s.fresh()
            pre.append(f'withValue (sliceFrom {x} {i}) fun {v} =>')
            return v, t
        if k == 'assert':
            x, t = s.expr(e[1], env, pre); assert t == 'modes'; n = e[2][1][2]; v = s.fresh()
            pre.append(f'withValue (match {x} with | .{n[len("Message"):].lower()} m => .ok m | _ => goPanic) fun {v} =>')
            return v, n
        if k == 'bin':
            op = {'&': '&&&', '>>': '>>>', '==': '=', '>': '>', '&&': '∧', '||': '∨'}[e[1]]
            a, ta = s.expr(e[2], env, pre); b, tb = s.expr(e[3], env, pre)
            return f'({a} {op} {b})', (ta if e[1] in ('&', '>>') else 'prop')
        if k == 'call':
            f = e[1]
            if f == ('id', 'len'): return f'{s.atom(s.expr(e[2][0], env, pre)[0])}.length', 'num'
            if f[0] == 'sel' and f[2] == 'GetDownLinkFormat':
                x, t = s.expr(f[1], env, pre); assert t == 'modes'
                return f'Gen.modes.messages.ModeSMessage.GetDownLinkFormat {x}', 'num'
            if f[0] == 'sel' and f[2] == 'ToString':
                x, t = s.expr(f[1], env, pre); g, panics = TEXTS[t]
                if not panics: return f'{g} {s.atom(x)}', 'text'
                v = s.fresh(); pre.append(f'withValue ({g} {x}) fun {v} =>'); return v, 'text'
            if f[0] == 'sel' and f[2] == 'ICAOAddress': return 'UNUSED', 'address'
        raise emit.No(str(e))
    def shown(s, verb, c, t):
        if t == 'text' and verb in '%v%s': return c
        if t == 'err' and verb == '%v': return c
        if t == 'string' and verb in '%v%s': return f'asciiText {c}'
        if t == 'byte' and verb == '%X': return f'hexOf {c}'
        raise emit.No(verb + t)
    def printf(s, args, env, pre):
        fmt = args[0][1][1:-1]; parts = []; args = list(args[1:])
        for x in re.split(r'(%\w)', fmt):
            if x.startswith('%'): parts.append(s.shown(x, *s.expr(args.pop(0), env, pre)))
            elif x: parts.append(f't! "{x}"')
        assert not args
        return 'print (' + ' ++ '.join(parts) + ')'
    def leaves(s, st): return bool(st) and (st[-1][0] == 'return')
    def ids(s, x): return {x[1]} if isinstance(x, tuple) and len(x) == 2 and x[0] == 'id' else set().union(*[s.ids(y) for y in x]) if isinstance(x, (tuple, list)) else set()
    def assigned(s, st):
        r = set()
        for x in st:
            if x[0] == 'assign': r |= {l[1] for l in x[2]}
            elif x[0] == 'if': r |= s.assigned(x[4]) | s.assigned(x[5] or [])
            elif x[0] == 'switch':
                for _, b in x[3]: r |= s.assigned(b)
        return r
    def block(s, st, env, ind):
        """Lean lines of a sequence of statements"""
        pad = '  ' * ind
        if not st: return [pad + 'nothing']
        x, rest = st[0], st[1:]; pre = []; k = x[0]
        def out(c): return [pad + p for p in pre] + c
        def then(c):
            if isinstance(c, str): c = [pad + c]
            if not rest: return out(c)
            if len(c) > 1: c = [pad + '(' + c[0].strip()] + c[1:-1] + [c[-1] + ')']
            c[-1] += ' ;;'
            return out(c + s.block(rest, env, ind))
        if k == 'return': assert not x[2]; return [pad + 'leave']
        if k == 'expr':
            f, args = x[2][1], x[2][2]
            if f == ('sel', ('id', 'fmt'), 'Printf'): return then(s.printf(args, env, pre))
            if f == ('sel', ('id', 'fmt'), 'Println'):
                (c, t), = [s.expr(a, env, pre) for a in args]; assert t == 'err'
                return then(f'print ({c} ++ t! "\\n")')
            if f == ('id', 'panic'): return then('panicking')
            if f == ('sel', ('id', 'flag'), 'Parse'): return s.block(rest, env, ind)
            if f[0] == 'id' and f[1] in FUNCS:
                a = [s.atom(s.expr(y, env, pre)[0]) for y in args]
                c = f'call (Ran.{f[1]} F ' + ' '.join(a) + ')'
                if pre and rest: p, pre[:] = list(pre), []; return then('(' + ' '.join(p) + ' ' + c + ')')
                return then(c)
        if k == 'define':
            names = [n[1] for n in x[2]]; e, = x[3]
            if e[0] == 'call' and e[1][0] == 'sel' and e[1][1] == ('id', 'flag'):    # a parameter
                return s.block(rest, {**env, names[0]: (names[0], {'String': 'string', 'Int': 'num'}[e[1][2]])}, ind)
            if len(names) == 2:
                f = e[1]; g, t = READERS[IMPORTS.get(f[1][1], f[1][1]), f[2]]
                args = [s.atom(s.expr(a, env, pre)[0]) for a in e[2]]
                chk = rest[0]; assert chk[0] == 'if' and chk[2] is None and chk[3] == ('bin', '!=', ('id', names[1]), ('id', 'nil')) and s.leaves(chk[4]) and not chk[5]
                bad = s.block(chk[4], {**env, names[1]: (names[1], 'err')}, ind + 1)
                return out([pad + f'handing ({g} {" ".join(args)})', pad + f'  (fun {names[1]} =>'] + bad[:-1] + [bad[-1] + f') fun {names[0]} =>']) + \
                    s.block(rest[1:], {**env, names[0]: (names[0], t)}, ind)
            c, t = s.expr(e, env, pre)
            if c.isdigit(): return s.block(rest, {**env, names[0]: (c, t)}, ind)
            return out([pad + f'let {names[0]} := {c}']) + s.block(rest, {**env, names[0]: (names[0], t)}, ind)
        if k == 'assign':
            (l,), (e,) = x[2], x[3]
            if l[1] not in s.ids(rest) and s.dead.get(l[1]): return s.block(rest, env, ind)
            c, t = s.expr(e, env, pre); return s.block(rest, {**env, l[1]: (c, env[l[1]][1])}, ind)
        if k in ('if', 'switch'):
            if k == 'if': assert x[2] is None; branches = [(x[3], x[4])]; last = x[5] or []
            else:
                branches = [(('bin', '==', x[2][2], v), b) for vs, b in x[3] if vs is not None for v in vs]
                last = [b for vs, b in x[3] if vs is None][0]
            mod = set().union(*[s.assigned(b) for _, b in branches], s.assigned(last)) & s.ids(rest)
            old = dict(s.dead); s.dead = {v: v not in s.ids(rest) for v in s.assigned(last) | set().union(*[s.assigned(b) for _, b in branches])}
            L = []
            for c, b in branches + [(None, last)]:
                if c is not None: L += [pad + ('if ' if not L else 'else if ') + s.expr(c, env, pre)[0].strip() + ' then']
                else: L += [pad + 'else']
                whole = mod or any(s.leaves(bb) for _, bb in branches)
                L += s.block(list(b) + (list(rest) if whole and not s.leaves(b) else []), env, ind + 1)
            s.dead = old
            if mod or any(s.leaves(bb) for _, bb in branches): return out(L)
            return then(L)
        if k == 'forrange':
            i, v = [n[1] for n in x[2]]; e = x[3]
            if e[0] == 'call' and e[1] == ('id', 'readFile'): c, t = f'(readFile {s.expr(e[2][0], env, pre)[0]})', 'string'
            else: c, t = s.expr(e, env, pre); assert t == 'commbs'; t = 'commb'
            body = s.block(x[4], {**env, i: (i, 'num'), v: (v, t)}, ind + 1)
            body = [pad + f'ranging (fun {i} {v} =>'] + body[:-1] + [body[-1] + f') 0 {c}']
            return then(body)
        raise emit.No(str(x))
    dead = {}

def define(n):
    f = FUNCS[n]
    env = {p: (p, gotype(t)) for p, t in f.params}
    pars = ' '.join(f'({p} : {LEAN.get(gotype(t), gotype(t))})' for p, t in f.params)
    if n == 'main': pars = '(readFile : List UInt8 → List (List UInt8)) (args : List (List UInt8)) (fileName : List UInt8) (adsbReaderLevelParam : Int)'
    L = P().block(f.body, env, 1)
    return f'/-- cmd/main.go:{f.a}-{f.b} -/\ndef Ran.{n} (F : FloatTexts) {pars} : Printed :=\n' + '\n'.join(L) + '\n'

if __name__ == '__main__':
    names = ['postProcessMessage16', 'processADSBMessage', 'postProcessMessage17', 'postProcessMessage18', 'processCommBMessage',
             'postProcessMessage20', 'postProcessMessage21', 'processSingleLine', 'main']
    open(OUT, 'w').write(open(os.path.join(HERE, 'header_program.txt')).read() + '\n'.join(define(n) for n in names) + '\nend\n\nend Modes\n')
