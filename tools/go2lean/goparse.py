"""A parser for the subset of Go used in /repo (text only: nothing is compiled or run).

Produces tuples:
 file: dict(path, package, imports{name:path}, types{name:type}, consts[(name,type,expr)], vars, funcs[Func])
"""
import re

TOK = re.compile(r'''
 (?P<ws>[ \t\r]+)|(?P<nl>\n)|(?P<lc>//[^\n]*)|(?P<bc>/\*.*?\*/)
 |(?P<num>0x[0-9A-Fa-f]+|\d+\.\d*(?:[eE][+-]?\d+)?|\d+(?:[eE][+-]?\d+)?)
 |(?P<id>[A-Za-z_]\w*)
 |(?P<str>"(?:[^"\\\n]|\\.)*"|`[^`]*`)|(?P<chr>'(?:[^'\\]|\\.)+')
 |(?P<op><<=|>>=|&\^=|\.\.\.|&&|\|\||<-|\+\+|--|==|!=|<=|>=|:=|\+=|-=|\*=|/=|%=|&=|\|=|\^=|<<|>>|&\^|[-+*/%&|^<>=!()\[\]{},;.:])
''', re.X | re.S)
KEY = set('break case chan const continue default defer else fallthrough for func go goto if import interface map package range return select struct switch type var'.split())

class Tok:
    __slots__ = ('k', 'v', 'line')
    def __init__(s, k, v, line): s.k, s.v, s.line = k, v, line
    def __repr__(s): return f'{s.v}@{s.line}'

def tokenize(src):
    out = []; pos = 0; line = 1
    def semi():
        if out and (out[-1].k in ('id', 'num', 'str', 'chr') or out[-1].v in ('break', 'continue', 'fallthrough', 'return', '++', '--', ')', ']', '}')):
            out.append(Tok('op', ';', line))
    while pos < len(src):
        m = TOK.match(src, pos)
        if not m: raise SyntaxError(f'line {line}: {src[pos:pos+20]!r}')
        k = m.lastgroup; v = m.group()
        if k == 'nl': semi(); line += 1
        elif k in ('ws', 'lc'): pass
        elif k == 'bc': line += v.count('\n')
        else:
            if k == 'id' and v in KEY: k = 'key'
            out.append(Tok(k, v, line)); line += v.count('\n')
        pos = m.end()
    semi()
    out.append(Tok('eof', '', line))
    return out

PREC = {'||': 1, '&&': 2, '==': 3, '!=': 3, '<': 3, '<=': 3, '>': 3, '>=': 3, '+': 4, '-': 4, '|': 4, '^': 4, '*': 5, '/': 5, '%': 5, '<<': 5, '>>': 5, '&': 5, '&^': 5}

class Func:
    def __init__(s, name, recv, params, results, body, a, b): s.name, s.recv, s.params, s.results, s.body, s.a, s.b = name, recv, params, results, body, a, b

class Parser:
    def __init__(s, src): s.t = tokenize(src); s.i = 0; s.nolit = 0
    @property
    def c(s): return s.t[s.i]
    def at(s, v): return s.c.v == v and s.c.k in ('op', 'key')
    def next(s): t = s.c; s.i += 1; return t
    def eat(s, v):
        if not s.at(v): raise SyntaxError(f'line {s.c.line}: expected {v}, got {s.c.v}')
        return s.next()
    def opt(s, v):
        if s.at(v): s.next(); return True
        return False
    def ident(s):
        if s.c.k != 'id': raise SyntaxError(f'line {s.c.line}: identifier expected, got {s.c.v}')
        return s.next().v
    def skipsemi(s):
        while s.opt(';'): pass
    # ---- file
    def file(s, path):
        f = dict(path=path, imports={}, types={}, consts=[], vars=[], funcs=[])
        s.skipsemi(); s.eat('package'); f['package'] = s.ident(); s.skipsemi()
        while s.at('import'):
            s.next()
            if s.opt('('):
                s.skipsemi()
                while not s.opt(')'): s.imp(f); s.skipsemi()
            else: s.imp(f)
            s.skipsemi()
        while s.c.k != 'eof':
            if s.at('type'): s.typedecl(f)
            elif s.at('const'): s.constdecl(f)
            elif s.at('var'): s.vardecl(f)
            elif s.at('func'): f['funcs'].append(s.func())
            else: raise SyntaxError(f'{path}:{s.c.line}: {s.c.v}')
            s.skipsemi()
        return f
    def imp(s, f):
        name = None
        if s.c.k == 'id': name = s.ident()
        p = s.next().v.strip('"')
        f['imports'][name or p.split('/')[-1]] = p
    def group(s, one):
        if s.opt('('):
            s.skipsemi()
            while not s.opt(')'): one(); s.skipsemi()
        else: one()
    def typedecl(s, f):
        s.next()
        def one():
            n = s.ident(); s.opt('='); f['types'][n] = s.type()
        s.group(one)
    def constdecl(s, f):
        s.next(); st = dict(i=0, last=None)
        def one():
            n = s.ident(); ty = None; e = None
            if not s.at('=') and not s.at(';') and not s.at(')'): ty = s.type()
            if s.opt('='): e = s.expr(); st['last'] = (ty, e)
            else: ty, e = st['last']
            f['consts'].append((n, ty, e, st['i'])); st['i'] += 1
        s.group(one)
    def vardecl(s, f):
        s.next()
        def one():
            ns = [s.ident()]; ty = None; es = []
            while s.opt(','): ns.append(s.ident())
            if not s.at('='): ty = s.type()
            if s.opt('='): es = s.exprlist()
            for k, n in enumerate(ns): f['vars'].append((n, ty, es[k] if k < len(es) else None))
        s.group(one)
    # ---- types
    def type(s):
        if s.opt('*'): return ('ptr', s.type())
        if s.opt('['):
            if s.opt(']'): return ('slice', s.type())
            n = s.expr(); s.eat(']'); return ('array', n, s.type())
        if s.at('map'):
            s.next(); s.eat('['); k = s.type(); s.eat(']'); return ('map', k, s.type())
        if s.at('struct'):
            s.next(); s.eat('{'); s.skipsemi(); fs = []
            while not s.opt('}'):
                ns = [s.ident()]
                while s.opt(','): ns.append(s.ident())
                if s.at(';') or s.at('}'): fs.append((ns[0], ('name', None, ns[0]), True))
                elif s.at('.'):
                    s.next(); m = s.ident(); fs.append((m, ('name', ns[0], m), True))
                else:
                    t = s.type()
                    for n in ns: fs.append((n, t, False))
                if s.c.k == 'str': s.next()
                s.skipsemi()
            return ('struct', fs)
        if s.at('interface'):
            s.next(); s.eat('{'); s.skipsemi(); ms = []
            while not s.opt('}'):
                n = s.ident()
                if s.at('('): ms.append((n, s.signature()))
                else:
                    if s.opt('.'): s.ident()
                    ms.append((n, None))
                s.skipsemi()
            return ('interface', ms)
        if s.at('func'): s.next(); return ('func', s.signature())
        n = s.ident()
        if s.opt('.'): return ('name', n, s.ident())
        return ('name', None, n)
    def params(s):
        s.eat('('); items = []
        while not s.opt(')'):
            variadic = s.opt('...')
            t = s.type(); n = None
            if not s.at(',') and not s.at(')'):
                n = t[2]; s.opt('...'); t = s.type()
            items.append((n, t)); s.opt(',')
        if any(n for n, _ in items):   # grouped names: a, b T
            out = []; pend = []
            for n, t in items:
                if n is None: pend.append(t[2])
                else:
                    out += [(p, t) for p in pend] + [(n, t)]; pend = []
            return out
        return items
    def signature(s):
        p = s.params(); r = []
        if s.at('('): r = s.params()
        elif not s.at('{') and not s.at(';') and not s.at('}') and not s.at(','): r = [(None, s.type())]
        return (p, r)
    def func(s):
        a = s.eat('func').line; recv = None
        if s.at('('): recv = s.params()[0]
        n = s.ident(); p, r = s.signature()
        body = s.block(); b = s.t[s.i - 1].line
        return Func(n, recv, p, r, body, a, b)
    # ---- statements
    def block(s):
        s.eat('{'); old = s.nolit; s.nolit = 0; L = s.stmts(); s.eat('}'); s.nolit = old; return L
    def stmts(s):
        L = []; s.skipsemi()
        while not (s.at('}') or s.at('case') or s.at('default')):
            L.append(s.stmt()); s.skipsemi()
        return L
    def exprlist(s):
        L = [s.expr()]
        while s.opt(','): L.append(s.expr())
        return L
    def simple(s):
        ln = s.c.line; L = s.exprlist()
        if s.c.v in (':=', '='):
            op = s.next().v
            if s.at('range'):
                s.next(); return ('range', ln, L, s.expr())
            return ('assign' if op == '=' else 'define', ln, L, s.exprlist())
        if s.c.v in ('+=', '-=', '*=', '/=', '%=', '&=', '|=', '^=', '<<=', '>>='):
            op = s.next().v[:-1]; return ('opassign', ln, op, L[0], s.expr())
        if s.c.v in ('++', '--'): op = s.next().v; return ('opassign', ln, op[0], L[0], ('num', '1'))
        return ('expr', ln, L[0])
    def stmt(s):
        ln = s.c.line
        if s.at('return'):
            s.next(); return ('return', ln, [] if s.at(';') or s.at('}') else s.exprlist())
        if s.at('if'):
            s.next(); s.nolit += 1; init = None; c = s.simple()
            if s.opt(';'): init = c; c = s.simple()
            s.nolit -= 1; th = s.block(); el = None
            if s.opt('else'): el = [s.stmt()] if s.at('if') else s.block()
            return ('if', ln, init, c[2], th, el)
        if s.at('for'):
            s.next(); s.nolit += 1; init = cond = post = None
            if not s.at('{'):
                if not s.at(';'): init = s.simple()
                if init and init[0] == 'range':
                    s.nolit -= 1; return ('forrange', ln, init[2], init[3], s.block())
                if s.opt(';'):
                    if not s.at(';'): cond = s.expr()
                    s.eat(';')
                    if not s.at('{'): post = s.simple()
                else: cond = init[2]; init = None
            s.nolit -= 1
            return ('for', ln, init, cond, post, s.block())
        if s.at('switch'):
            s.next(); s.nolit += 1; tag = None
            if not s.at('{'): tag = s.simple()
            s.nolit -= 1
            s.eat('{'); s.skipsemi(); cs = []
            while not s.opt('}'):
                if s.opt('default'): v = None
                else: s.eat('case'); v = s.exprlist()
                s.eat(':'); cs.append((v, s.stmts())); s.skipsemi()
            return ('switch', ln, tag, cs)
        if s.at('var'):
            f = dict(vars=[]); s.vardecl(f); return ('var', ln, f['vars'])
        if s.at('{'): return ('block', ln, s.block())
        if s.c.v in ('break', 'continue', 'fallthrough'): return (s.next().v, ln)
        if s.at('defer') or s.at('go'): k = s.next().v; return (k, ln, s.expr())
        return s.simple()
    # ---- expressions
    def expr(s, p=1):
        if s.at('[') or s.at('map'):    # composite literal or conversion with a type
            pass
        l = s.unary()
        while s.c.k == 'op' and s.c.v in PREC and PREC[s.c.v] >= p:
            op = s.next().v; r = s.expr(PREC[op] + 1); l = ('bin', op, l, r)
        return l
    def unary(s):
        if s.c.k == 'op' and s.c.v in ('-', '!', '^', '&', '*', '+'):
            op = s.next().v; return ('un', op, s.unary())
        return s.primary()
    def complit(s, ty):
        s.eat('{'); old = s.nolit; s.nolit = 0; s.skipsemi(); L = []
        while not s.opt('}'):
            v = s.complit(None) if s.at('{') else s.expr(); k = None
            if s.opt(':'): k = v; v = s.complit(None) if s.at('{') else s.expr()
            L.append((k, v)); s.opt(','); s.skipsemi()
        s.nolit = old
        return ('lit', ty, L)
    def primary(s):
        t = s.c
        if t.k == 'num': s.next(); e = ('num', t.v)
        elif t.k == 'str': s.next(); e = ('str', t.v)
        elif t.k == 'chr': s.next(); e = ('chr', t.v)
        elif s.at('('):
            s.next(); old = s.nolit; s.nolit = 0; e = ('par', s.expr()); s.nolit = old; s.eat(')')
        elif s.at('[') or s.at('map') or s.at('struct'):
            ty = s.type()
            if s.at('{'): e = s.complit(ty)
            else: e = ('type', ty)
        elif s.at('func'):
            s.next(); sg = s.signature(); e = ('funclit', sg, s.block())
        else: e = ('id', s.ident())
        while True:
            if s.at('.'):
                s.next()
                if s.opt('('):
                    if s.at('type'): s.next(); ty = 'type'
                    else: ty = s.type()
                    s.eat(')'); e = ('assert', e, ty)
                else: e = ('sel', e, s.ident())
            elif s.at('('):
                s.next(); old = s.nolit; s.nolit = 0; a = []
                while not s.opt(')'):
                    a.append(('type', s.type()) if s.at('[') and s.t[s.i + 1].v == ']' and False else s.expr()); s.opt('...'); s.opt(','); s.skipsemi()
                s.nolit = old; e = ('call', e, a)
            elif s.at('['):
                s.next(); old = s.nolit; s.nolit = 0; lo = hi = None
                if not s.at(':'): lo = s.expr()
                if s.opt(':'):
                    if not s.at(']'): hi = s.expr()
                    e = ('slice', e, lo, hi)
                else: e = ('index', e, lo)
                s.nolit = old; s.eat(']')
            elif s.at('{') and not s.nolit and e[0] in ('id', 'sel'):
                ty = ('name', None, e[1]) if e[0] == 'id' else ('name', e[1][1], e[2])
                e = s.complit(ty)
            else: return e

def parse_file(path): return Parser(open(path).read()).file(path)

if __name__ == '__main__':
    import glob
    n = 0
    for p in sorted(glob.glob('/repo/**/*.go', recursive=True)):
        if p.endswith('_test.go'): continue
        f = parse_file(p); n += len(f['funcs'])
    print(n, 'functions parsed')
