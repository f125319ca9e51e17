"""Writes lean/Verif/Model/Translation.lean, the Lean text of the Go functions of /repo/pkg, from the text of the code."""
import re
import emit
from emit import *

HEAD = open(os.path.join(os.path.dirname(os.path.abspath(__file__)), 'header.txt')).read()
OUT = os.path.join(os.path.dirname(os.path.abspath(__file__)), '../../lean/Verif/Model/Translation.lean')

def wrap(code):
    out = []
    for l in code.split('\n'):
        if len(l) <= 130 or '{ ' not in l: out.append(l); continue
        i = l.index('{ '); pad = ' ' * (i + 2); parts = re.split(r', (?=\w+ := )', l[i + 2:])
        out.append(l[:i + 2] + parts[0] + (',' if len(parts) > 1 else ''))
        for n, p in enumerate(parts[1:]): out.append(pad + p + (',' if n < len(parts) - 2 else ''))
    return '\n'.join(out)

def all_functions():
    bad = []
    for d in W.pk:
        for key in W.pk[d]['funcs']:
            if re.search(r'(ToString|String|GetName|GetRegister|GetCategorySetName|GetId|GetDescription)$', key): continue
            try: translate(d, key)
            except No as e: bad.append((d, key, str(e)))
    return bad

if __name__ == '__main__':
    bad = all_functions()
    open(OUT, 'w').write(HEAD + '\n\n'.join(wrap(W.done[k]['code']) for k in ORDER) + '\n\nend Modes\n')
    print(len(ORDER), 'translated'); [print('not translated:', *b) for b in bad]
