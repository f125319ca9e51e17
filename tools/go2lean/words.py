"""Writes lean/Verif/Model/TranslationWords.lean: the Go functions that return an error, with the words of the errors."""
import re, os
import emit
from emit import *
from generate import wrap

HERE = os.path.dirname(os.path.abspath(__file__))
OUT = os.path.join(HERE, '../../lean/Verif/Model/TranslationWords.lean')

if __name__ == '__main__':
    emit.WORDS = True; bad = []
    for d in W.pk:
        for key in W.pk[d]['funcs']:
            if not speaks(d, key) or key.endswith('ToString'): continue
            try: translate(d, key)
            except No as e: bad.append((d, key, str(e)))
    ks = [k for k in ORDER if speaks(*k)]
    open(OUT, 'w').write(open(os.path.join(HERE, 'header_words.txt')).read() + '\n\n'.join(wrap(W.done[k]['code']) for k in ks) + '\n\nend Modes\n')
    print(len(ks), 'translated'); [print('not translated:', *b) for b in bad]
