"""Writes lean/Verif/Props/TranslationFields.lean: the functions whose translation is the hand-written definition up to unfolding
(the pairs are in same.json)."""
import json, os
here = os.path.dirname(os.path.abspath(__file__))
same = json.load(open(os.path.join(here, 'same.json')))
out = ['''import Verif.Lemmas.TranslationAttr
import Verif.Model.Translation
/-!
# The translation and the model: functions that are the same up to unfolding

Written by `tools/go2lean/generate_props.py`. Each theorem says that a function of the hand-written model is the mechanical
translation (Model/Translation) of the Go function.
-/
namespace Modes
''']
for g, m in same.items():
    out.append(f"@[translated] theorem {'same_' + g[4:].replace('.', '_')} : @{g} = @{m} := rfl")
out.append('\nend Modes\n')
open(os.path.join(here, '../../lean/Verif/Props/TranslationFields.lean'), 'w').write('\n'.join(out))
