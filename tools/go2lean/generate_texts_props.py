"""Writes lean/Verif/Props/TranslationTextsFields.lean: the texts of the fields of the code (Model/TranslationTexts) are those of the
model (Model/Texts); the two are matched by the lines of /repo they cite."""
import re, os
HERE = os.path.dirname(os.path.abspath(__file__)); L = os.path.join(HERE, '../../lean/Verif/')
shown = {}
for m in re.finditer(r'/-- (\S+):(\d+)-(\d+) -/\ndef (\S+) \((\S+) : (\S+)\) : List Char :=', open(L + 'Model/TranslationTexts.lean').read()): shown[m.group(1), m.group(2)] = m.groups()[3:]
out = []; names = []
for m in re.finditer(r'/-- (.*?)-/\ndef (\S+) : UInt8 → Txt', open(L + 'Model/Texts.lean').read(), re.S):
    for p, a in re.findall(r'(pkg/\S+?\.go):(\d+)', m.group(1)):
        f, v, ty = shown[p, a]; t = 'Text.' + m.group(2); n = 'shown_' + m.group(2) + ('' if 'shown_' + m.group(2) not in names else '_' + p.split('/')[-3]); names.append(n)
        doc = f'/-- {p}:{a} -/\n@[shown_text] theorem {n} '
        if ty == 'UInt8':
            out.append(doc + f'(c : UInt8) : {f} c = {t} c := by\n  first\n  | simp only [{f}, {t}, tableText_cons, tableText_nil, Nat.reduceLT]; rfl\n  | exact every_byte {f} {t} (by decide +kernel) c')
        elif ty == 'Nat':
            out.append(doc.replace('@[shown_text] ', '') + f'{{n : ℕ}} (hn : n < 256) : {f} n = {t} (UInt8.ofNat n) := by\n  have h : ∀ n < 256, {f} n = {t} (UInt8.ofNat n) := by decide +kernel\n  exact h n hn')
        elif ty in ('NumericValueStatus', 'AltitudeReportMethod'):
            out.append(doc + f'(c : {ty}) : {f} c = c.text := by\n  cases c <;> rfl')
        else: print('type', ty, n)
head = '''import Verif.Model.TranslationTexts
import Verif.Lemmas.TextAttr
/-!
# The texts of the fields: the code and the model agree

Written by tools/go2lean/generate_texts_props.py. `Shown.…` is the text of the code (Model/TranslationTexts), `Text.…` that of the model.
-/
namespace Modes

theorem tableText_cons (k : ℕ) (hk : k < 256) (t : Txt) (r : List (Nat × Txt)) (s : Txt) (c : UInt8) :
    tableText ((k, t) :: r) s c = if c = UInt8.ofNat k then t else tableText r s c := by
  have : (c = UInt8.ofNat k) ↔ c.toNat = k := by
    rw [← UInt8.toNat_inj]; simp [Nat.mod_eq_of_lt hk]
  by_cases h : c.toNat = k
  · rw [if_pos (this.2 h)]; simp [tableText, h]
  · rw [if_neg (fun x => h (this.1 x))]; simp [tableText, List.lookup_cons, beq_false_of_ne h]

theorem every_byte (f g : UInt8 → Txt) (h : ∀ n < 256, f (UInt8.ofNat n) = g (UInt8.ofNat n)) (c : UInt8) : f c = g c := by
  simpa using h c.toNat c.toNat_lt

theorem tableText_nil (s : Txt) (c : UInt8) : tableText [] s c = dec c.toNat ++ s := rfl

'''
open(L + 'Props/TranslationTextsFields.lean', 'w').write(head + '\n\n'.join(out) + '\n\nend Modes\n'); print(len(out))
