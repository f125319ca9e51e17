"""Writes lean/Verif/Props/TranslationErase.lean: without the words of errors, the functions of Model/TranslationWords are those of Model/Translation."""
import re, os
HERE = os.path.dirname(os.path.abspath(__file__))
BY_HAND = ['bds.bds44.ReadMeteorologicalRoutineAirReport', 'bds.bds45.ReadMeteorologicalHazardReport', 'commb.ReadCommBMessage']   # Props/TranslationWords
s=open(os.path.join(HERE, '../../lean/Verif/Model/TranslationWords.lean')).read()
L=re.findall(r'^def (Said\.(\S+))((?: \([^()]*(?:\([^()]*\))?[^()]*\))*) : ([^\n]*?)(?: := do| := *|)$',s,re.M)
out=['''import Verif.Model.TranslationWords
/-!
# Without the words of errors, the translation with words is the translation

Written by `tools/go2lean/generate_erase.py`: one theorem for each function of Model/TranslationWords.
-/
set_option linter.unusedSimpArgs false
namespace Modes
/-- The result without the words of the error. -/
def Saying.erase {α : Type} : Saying α → Go α
  | .ok a => .ok a
  | .error (.err _) => .error .err
  | .error .panic => .error .panic
open Saying
theorem erase_bind {α β : Type} (x : Saying α) (f : α → Saying β) : erase (x >>= f) = (erase x >>= fun a => erase (f a)) := by
  rcases x with (_ | _) | _ <;> rfl
theorem erase_pure {α : Type} (a : α) : erase (pure a : Saying α) = pure a := rfl
theorem erase_ok {α : Type} (a : α) : erase (.ok a : Saying α) = .ok a := rfl
theorem erase_say {α : Type} (t : Txt) : erase (say t : Saying α) = fail := rfl
theorem erase_saying {α : Type} (t : Txt) (x : Saying α) : erase (saying t x) = erase x := by rcases x with (_ | _) | _ <;> rfl
theorem erase_lift {α : Type} (x : Go α) : erase (liftM x : Saying α) = x := by rcases x with (_ | _) | _ <;> rfl
theorem erase_ite {α : Type} (c : Prop) [Decidable c] (x y : Saying α) : erase (if c then x else y) = if c then erase x else erase y := by
  split <;> rfl
theorem erase_attempt {α : Type} (x : Saying α) : erase (attemptSaid x) = attempt (erase x) := by rcases x with (_ | _) | _ <;> rfl
theorem saysNothing_eq (x : Saying Unit) : saysNothing x = returnsNil (erase x) := by rcases x with (_ | _) | _ <;> rfl
theorem erase_foldlM {α β : Type} (f : β → α → Saying β) (l : List α) (b : β) :
    erase (l.foldlM f b) = l.foldlM (fun b a => erase (f b a)) b := by
  induction l generalizing b with
  | nil => rfl
  | cons a l ih =>
    simp only [List.foldlM_cons, erase_bind, ih]
''']
base='erase_bind, erase_pure, erase_ok, erase_say, erase_saying, erase_lift, erase_ite, erase_attempt, saysNothing_eq, erase_foldlM'
prev=[]
for n,g,sig,ret in L:
    if g.endswith('ToString') or g in BY_HAND: continue
    body=s[s.index(f'def {n} '):]; body=body[:body.find('\n\n')]
    deps=list(dict.fromkeys(d for d in re.findall(r'Said\.([\w.]+)',body) if d!=g and not d.endswith('ToString')))
    if not sig and '→' in ret:
        out.append(f'theorem erase_{g} (m : {ret.split("→")[0].strip()}) : erase ({n} m) = Gen.{g} m := by\n  cases m <;> simp only [{n}, Gen.{g}{"".join(", erase_"+d for d in deps)}]')
        prev.append(g); continue
    vs=' '.join(re.findall(r'\((\w+) :',sig))
    if '_' in vs.split(): 
        sig=re.sub(r'\(_ :','(x :',sig); vs=vs.replace('_','x')
    out.append(f'theorem erase_{g}{sig} : erase ({n} {vs}) = Gen.{g} {vs} := by\n  simp only [{n}, Gen.{g}, {base}{"".join(", erase_"+d for d in deps)}]')
    prev.append(g)
open(os.path.join(HERE, '../../lean/Verif/Props/TranslationErase.lean'),'w').write('\n\n'.join(out)+'\n\nend Modes\n')
