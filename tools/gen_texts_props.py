#!/usr/bin/env python3
"""Writes lean/Verif/Props/Texts.lean: each text of Model/Texts identifies its code and, but for three of them, shows the right number."""
import sys; sys.path.insert(0,'/verif/tools')
import gen_texts,re
T=[(n[0].lower()+n[1:],path,typ,tbl,suf) for n,path,a,b,typ,tbl,suf in gen_texts.tables()]
num=lambda v: re.match(r'.(\d+)',v).group(1)
MIS=[]
for n,path,typ,tbl,suf in T:
    if any(re.match(r'"\d+ -',v) and int(re.match(r'"(\d+)',v).group(1))!=k for k,v in tbl): MIS.append(n)
o=['import Verif.Model.Texts','import Verif.Lemmas.Text','/-!','# C72, C73: the texts of the coded fields','',
'Written by tools/gen_texts_props.py.','-/','namespace Spec','open Modes','',
'/-- The texts of different codes are different, and none has a line break. -/',
'structure Identifies (f : UInt8 → Txt) : Prop where',
'  inj : Function.Injective f',
'  line : ∀ c, OneLine (f c)','',
'/-- Where a text is a number, a dash and an explanation, the number is the code. -/',
'def Numbered (f : UInt8 → Txt) : Prop := ∀ c n r, f c = dec n ++ \' \' :: \'-\' :: r → n = c.toNat','',
'end Spec','namespace Modes','open Spec','namespace Text','']
for n,*_ in T:
    o.append(f'theorem {n}_identifies : Identifies {n} :=')
    o.append('  ⟨tableText_inj _ _ (by decide +kernel) (by decide +kernel), tableText_line _ _ (by decide +kernel) (by decide +kernel)⟩')
o.append('')
for n,*_ in T:
    if n in MIS: continue
    o.append(f'theorem {n}_numbered : Numbered {n} := tableText_numbered _ _ (by decide +kernel) rfl')
o.append('')
o+=['/-- The texts of all coded fields. -/','def fieldTexts : List (UInt8 → Txt) := [']
o.append(',\n'.join('  '+n for n,*_ in T)+']')
o.append('')
o+=['/-- C72: every coded field has a text that identifies its code. -/','theorem texts_identify : ∀ f ∈ fieldTexts, Identifies f := by','  unfold fieldTexts','  simp only [List.forall_mem_cons, List.not_mem_nil, false_imp_iff, implies_true, and_true]',
 '  exact ⟨'+',\n    '.join(n+'_identifies' for n,*_ in T)+'⟩','']
o+=['/-- The texts that show a number which is not the code. -/','def misnumberedTexts : List (UInt8 → Txt) := ['+', '.join(MIS)+']','',
 '/-- The others. -/','def numberedTexts : List (UInt8 → Txt) := [',',\n'.join('  '+n for n,*_ in T if n not in MIS)+']','',
 '/-- C73: the number a text shows is the code, but for three fields. -/','theorem texts_numbered_partial : ∀ f ∈ numberedTexts, Numbered f := by','  unfold numberedTexts','  simp only [List.forall_mem_cons, List.not_mem_nil, false_imp_iff, implies_true, and_true]',
 '  exact ⟨'+',\n    '.join(n+'_numbered' for n,*_ in T if n not in MIS)+'⟩','']
o+=['theorem fieldTexts_split : ∀ f ∈ fieldTexts, f ∈ numberedTexts ∨ f ∈ misnumberedTexts := by','  unfold fieldTexts',
 '  simp only [List.forall_mem_cons, List.not_mem_nil, false_imp_iff, implies_true, and_true]',
 '  refine ⟨'+', '.join('?_' for _ in T)+'⟩',
 '  all_goals simp only [numberedTexts, misnumberedTexts, List.mem_cons, true_or, or_true]','']
W={n:next((k,v) for k,v in tbl if re.match(r'"\d+ -',v) and int(re.match(r'"(\d+)',v).group(1))!=k) for n,path,typ,tbl,suf in T if n in MIS}
o+=['/-- C73: these three show the number of another code. -/','theorem texts_numbered_refuted : ∀ f ∈ misnumberedTexts, ¬ Numbered f := by','  unfold misnumberedTexts','  simp only [List.forall_mem_cons, List.not_mem_nil, false_imp_iff, implies_true, and_true]',
 '  exact ⟨'+',\n    '.join(f'fun h => absurd (h {W[n][0]} {num(W[n][1])} (({n} {W[n][0]}).drop 3) (by decide +kernel)) (by decide)' for n in MIS)+'⟩','']
o+=['end Text','end Modes','']
open('/verif/lean/Verif/Props/Texts.lean','w').write('\n'.join(o)); print(len(T),MIS)
