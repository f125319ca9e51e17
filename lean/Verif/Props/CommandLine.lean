import Verif.Props.Program
/-!
# The command line of the program
-/
namespace Spec

/-- The bytes of an ASCII text. -/
def bytes (s : String) : List UInt8 := s.toList.map fun c => UInt8.ofNat c.toNat

/-- The arguments that set a flag: `-name=value`, `--name=value`, `-name value` or `--name value`. -/
inductive SetsFlag (name : String) (value : List UInt8) : List (List UInt8) → Prop
  | joined : SetsFlag name value [bytes "-" ++ bytes name ++ bytes "=" ++ value]
  | joined2 : SetsFlag name value [bytes "--" ++ bytes name ++ bytes "=" ++ value]
  | separate : SetsFlag name value [bytes "-" ++ bytes name, value]
  | separate2 : SetsFlag name value [bytes "--" ++ bytes name, value]

/-- A setting of the program: the file to read, or the reader level (`number` being the integer the text stands for). -/
inductive Setting
  | file (name : List UInt8)
  | level (number : Int) (text : List UInt8)

/-- The arguments that make the settings, in this order. -/
inductive SetsAll : List Setting → List (List UInt8) → Prop
  | nil : SetsAll [] []
  | file {name : List UInt8} {a : List (List UInt8)} {l : List Setting} {r : List (List UInt8)} (h : SetsFlag "file" name a)
      (hr : SetsAll l r) : SetsAll (.file name :: l) (a ++ r)
  | level {n : Int} {text : List UInt8} {a : List (List UInt8)} {l : List Setting} {r : List (List UInt8)}
      (h : SetsFlag "adsb_reader_level" text a) (hr : SetsAll l r) : SetsAll (.level n text :: l) (a ++ r)

/-- The file that is read: the last one set, none (the empty name) by default. -/
def fileSet (l : List Setting) : List UInt8 :=
  ((l.filterMap fun | .file n => some n | _ => none).getLast?).getD []

/-- The reader level: the last one set, 0 by default. -/
def levelSet (l : List Setting) : Int :=
  ((l.filterMap fun | .level n _ => some n | _ => none).getLast?).getD 0

/-- The texts of the levels stand for their numbers. -/
def LevelsParse (parseInt : List UInt8 → Option Int) (l : List Setting) : Prop :=
  ∀ n t, Setting.level n t ∈ l → parseInt t = some n

/-- An argument that is not a flag: it does not start with a dash, or it is a single dash, or empty. -/
def NotFlag (a : List UInt8) : Prop := a.length < 2 ∨ a.head? ≠ some 45

end Spec
namespace Modes
open Spec

theorem flagArg_notFlag {a : List UInt8} (h : NotFlag a) : flagArg a = .notFlag := by
  unfold NotFlag at h
  match a with
  | [] => rfl
  | [x] => rfl
  | x :: y :: r =>
    have : x ≠ 45 := by simpa using h
    simp [flagArg, this]

theorem flagArg_file (v : List UInt8) : flagArg (bytes "-" ++ bytes "file" ++ bytes "=" ++ v) = .flag (ascii "file") (some v) ∧
    flagArg (bytes "--" ++ bytes "file" ++ bytes "=" ++ v) = .flag (ascii "file") (some v) ∧
    flagArg (bytes "-" ++ bytes "file") = .flag (ascii "file") none ∧
    flagArg (bytes "--" ++ bytes "file") = .flag (ascii "file") none := ⟨rfl, rfl, rfl, rfl⟩

theorem flagArg_level (v : List UInt8) :
    flagArg (bytes "-" ++ bytes "adsb_reader_level" ++ bytes "=" ++ v) = .flag (ascii "adsb_reader_level") (some v) ∧
    flagArg (bytes "--" ++ bytes "adsb_reader_level" ++ bytes "=" ++ v) = .flag (ascii "adsb_reader_level") (some v) ∧
    flagArg (bytes "-" ++ bytes "adsb_reader_level") = .flag (ascii "adsb_reader_level") none ∧
    flagArg (bytes "--" ++ bytes "adsb_reader_level") = .flag (ascii "adsb_reader_level") none := ⟨rfl, rfl, rfl, rfl⟩

theorem level_ne_file : ascii "adsb_reader_level" ≠ ascii "file" := by decide

theorem parseFlags_file (pi : List UInt8 → Option Int) (file : List UInt8) (level : Int) (v : List UInt8) (a r : List (List UInt8))
    (h : SetsFlag "file" v a) : parseFlags pi file level (a ++ r) = parseFlags pi v level r := by
  obtain ⟨h1, h2, h3, h4⟩ := flagArg_file v
  cases h with
  | joined => rw [List.singleton_append, parseFlags.eq_def]; simp only [h1]; simp
  | joined2 => rw [List.singleton_append, parseFlags.eq_def]; simp only [h2]; simp
  | separate => rw [List.cons_append, parseFlags.eq_def]; simp only [h3]; simp
  | separate2 => rw [List.cons_append, parseFlags.eq_def]; simp only [h4]; simp

theorem parseFlags_level (pi : List UInt8 → Option Int) (file : List UInt8) (level n : Int) (v : List UInt8) (a r : List (List UInt8))
    (h : SetsFlag "adsb_reader_level" v a) (hn : pi v = some n) : parseFlags pi file level (a ++ r) = parseFlags pi file n r := by
  obtain ⟨h1, h2, h3, h4⟩ := flagArg_level v
  cases h with
  | joined => rw [List.singleton_append, parseFlags.eq_def]; simp only [h1]; simp [level_ne_file, hn]
  | joined2 => rw [List.singleton_append, parseFlags.eq_def]; simp only [h2]; simp [level_ne_file, hn]
  | separate => rw [List.cons_append, parseFlags.eq_def]; simp only [h3]; simp [level_ne_file, hn]
  | separate2 => rw [List.cons_append, parseFlags.eq_def]; simp only [h4]; simp [level_ne_file, hn]

theorem parseFlags_settings (pi : List UInt8 → Option Int) (l : List Setting) (args : List (List UInt8)) (hl : LevelsParse pi l)
    (h : SetsAll l args) (r : List (List UInt8)) (hr : ∀ a, r.head? = some a → NotFlag a ∨ a = bytes "--") :
    ∀ file level, parseFlags pi file level (args ++ r) =
      .ok (((l.filterMap fun | .file n => some n | _ => none).getLast?).getD file)
        (((l.filterMap fun | .level n _ => some n | _ => none).getLast?).getD level) := by
  induction h with
  | nil =>
    intro file level
    cases r with
    | nil => rfl
    | cons a r =>
      rcases hr a rfl with h | rfl
      · rw [List.nil_append, parseFlags.eq_def]; simp only [flagArg_notFlag h]; rfl
      · rfl
  | @file name a l rest ha hrest ih =>
    intro file level
    rw [List.append_assoc, parseFlags_file pi file level name _ _ ha, ih fun n t hm => hl n t (List.mem_cons_of_mem _ hm)]
    simp [List.filterMap_cons, List.getLast?_cons]
  | @level n text a l rest ha hrest ih =>
    intro file level
    rw [List.append_assoc, parseFlags_level pi file level n text _ _ ha (hl n text List.mem_cons_self),
      ih fun n t hm => hl n t (List.mem_cons_of_mem _ hm)]
    simp [List.filterMap_cons, List.getLast?_cons]

theorem parseFlags_all (pi : List UInt8 → Option Int) (l : List Setting) (args : List (List UInt8)) (hl : LevelsParse pi l)
    (h : SetsAll l args) (r : List (List UInt8)) (hr : ∀ a, r.head? = some a → NotFlag a ∨ a = bytes "--") :
    parseFlags pi [] 0 (args ++ r) = .ok (fileSet l) (levelSet l) := parseFlags_settings pi l args hl h r hr [] 0

/-! ### The lines of a file -/

/-- The content of a file of lines, each ended by a line feed, after a carriage return or not, and a last line without end (if it is not
empty). -/
def _root_.Spec.fileOf (ls : List (List UInt8 × Bool)) (last : List UInt8) : List UInt8 :=
  (ls.flatMap fun l => l.1 ++ if l.2 then [13, 10] else [10]) ++ last

theorem fileOf_intercalate (ls : List (List UInt8 × Bool)) (last : List UInt8) :
    fileOf ls last = [10].intercalate (ls.map (fun l => l.1 ++ if l.2 then [13] else []) ++ [last]) := by
  unfold fileOf
  induction ls with
  | nil => simp [List.intercalate]
  | cons l ls ih =>
    rw [List.flatMap_cons, List.append_assoc, ih, List.map_cons, List.cons_append]
    cases hx : ls.map (fun l => l.1 ++ if l.2 then [13] else []) ++ [last] with
    | nil => simp at hx
    | cons y r =>
      simp only [List.intercalate, List.intersperse_cons_cons, List.flatten_cons]
      cases l.2 <;> simp

theorem dropCR_line (l : List UInt8) (cr : Bool) (h : l.getLast? ≠ some 13) : dropCR (l ++ if cr then [13] else []) = l := by
  unfold dropCR
  cases cr with
  | true => simp
  | false => simp [h]

/-- C80. The lines found in a file are the lines it was made of: line ends `\n` and `\r\n`, an end of file in the middle of a line. -/
theorem scanLines_file (ls : List (List UInt8 × Bool)) (last : List UInt8)
    (h : ∀ l ∈ ls, 10 ∉ l.1 ∧ l.1.length < 65535 ∧ l.1.getLast? ≠ some 13)
    (hlast : 10 ∉ last ∧ last.length < 65536 ∧ last.getLast? ≠ some 13) :
    scanLines (fileOf ls last) = some (ls.map Prod.fst ++ if last = [] then [] else [last]) := by
  have hs : (fileOf ls last).splitOn 10 = ls.map (fun l => l.1 ++ if l.2 then [13] else []) ++ [last] := by
    rw [fileOf_intercalate]
    refine List.splitOn_intercalate _ ?_ (by simp)
    intro l hl
    rcases List.mem_append.1 hl with hl | hl
    · obtain ⟨x, hx, rfl⟩ := List.mem_map.1 hl
      have := (h x hx).1
      cases x.2 <;> simp [this]
    · rw [List.mem_singleton.1 hl]; exact hlast.1
  unfold scanLines
  rw [hs]
  have hmap : ls.map (fun l => dropCR (l.1 ++ if l.2 then [13] else [])) = ls.map Prod.fst :=
    List.map_congr_left fun l hl => dropCR_line l.1 l.2 (h l hl).2.2
  have hany : (ls.map (fun l : List UInt8 × Bool => l.1 ++ if l.2 then [13] else []) ++ [last]).any (fun l => 65536 ≤ l.length) = false := by
    rw [List.any_eq_false]
    intro x hx
    rcases List.mem_append.1 hx with hx | hx
    · obtain ⟨l, hl, rfl⟩ := List.mem_map.1 hx
      have := (h l hl).2.1
      cases l.2 <;> simp <;> omega
    · rw [List.mem_singleton.1 hx]; simp; omega
  simp only [hany, List.getLast?_append, List.getLast?_singleton, Option.some_or]
  by_cases hl : last = []
  · subst hl
    simp [List.map_map, Function.comp_def, hmap]
  · have hd : dropCR last = last := by simpa using dropCR_line last false hlast.2.2
    simp [hl, List.map_map, Function.comp_def, hmap, hd]

/-- The hypotheses are met, and the two line ends are both understood. -/
example : scanLines (ascii "8D4B\r\n\n20FF\nA0") = some [ascii "8D4B", [], ascii "20FF", ascii "A0"] := by decide +kernel

/-! ### Runs -/

/-- C80. Without arguments, or with a first argument that is not a flag: `No data provided`, or the report of that argument, decoded at
level 0. What follows is ignored. -/
theorem run_data (F : FloatTexts) (E : ErrorTexts) (pi : List UInt8 → Option Int) (files : List UInt8 → Option (List UInt8)) :
    runMain F E pi files [] = ⟨t! "No data provided", .returned⟩ ∧
    ∀ data rest, NotFlag data → ∃ t, printSingleLine F E data 0 = .ok t ∧ runMain F E pi files (data :: rest) = ⟨t, .returned⟩ := by
  refine ⟨rfl, fun data rest h => ?_⟩
  obtain ⟨t, ht⟩ := line_output F E data 0
  refine ⟨_, ht, ?_⟩
  have := parseFlags_all pi [] [] (fun n t h => by simp at h) .nil (data :: rest) (fun a ha => Or.inl (by simp at ha; rwa [← ha]))
  unfold runMain
  rw [List.nil_append] at this
  rw [this]
  show Run.ofGo (printSingleLine F E data 0) = _
  rw [ht]; rfl

/-- C80. With a file and a reader level 0, 1 or 2 set in any way and any order: the report of each line of the file at that level, in the
order of the file, and a normal end. -/
theorem run_file (F : FloatTexts) (E : ErrorTexts) (pi : List UInt8 → Option Int) (files : List UInt8 → Option (List UInt8))
    (l : List Setting) (args rest : List (List UInt8)) (hl : LevelsParse pi l) (h : SetsAll l args)
    (hr : ∀ a, rest.head? = some a → NotFlag a ∨ a = bytes "--") (level : UInt8) (h2 : level.toNat ≤ 2) (hlev : levelSet l = level.toNat)
    (hfile : fileSet l ≠ []) (content : List UInt8) (hc : files (fileSet l) = some content) (lines : List (List UInt8))
    (hs : scanLines content = some lines) :
    ∃ ts, List.Forall₂ (fun s t => printSingleLine F E s level = .ok t) lines ts ∧
      runMain F E pi files (args ++ rest) = ⟨ts.flatten, .returned⟩ := by
  obtain ⟨ts, h3, h4⟩ := file_output F E level lines
  refine ⟨ts, h3, ?_⟩
  unfold runMain
  rw [parseFlags_all pi l args hl h rest hr]
  simp only
  rw [if_pos (by omega), if_pos hfile, hc]
  simp only [hs]
  have : UInt8.ofNat (levelSet l).toNat = level := by rw [hlev]; simp
  rw [this, h4]; rfl

/-- C80. A file that cannot be read, or that has a line of 65536 bytes or more: nothing is printed, exit code 1. -/
theorem run_file_unreadable (F : FloatTexts) (E : ErrorTexts) (pi : List UInt8 → Option Int) (files : List UInt8 → Option (List UInt8))
    (l : List Setting) (args rest : List (List UInt8)) (hl : LevelsParse pi l) (h : SetsAll l args)
    (hr : ∀ a, rest.head? = some a → NotFlag a ∨ a = bytes "--") (hlev : 0 ≤ levelSet l ∧ levelSet l ≤ 2) (hfile : fileSet l ≠ [])
    (hc : files (fileSet l) = none ∨ ∃ content, files (fileSet l) = some content ∧ ∃ x ∈ content.splitOn 10, 65536 ≤ x.length) :
    runMain F E pi files (args ++ rest) = ⟨[], .exited 1⟩ := by
  unfold runMain
  rw [parseFlags_all pi l args hl h rest hr]
  simp only
  rw [if_pos (by omega), if_pos hfile]
  rcases hc with hc | ⟨content, hc, x, hx, hx2⟩
  · rw [hc]
  · rw [hc]
    have : scanLines content = none := by
      unfold scanLines
      simp only
      rw [if_pos (List.any_eq_true.2 ⟨x, hx, by simpa using hx2⟩)]
    simp only [this]

/-- C80. A reader level other than 0, 1, 2: the program panics, and prints nothing. -/
theorem run_wrong_level (F : FloatTexts) (E : ErrorTexts) (pi : List UInt8 → Option Int) (files : List UInt8 → Option (List UInt8))
    (l : List Setting) (args rest : List (List UInt8)) (hl : LevelsParse pi l) (h : SetsAll l args)
    (hr : ∀ a, rest.head? = some a → NotFlag a ∨ a = bytes "--") (hlev : ¬ (0 ≤ levelSet l ∧ levelSet l ≤ 2)) :
    runMain F E pi files (args ++ rest) = ⟨[], .panicked⟩ := by
  unfold runMain
  rw [parseFlags_all pi l args hl h rest hr]
  simp only
  rw [if_neg (by omega)]

theorem flagNameValue_suffix (a name v : List UInt8) (h : flagNameValue a = .flag name (some v)) : v <:+ a := by
  unfold flagNameValue at h
  split at h
  · cases h
  · rename_i c rest
    split at h
    · cases h
    · split at h
      · cases h
      · rename_i x v' hd
        cases h
        have h1 : x :: v <:+ rest := hd ▸ List.dropWhile_suffix _
        exact ((List.suffix_cons x v).trans h1).trans (List.suffix_cons c rest)

theorem flagArg_suffix (a name v : List UInt8) (h : flagArg a = .flag name (some v)) : v <:+ a := by
  unfold flagArg at h
  split at h
  · rename_i x y r
    split at h
    · cases h
    · split at h
      · split at h
        · cases h
        · exact ((flagNameValue_suffix _ _ _ h).trans (List.suffix_cons _ _)).trans (List.suffix_cons _ _)
      · exact (flagNameValue_suffix _ _ _ h).trans (List.suffix_cons _ _)
  · cases h

theorem parseFlags_level_from (pi : List UInt8 → Option Int) (args : List (List UInt8)) (file : List UInt8) (level : Int)
    (f : List UInt8) (n : Int) (h : parseFlags pi file level args = .ok f n) :
    n = level ∨ ∃ text, pi text = some n ∧ (text ∈ args ∨ ∃ a ∈ args, text <:+ a) := by
  have grow1 : ∀ {s : List UInt8} {r : List (List UInt8)}, (∃ text, pi text = some n ∧ (text ∈ r ∨ ∃ a ∈ r, text <:+ a)) →
      ∃ text, pi text = some n ∧ (text ∈ s :: r ∨ ∃ a ∈ s :: r, text <:+ a) := by
    rintro s r ⟨t, h1, h2⟩
    refine ⟨t, h1, ?_⟩
    rcases h2 with h2 | ⟨a, ha, h2⟩
    · exact Or.inl (List.mem_cons_of_mem _ h2)
    · exact Or.inr ⟨a, List.mem_cons_of_mem _ ha, h2⟩
  fun_induction parseFlags pi file level args with
  | case1 => cases h; exact Or.inl rfl
  | case2 => cases h; exact Or.inl rfl
  | case3 => cases h; exact Or.inl rfl
  | case4 => cases h
  | case5 file level s rest v x ih => exact (ih h).imp_right grow1
  | case6 => cases h
  | case7 file level s rest v x ih => exact (ih h).imp_right fun e => grow1 (grow1 e)
  | case8 => cases h
  | case9 file level s rest v k hk hne x ih =>
    rcases ih h with rfl | e
    · exact Or.inr ⟨v, hk, Or.inr ⟨s, List.mem_cons_self, flagArg_suffix _ _ _ x⟩⟩
    · exact Or.inr (grow1 e)
  | case10 => cases h
  | case11 => cases h
  | case12 file level s v rest k hk hne x ih =>
    rcases ih h with rfl | e
    · exact Or.inr ⟨_, hk, Or.inl (List.mem_cons_of_mem _ List.mem_cons_self)⟩
    · exact Or.inr (grow1 (grow1 e))
  | case13 => cases h
  | case14 => cases h

/-- C80. The program never panics otherwise: whatever the arguments and the files, a panic comes from a reader level that is an integer
other than 0, 1, 2, given as an argument or after the `=` of one. -/
theorem run_panics_only (F : FloatTexts) (E : ErrorTexts) (pi : List UInt8 → Option Int) (files : List UInt8 → Option (List UInt8))
    (args : List (List UInt8)) (h : (runMain F E pi files args).ending = .panicked) :
    ∃ text n, pi text = some n ∧ ¬ (0 ≤ n ∧ n ≤ 2) ∧ (text ∈ args ∨ ∃ a ∈ args, text <:+ a) := by
  unfold runMain at h
  split at h
  · cases h
  · cases h
  · rename_i file level hp
    split at h
    · exfalso
      split at h
      · split at h
        · cases h
        · split at h
          · cases h
          · rename_i lines hl
            obtain ⟨ts, -, h4⟩ := file_output F E (UInt8.ofNat level.toNat) lines
            rw [h4] at h; cases h
      · split at h
        · cases h
        · rename_i data r
          obtain ⟨t, ht⟩ := line_output F E data (UInt8.ofNat level.toNat)
          rw [ht] at h; cases h
    · rename_i hlev
      rcases parseFlags_level_from pi args [] 0 file level hp with rfl | ⟨text, h1, h2⟩
      · exact absurd (Or.inl rfl) hlev
      · exact ⟨text, level, h1, by omega, h2⟩

/-- C80, false of the code: a reader level set on the command line does not apply to the data that follows it. Whenever the first
argument is a flag and no file is set, it is the flag that is taken for the data: the report is that it is not hexadecimal, whatever
the other arguments. -/
theorem run_level_refuted (F : FloatTexts) (E : ErrorTexts) (pi : List UInt8 → Option Int) (files : List UInt8 → Option (List UInt8))
    (l : List Setting) (a : List UInt8) (args rest : List (List UInt8)) (hl : LevelsParse pi l) (h : SetsAll l (a :: args))
    (hr : ∀ x, rest.head? = some x → NotFlag x ∨ x = bytes "--") (hlev : 0 ≤ levelSet l ∧ levelSet l ≤ 2) (hfile : fileSet l = []) :
    runMain F E pi files (a :: args ++ rest) = ⟨t! "Reading: " ++ asciiText a ++ '\n' ::
      (t! "unable to convert the given text to hexadecimal values due to: " ++ E.hexadecimal a), .returned⟩ := by
  have hdash : a.head? = some 45 := by
    generalize hx : a :: args = x at h
    cases h with
    | nil => cases hx
    | file h hr =>
      cases h <;> (rw [List.cons_append] at hx; injection hx with hx; rw [hx]; rfl)
    | level h hr =>
      cases h <;> (rw [List.cons_append] at hx; injection hx with hx; rw [hx]; rfl)
  unfold runMain
  rw [parseFlags_all pi l (a :: args) hl h rest hr]
  simp only
  rw [if_pos (by omega), if_neg (by simpa using hfile)]
  simp only [List.cons_append]
  have hns : ¬ ∃ f, Spells a f := by
    rintro ⟨f, hf⟩
    cases hf with
    | nil => simp at hdash
    | cons h1 _ _ _ =>
      simp at hdash
      subst hdash
      unfold HexDigit at h1
      simp at h1
      omega
  unfold printSingleLine
  rw [(line_notHexadecimal a _).2 hns]
  rfl

/-- The data of the program's documentation, on the command line. -/
example (F : FloatTexts) (E : ErrorTexts) (pi : List UInt8 → Option Int) (files : List UInt8 → Option (List UInt8)) :
    ∃ t, printSingleLine F E (bytes "8D4BAB4558AB031C446849B72535") 0 = .ok t ∧
      runMain F E pi files [bytes "8D4BAB4558AB031C446849B72535"] = ⟨t, .returned⟩ :=
  (run_data F E pi files).2 _ _ (Or.inr (by decide))

/-- The arguments `-adsb_reader_level 2 --file=f.txt` meet the hypotheses of `run_file`, when `2` is read as 2. -/
example (F : FloatTexts) (E : ErrorTexts) (pi : List UInt8 → Option Int) (h2 : pi (bytes "2") = some 2)
    (files : List UInt8 → Option (List UInt8)) (hf : files (bytes "f.txt") = some (bytes "20FF\n8D4B\r\n")) :
    ∃ t u, printSingleLine F E (bytes "20FF") 2 = .ok t ∧ printSingleLine F E (bytes "8D4B") 2 = .ok u ∧
      runMain F E pi files [bytes "-adsb_reader_level", bytes "2", bytes "--file=f.txt"] = ⟨t ++ u, .returned⟩ := by
  obtain ⟨ts, h3, h4⟩ := run_file F E pi files [.level 2 (bytes "2"), .file (bytes "f.txt")]
    [bytes "-adsb_reader_level", bytes "2", bytes "--file=f.txt"] []
    (by
      intro n t h
      simp only [List.mem_cons, Setting.level.injEq, reduceCtorEq, List.not_mem_nil, or_false] at h
      rw [h.1, h.2]; exact h2)
    (.level (a := [bytes "-adsb_reader_level", bytes "2"]) .separate (.file (a := [bytes "--file=f.txt"]) .joined2 .nil))
    (by simp) 2 (by decide) rfl (by decide) _ hf [bytes "20FF", bytes "8D4B"] (by decide +kernel)
  cases h3 with
  | cons a b =>
    cases b with
    | cons b c =>
      cases c
      exact ⟨_, _, a, b, by simpa using h4⟩

/-- The arguments `-adsb_reader_level=1 8D4B...` meet the hypotheses of `run_level_refuted`: the data is not decoded. -/
example (F : FloatTexts) (E : ErrorTexts) (pi : List UInt8 → Option Int) (h1 : pi (bytes "1") = some 1)
    (files : List UInt8 → Option (List UInt8)) :
    runMain F E pi files [bytes "-adsb_reader_level=1", bytes "8D4BAB4558AB031C446849B72535"] =
      ⟨t! "Reading: " ++ asciiText (bytes "-adsb_reader_level=1") ++ '\n' ::
        (t! "unable to convert the given text to hexadecimal values due to: " ++ E.hexadecimal (bytes "-adsb_reader_level=1")),
        .returned⟩ :=
  run_level_refuted F E pi files [.level 1 (bytes "1")] (bytes "-adsb_reader_level=1") [] [bytes "8D4BAB4558AB031C446849B72535"]
    (by
      intro n t h
      simp only [List.mem_cons, Setting.level.injEq, List.not_mem_nil, or_false] at h
      rw [h.1, h.2]; exact h1)
    (.level (a := [bytes "-adsb_reader_level=1"]) .joined .nil) (fun x hx => Or.inl (by simp at hx; subst hx; exact Or.inr (by decide)))
    (by decide) rfl

end Modes
