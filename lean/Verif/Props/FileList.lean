import Verif.Lemmas.FileList
/-!
# C42: file lists
-/
namespace Verif.Props
open Verif.Model Verif.Spec Verif.Lemmas

/-- the file system of the examples: a list file with a comment and blanks around a path, and a directory -/
def listFs : Fs where
  isDir d := d == "d".toList
  text f := if f == "l".toList then some "# c\n a.arxml \r\nb.arxml".toList
    else if f == "e".toList then some "a.arxml\n\n  # c\nb.arxml".toList else none
  walk d := if d == "d".toList then [("d/x".toList, ["q.arxml".toList, "n.txt".toList]), ("d".toList, ["P.ARXML".toList])] else []

/-- C42 (list files): for every content, the paths returned for `@file` are those its lines list, in order, plus
one empty path for every blank line. -/
theorem C42_listed (py : Py) (fs : Fs) (f t : List Char) (ht : fs.text f = some t) :
    ∀ ls, LinesOf (newlines t) ls → Listed py ls ((textFile py fs f).filter fun p => !p.isEmpty) := by
  intro ls hls
  rw [linesOf_unique hls, listed_iff, textFile, ht]

/-- C42 (list files), as claimed, for a list file without blank lines. -/
theorem C42_listed_partial (py : Py) (fs : Fs) (f t : List Char) (ht : fs.text f = some t) (ls : List (List Char))
    (hls : LinesOf (newlines t) ls) (hb : ∀ l ∈ ls, ¬ Blank py l) : ∀ ps, Listed py ls ps ↔ textFile py fs f = ps := by
  intro ps
  rw [listed_iff, textFile, ht, linesOf_unique hls, List.filter_eq_self.mpr]
  intro p hp
  obtain ⟨l, hl, rfl⟩ := List.mem_map.mp hp
  simpa using mt (strip_nil_iff py l).mp (hb l (by rw [linesOf_unique hls]; exact (List.mem_filter.mp hl).1))

/-- the number of empty paths is the number of blank lines (a blank line does not start with `#`) -/
theorem C42_blank_count (py : Py) (fs : Fs) (f t : List Char) (ht : fs.text f = some t) (ls : List (List Char))
    (hls : LinesOf (newlines t) ls) : (textFile py fs f).count [] = ls.countP fun l => l.all py.space := by
  rw [textFile, ht, linesOf_unique hls, List.count, List.countP_map, List.countP_filter]
  apply List.countP_congr
  intro l _
  have hh : py.space '#' = false := py.space_ascii '#' (by decide)
  simp only [Function.comp, Bool.and_eq_true, beq_iff_eq, strip_nil_iff, List.all_eq_true, Bool.not_eq_true', Blank]
  constructor
  · exact fun h => h.1
  · refine fun h => ⟨h, ?_⟩
    cases l with
    | nil => rfl
    | cons c r =>
      have hc := h c (by simp)
      by_cases e : c = '#'
      · subst e; rw [hh] at hc; cases hc
      · simpa using e

/-- every text has exactly one list of lines, so the theorems above say what is returned for every content -/
theorem C42_lines (t : List Char) : ∃! ls, LinesOf t ls := ⟨lines t, linesOf_lines t, fun _ h => linesOf_unique h⟩

/-- the line ends of the other systems list the same paths -/
theorem C42_crlf {s : List Char} (h : '\r' ∉ s) :
    newlines (s.flatMap fun c => if c = '\n' then ['\r', '\n'] else [c]) = newlines s := by
  rw [newlines_crlf h, newlines_plain h]

/-- C42 fails for blank lines: `a.arxml`, an empty line, an indented comment and `b.arxml` give four paths, one of them empty
and one the comment. -/
theorem C42_blank_broken (py : Py) :
    parseArgs py listFs ["@e".toList] = .ok ["a.arxml".toList, [], "# c".toList, "b.arxml".toList] := by
  have s1 : py.strip "a.arxml\n".toList = "a.arxml".toList := by
    have : TrimsTo py "a.arxml\n".toList "a.arxml".toList := by
      refine ⟨[], ['\n'], by simp, by simp [Blank], ?_, ?_, ?_⟩ <;> simp [Blank, py.space_ascii, asciiSpace]
    exact (trimmed_unique this).symm
  have s2 : py.strip "\n".toList = [] := by rw [strip_nil_iff]; simp [Blank, py.space_ascii, asciiSpace]
  have s3 : py.strip "  # c\n".toList = "# c".toList := by
    have : TrimsTo py "  # c\n".toList "# c".toList := by
      refine ⟨[' ', ' '], ['\n'], by simp, ?_, ?_, ?_, ?_⟩ <;> simp [Blank, py.space_ascii, asciiSpace]
    exact (trimmed_unique this).symm
  have s4 : py.strip "b.arxml".toList = "b.arxml".toList := by
    refine (trimmed_unique ⟨[], [], by simp, by simp [Blank], by simp [Blank], ?_, ?_⟩).symm <;>
      simp [py.space_ascii, asciiSpace]
  have hl : (lines (newlines "a.arxml\n\n  # c\nb.arxml".toList)).filter (fun l => !(l.head? == some '#'))
      = ["a.arxml\n".toList, "\n".toList, "  # c\n".toList, "b.arxml".toList] := by decide
  have ht : listFs.text "e".toList = some "a.arxml\n\n  # c\nb.arxml".toList := by decide
  have : textFile py listFs "e".toList = ["a.arxml".toList, [], "# c".toList, "b.arxml".toList] := by
    rw [textFile, ht]; dsimp only; rw [hl]; simp only [List.map_cons, List.map_nil, s1, s2, s3, s4]
  have e : expandArg py listFs "@e".toList = .ok (textFile py listFs "e".toList) := rfl
  simp only [parseArgs, parseFrom, e, this]; rfl

open Classical in
/-- C42 (directories): exactly the files whose name ends in `.arxml`, in the order of the directory walk. -/
theorem C42_directory (fs : Fs) (d : List Char) (hn : ∀ e ∈ fs.walk d, ∀ f ∈ e.2, '\n' ∉ f) :
    dirFiles fs d = (fs.walk d).flatMap fun e => (e.2.filter (ArxmlName ·)).map (joinPath e.1) := by
  unfold dirFiles
  rw [List.flatMap_def, List.flatMap_def]
  congr 1
  apply List.map_congr_left
  intro e he
  congr 1
  apply List.filter_congr
  intro f hf
  rw [Bool.eq_iff_iff, arxmlName_iff (hn e he f hf)]
  simp

/-- C42 (never invents a path): every path returned is an argument, or is in the directory walk of an
argument, or is a trimmed line of a list file. -/
theorem C42_no_invention (py : Py) (fs : Fs) (args ps : List (List Char)) (h : parseArgs py fs args = .ok ps) :
    ∀ p ∈ ps, (p ∈ args ∧ fs.isDir p = false ∧ p.head? ≠ some '@') ∨
      (∃ d ∈ args, fs.isDir d = true ∧ ∃ e ∈ fs.walk d, ∃ f ∈ e.2, arxmlName f = true ∧ p = joinPath e.1 f) ∨
      (∃ f t ls, '@' :: f ∈ args ∧ fs.isDir ('@' :: f) = false ∧ fs.text f = some t ∧ LinesOf (newlines t) ls ∧
        ∃ l ∈ ls, ¬ Comment l ∧ TrimsTo py l p) := by
  have key : ∀ (args acc ps : List (List Char)), parseFrom py fs acc args = .ok ps → ∀ p ∈ ps, p ∈ acc ∨
      ∃ a ∈ args, ∃ l, expandArg py fs a = .ok l ∧ p ∈ l := by
    intro args
    induction args with
    | nil => intro acc ps h p hp; simp only [parseFrom, Except.ok.injEq] at h; subst h; exact .inl hp
    | cons a as ih =>
      intro acc ps h p hp
      rw [parseFrom] at h
      cases he : expandArg py fs a with
      | error e => simp [he] at h
      | ok l =>
        simp only [he] at h
        rcases ih _ _ h p hp with h' | ⟨a', ha', h'⟩
        · rcases List.mem_append.mp h' with h' | h'
          · exact .inl h'
          · exact .inr ⟨a, by simp, l, he, h'⟩
        · exact .inr ⟨a', by simp [ha'], h'⟩
  intro p hp
  rcases key args [] ps h p hp with h' | ⟨a, ha, l, he, hl⟩
  · simp at h'
  · unfold expandArg at he
    by_cases hd : fs.isDir a = true
    · rw [if_pos hd, Except.ok.injEq] at he
      subst he
      right; left
      obtain ⟨e, he, hp'⟩ := List.mem_flatMap.mp hl
      obtain ⟨f, hf, rfl⟩ := List.mem_map.mp hp'
      exact ⟨a, ha, hd, e, he, f, (List.mem_filter.mp hf).1, (List.mem_filter.mp hf).2, rfl⟩
    · rw [if_neg hd] at he
      cases a with
      | nil => simp at he
      | cons c f =>
        dsimp only at he
        by_cases hc : c = '@'
        · rw [if_pos hc, Except.ok.injEq] at he
          subst he; subst hc
          right; right
          unfold textFile at hl
          cases ht : fs.text f with
          | none => simp [ht] at hl
          | some t =>
            simp only [ht] at hl
            obtain ⟨x, hx, rfl⟩ := List.mem_map.mp hl
            refine ⟨f, t, _, ha, by simpa using hd, ht, linesOf_lines _, x, (List.mem_filter.mp hx).1, ?_, trimmed_strip py x⟩
            have := (List.mem_filter.mp hx).2
            exact fun hcm => by simp [(comment_iff x).mpr hcm] at this
        · rw [if_neg hc, Except.ok.injEq] at he
          subst he
          simp only [List.mem_singleton] at hl
          subst hl
          exact .inl ⟨ha, by simpa using hd, by simpa using hc⟩

/-- C42 (order): the paths of the arguments follow one another. -/
theorem C42_order (py : Py) (fs : Fs) (as bs : List (List Char)) :
    parseArgs py fs (as ++ bs) = (do let x ← parseArgs py fs as; let y ← parseArgs py fs bs; pure (x ++ y)) := by
  have key : ∀ (as acc : List (List Char)), parseFrom py fs acc as = (do let x ← parseArgs py fs as; pure (acc ++ x)) := by
    intro as
    induction as with
    | nil => intro acc; simp [parseFrom, parseArgs, bind, Except.bind, pure, Except.pure]
    | cons a as ih =>
      intro acc
      simp only [parseFrom, parseArgs]
      cases he : expandArg py fs a with
      | error e => rfl
      | ok l =>
        simp only
        rw [ih (acc ++ l), ih ([] ++ l)]
        cases parseArgs py fs as with
        | error e => rfl
        | ok x => simp [bind, Except.bind, pure, Except.pure]
  induction as with
  | nil =>
    simp only [List.nil_append]
    cases h : parseArgs py fs bs <;> simp [parseArgs, parseFrom, bind, Except.bind, pure, Except.pure]
  | cons a as ih =>
    rw [List.cons_append, parseArgs, parseArgs, parseFrom, parseFrom]
    cases he : expandArg py fs a with
    | error e => rfl
    | ok l =>
      simp only
      rw [key, key as, ih]
      cases parseArgs py fs as with
      | error e => rfl
      | ok x =>
        cases parseArgs py fs bs with
        | error e => rfl
        | ok y => simp [bind, Except.bind, pure, Except.pure]

/-- C42 (errors): only an empty argument that is not a directory stops the parser; a list file that cannot be
opened adds nothing. -/
theorem C42_total (py : Py) (fs : Fs) (args : List (List Char)) :
    (∃ ps, parseArgs py fs args = .ok ps) ↔ ¬ ([] ∈ args ∧ fs.isDir [] = false) := by
  have key : ∀ (args acc : List (List Char)), (∃ ps, parseFrom py fs acc args = .ok ps) ↔ ¬ ([] ∈ args ∧ fs.isDir [] = false) := by
    intro args
    induction args with
    | nil => intro acc; simp [parseFrom]
    | cons a as ih =>
      intro acc
      rw [parseFrom]
      unfold expandArg
      by_cases hd : fs.isDir a = true
      · simp only [if_pos hd, ih]
        cases a with
        | nil => simp [hd]
        | cons c f => simp
      · simp only [if_neg hd]
        cases a with
        | nil => simp at hd; simp [hd]
        | cons c f =>
          by_cases hc : c = '@' <;> simp [hc, ih]
  exact key args []

/-- The other parser of file arguments (`InputFileParser`) agrees on arguments without `@`. -/
theorem C42_cli_agrees (py : Py) (fs : Fs) (args : List (List Char)) (h : ∀ a ∈ args, a.head? ≠ some '@') :
    cliParse py fs [] args = parseArgs py fs args := by
  have key : ∀ (args acc : List (List Char)), (∀ a ∈ args, a.head? ≠ some '@') → cliParse py fs acc args = parseFrom py fs acc args := by
    intro args
    induction args with
    | nil => intro acc _; rfl
    | cons a as ih =>
      intro acc h
      have e : cliExpandArg py fs a = expandArg py fs a := by
        have ha := h a (by simp)
        unfold cliExpandArg expandArg
        cases a with
        | nil => rfl
        | cons c f =>
          have hc : c ≠ '@' := by simpa using ha
          simp [hc]
      rw [cliParse, parseFrom, e]
      cases expandArg py fs a with
      | error e => rfl
      | ok l => exact ih _ fun a ha => h a (by simp [ha])
  exact key args [] h

/-- It does not skip comments: for every list file, each comment line is returned as a path. -/
theorem C42_cli_comment_broken (py : Py) (fs : Fs) (f t : List Char) (ls : List (List Char)) (ht : fs.text f = some t)
    (hls : LinesOf (newlines t) ls) : ∀ l ∈ ls, Comment l → ∃ ps, cliTextFile py fs f = .ok ps ∧ ∃ p ∈ ps, TrimsTo py l p := by
  intro l hl _
  refine ⟨_, by rw [cliTextFile, ht], py.strip l, List.mem_map.mpr ⟨l, by rw [← linesOf_unique hls]; exact hl, rfl⟩, trimmed_strip py l⟩

/-- the hypotheses are met: a list file with a comment, and no blank line -/
example (py : Py) : ∃ ls, LinesOf (newlines "# c\n a.arxml \r\nb.arxml".toList) ls ∧ (∀ l ∈ ls, ¬ Blank py l) ∧
    (∃ l ∈ ls, Comment l) ∧ ls.length = 3 := by
  refine ⟨_, linesOf_lines _, ?_, ?_, by decide⟩
  · have : lines (newlines "# c\n a.arxml \r\nb.arxml".toList) = ["# c\n".toList, " a.arxml \n".toList, "b.arxml".toList] := by decide
    rw [this]
    have h (c : Char) (hc : c.toNat < 128) (hs : asciiSpace c = false) : py.space c = false := by rw [py.space_ascii c hc, hs]
    intro l hl hb
    simp only [List.mem_cons, List.not_mem_nil, or_false] at hl
    rcases hl with rfl | rfl | rfl
    · have := hb '#' (by simp); rw [h '#' (by decide) (by decide)] at this; cases this
    · have := hb 'a' (by simp); rw [h 'a' (by decide) (by decide)] at this; cases this
    · have := hb 'b' (by simp); rw [h 'b' (by decide) (by decide)] at this; cases this
  · exact ⟨"# c\n".toList, by decide, ⟨" c\n".toList, rfl⟩⟩

/-- a directory with files in two places; `.ARXML` counts, `.txt` does not -/
example (py : Py) : parseArgs py listFs ["d".toList, "x".toList] = .ok ["d/x/q.arxml".toList, "d/P.ARXML".toList, "x".toList] := by rfl

end Verif.Props
