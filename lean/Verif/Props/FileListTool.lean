import Verif.Lemmas.FileListTool
/-!
# C56: the tool that writes lists of files
-/
namespace Verif.Props
open Verif Verif.Model Verif.Spec Verif.Lemmas

/-- C56: a path means one file. -/
theorem C56_means (cwd path : List Char) : ∃! file, Means cwd path file :=
  ⟨_, (means_iff cwd path _).2 rfl, fun _ h => ((means_iff cwd path _).1 h).symm⟩

/-- C56 (relative paths): when no name on the way to a file looks like a comment, has white space at its ends or a line end, and no
path is empty, the list names the same files in the same order, by paths that are not absolute, and both readers of lists give
these paths back. -/
theorem C56_relative_partial (py : Py) (fs : Fs) (real : List Char → List Char) (cwd : List Char) (args l : List (List Char))
    (hl : parseArgs py fs args = .ok l) (he : [] ∉ l) (hp : ∀ p ∈ l, ∀ file, Means cwd p file → ∀ n ∈ file, PlainPath py n) :
    ∃ t ws, fileListTool py fs false real cwd args = .ok t ∧
      List.Forall₂ (fun p w => (∀ file, Means cwd w file ↔ Means cwd p file) ∧ w.head? ≠ some '/') l ws ∧
      ∀ fs' out, fs'.text out = some t → fs'.isDir ('@' :: out) = false →
        parseArgs py fs' ['@' :: out] = .ok ws ∧ cliParse py fs' [] ['@' :: out] = .ok ws := by
  obtain ⟨ws, h1, h2⟩ := listText_ok (absolute := false) (real := real) (cwd := cwd) (.inr he)
  refine ⟨_, ws, by rw [fileListTool, hl]; exact h2, ?_, ?_⟩
  · refine h1.imp ?_
    intro p w h
    have hr : relpath cwd p = .ok w := h
    exact ⟨fun file => by rw [means_iff, means_iff, (relpath_same hr).1], (relpath_same hr).2⟩
  · intro fs' out ht hd
    refine list_read ?_ ht hd
    intro w hw
    obtain ⟨p, hp', h⟩ : ∃ p ∈ l, relpath cwd p = .ok w := by
      clear h2 hl he hp ht
      induction h1 with
      | nil => cases hw
      | @cons p w' l ws h _ ih =>
        rcases List.mem_cons.1 hw with rfl | hw
        · exact ⟨p, by simp, h⟩
        · obtain ⟨p, h1, h2⟩ := ih hw; exact ⟨p, by simp [h1], h2⟩
    exact relpath_plain h fun n hn => hp p hp' _ ((means_iff cwd p _).2 rfl) n hn

/-- C56 (absolute paths): the list has the real paths of the files, in order; when these are plain, both readers of lists give
them back. -/
theorem C56_absolute_partial (py : Py) (fs : Fs) (real : List Char → List Char) (cwd : List Char) (args l : List (List Char))
    (hl : parseArgs py fs args = .ok l) (hp : ∀ p ∈ l, PlainPath py (real p)) :
    ∃ t, fileListTool py fs true real cwd args = .ok t ∧
      ∀ fs' out, fs'.text out = some t → fs'.isDir ('@' :: out) = false →
        parseArgs py fs' ['@' :: out] = .ok (l.map real) ∧ cliParse py fs' [] ['@' :: out] = .ok (l.map real) := by
  obtain ⟨ws, h1, h2⟩ := listText_ok (absolute := true) (real := real) (cwd := cwd) (l := l) (.inl rfl)
  have hw : ws = l.map real := by
    clear h2 hl hp
    induction h1 with
    | nil => rfl
    | cons h _ ih =>
      have : real _ = _ := Except.ok.inj h
      rw [List.map_cons, this, ih]
  subst hw
  refine ⟨_, by rw [fileListTool, hl]; exact h2, fun fs' out ht hd => list_read ?_ ht hd⟩
  intro w hw
  obtain ⟨p, h, rfl⟩ := List.mem_map.1 hw
  exact hp p h

/-- C56: exactly the empty path cannot be written as a relative path. -/
theorem C56_total (py : Py) (fs : Fs) (real : List Char → List Char) (cwd : List Char) (args l : List (List Char))
    (hl : parseArgs py fs args = .ok l) : (∃ t, fileListTool py fs false real cwd args = .ok t) ↔ [] ∉ l := by
  rw [fileListTool, hl]
  constructor
  · rintro ⟨t, h⟩ he
    have h : listText false real cwd l = .ok t := h
    rw [listText_error he] at h
    cases h
  · intro he
    obtain ⟨ws, _, h⟩ := listText_ok (absolute := false) (real := real) (cwd := cwd) (.inr he)
    exact ⟨_, h⟩

/-- the file system of the examples: a directory with two files, and a list with a blank line -/
private def toolFs : Fs where
  isDir d := d == "../d".toList
  text f := if f == "l".toList then some "a.arxml\n\n".toList else none
  walk d := if d == "../d".toList then [("../d".toList, ["q.arxml".toList]), ("../d/../h".toList, ["n.arxml".toList])] else []

private theorem tool_args (py : Py) : parseArgs py toolFs ["../d".toList, "./b.arxml".toList] =
    .ok ["../d/q.arxml".toList, "../d/../h/n.arxml".toList, "./b.arxml".toList] := by rfl

private theorem plain_of (py : Py) {n : List Char} (h : n.all (fun c => c.toNat < 128 && !asciiSpace c && c != '#') = true) (hn : n ≠ []) :
    PlainPath py n := by
  have hc : ∀ c ∈ n, py.space c = false ∧ c ≠ '#' ∧ c ≠ '\n' ∧ c ≠ '\r' := by
    intro c hc
    have := List.all_eq_true.1 h c hc
    simp only [Bool.and_eq_true, decide_eq_true_eq, Bool.not_eq_true', bne_iff_ne, ne_eq] at this
    refine ⟨by rw [py.space_ascii c this.1.1]; exact this.1.2, this.2, ?_, ?_⟩
    · rintro rfl; exact absurd this.1.2 (by decide)
    · rintro rfl; exact absurd this.1.2 (by decide)
  refine ⟨hn, fun h => (hc _ h).2.2.1 rfl, fun h => (hc _ h).2.2.2 rfl, fun h => (hc _ (List.mem_of_head? h)).2.1 rfl, ?_, ?_⟩
  · exact fun c h => (hc c (List.mem_of_head? h)).1
  · exact fun c h => (hc c (List.mem_of_getLast? h)).1

/-- the theorem applies to the sample; this is what is written -/
example (py : Py) (real : List Char → List Char) :
    [] ∉ ["../d/q.arxml".toList, "../d/../h/n.arxml".toList, "./b.arxml".toList] ∧
    (∀ p ∈ ["../d/q.arxml".toList, "../d/../h/n.arxml".toList, "./b.arxml".toList], ∀ file, Means "/h/u".toList p file →
      ∀ n ∈ file, PlainPath py n) ∧
    fileListTool py toolFs false real "/h/u".toList ["../d".toList, "./b.arxml".toList] =
      .ok "../d/q.arxml\n../h/n.arxml\nb.arxml\n".toList := by
  refine ⟨by decide, ?_, ?_⟩
  · intro p hp file hm n hn
    rw [means_iff] at hm
    subst hm
    have : ∀ p ∈ ["../d/q.arxml".toList, "../d/../h/n.arxml".toList, "./b.arxml".toList], ∀ n ∈ absParts "/h/u".toList p,
        n.all (fun c => c.toNat < 128 && !asciiSpace c && c != '#') = true ∧ n ≠ [] := by decide +kernel
    exact plain_of py (this p hp n hn).1 (this p hp n hn).2
  · rw [fileListTool, tool_args]
    have : ∀ p, writtenPath false real "/h/u".toList p = relpath "/h/u".toList p := fun _ => rfl
    simp only [listText, this]
    decide +kernel

/-- C56 fails for a name that looks like a comment: the reader drops the line. -/
theorem C56_comment_broken (py : Py) (real : List Char → List Char) : ∃ fs args l t, parseArgs py fs args = .ok l ∧ l ≠ [] ∧
    fileListTool py fs false real "/h".toList args = .ok t ∧
      ∀ fs' out, fs'.text out = some t → fs'.isDir ('@' :: out) = false → parseArgs py fs' ['@' :: out] = .ok [] := by
  refine ⟨toolFs, ["#1.arxml".toList], ["#1.arxml".toList], "#1.arxml\n".toList, rfl, by simp, ?_, ?_⟩
  · have : parseArgs py toolFs ["#1.arxml".toList] = .ok ["#1.arxml".toList] := rfl
    rw [fileListTool, this]
    have : ∀ p, writtenPath false real "/h".toList p = relpath "/h".toList p := fun _ => rfl
    simp only [listText, this]
    decide +kernel
  · intro fs' out ht hd
    rw [parseArgs, parseFrom, expandArg, if_neg (by simp [hd]), if_pos rfl, textFile, ht]
    rfl

/-- A list file with a blank line makes the tool fail (the blank line is read as the empty path, see C42). -/
theorem C56_blank_broken (py : Py) (real : List Char → List Char) (cwd : List Char) :
    ∃ fs args l, parseArgs py fs args = .ok l ∧ fileListTool py fs false real cwd args = .error .valueError := by
  have s2 : py.strip "\n".toList = [] := by rw [strip_nil_iff]; simp [Blank, py.space_ascii, asciiSpace]
  have hl : (lines (newlines "a.arxml\n\n".toList)).filter (fun l => !(l.head? == some '#')) = ["a.arxml\n".toList, "\n".toList] := by decide
  have e : expandArg py toolFs "@l".toList = .ok (textFile py toolFs "l".toList) := rfl
  have ht : toolFs.text "l".toList = some "a.arxml\n\n".toList := by decide
  have h : parseArgs py toolFs ["@l".toList] = .ok [py.strip "a.arxml\n".toList, []] := by
    rw [parseArgs, parseFrom, e, textFile, ht]
    dsimp only
    rw [hl, List.map_cons, List.map_cons, s2]
    rfl
  refine ⟨toolFs, ["@l".toList], _, h, ?_⟩
  rw [fileListTool, h]
  exact listText_error (by simp)

/-- C42 (directories): the path made for a file found in a directory leads to that file in that directory, and has no doubled slash. -/
theorem C42_join (cwd root file : List Char) (d : List (List Char)) (h : Means cwd root d)
    (h1 : file ≠ []) (h2 : file ≠ ".".toList) (h3 : file ≠ "..".toList) (h4 : '/' ∉ file) :
    Means cwd (joinPath root file) (d ++ [file]) ∧ (¬ "//".toList <:+: root → ¬ "//".toList <:+: joinPath root file) := by
  rw [means_iff] at h ⊢
  subst h
  have hp : pathParts file = [file] := by
    have h2' : file ≠ ['.'] := h2
    rw [pathParts, splitSlash_plain h4]; simp [h1, h2']
  have hf : file.head? ≠ some '/' := fun h => h4 (List.mem_of_head? h)
  have h3' : file ≠ ['.', '.'] := h3
  constructor
  · by_cases hr : root.head? = some '/'
    · have hj : (joinPath root file).head? = some '/' := by
        cases root with
        | nil => cases hr
        | cons c r =>
          unfold joinPath
          split
          · exact hr
          · exact hr
      unfold absParts
      rw [if_pos hr, if_pos hj, pathParts_join, hp, List.foldl_append, List.foldl_cons, List.foldl_nil, pushPart, if_neg h3']
    · have hj : (joinPath root file).head? ≠ some '/' := by
        unfold joinPath
        cases root with
        | nil => simpa using hf
        | cons c r =>
          split
          · exact hr
          · exact hr
      unfold absParts
      rw [if_neg hr, if_neg hj, pathParts_join, pathParts_join, hp, pathParts_join, List.foldl_append, List.foldl_append, List.foldl_append,
        List.foldl_cons, List.foldl_nil, pushPart, if_neg h3']
  · intro hroot hj
    obtain ⟨a, b, e⟩ := hj
    have key : ∀ (a b r f : List Char), '/' ∉ f → r.getLast? ≠ some '/' ∨ f = [] → ¬ "//".toList <:+: r →
        a ++ "//".toList ++ b = r ++ f → False := by
      intro a b r f hf hr hn e
      rcases List.append_eq_append_iff.1 e with ⟨x, e1, e2⟩ | ⟨x, e1, e2⟩
      · exact hn ⟨a, x, e1.symm⟩
      · rcases List.append_eq_append_iff.1 e1 with ⟨y, e3, e4⟩ | ⟨y, e3, e4⟩
        · cases y with
          | nil =>
            simp only [List.nil_append] at e4
            subst e4
            exact hf (by rw [e2]; simp)
          | cons c y =>
            have : '/' = c ∧ "/".toList = y ++ x := by simpa using e4
            obtain ⟨rfl, e5⟩ := this
            cases y with
            | nil =>
              rcases hr with hr | hr
              · exact hr (by rw [e3]; simp)
              · rw [hr] at e2
                simp only [List.nil_append] at e5
                rw [← e5] at e2
                cases e2
            | cons c' y =>
              have : '/' = c' ∧ [] = y ++ x := by simpa using e5
              obtain ⟨rfl, e6⟩ := this
              have := List.append_eq_nil_iff.1 e6.symm
              exact hn ⟨a, [], by rw [e3, this.1]; simp⟩
        · exact hf (by rw [e2, e4]; simp)
    unfold joinPath at e
    by_cases hr : root = [] ∨ root.getLast? = some '/'
    · rw [if_pos hr] at e
      rcases hr with hr | hr
      · subst hr; exact key a b [] file h4 (.inl (by simp)) (by rintro ⟨a, b, h⟩; simp at h) e
      · obtain ⟨r, rfl⟩ := List.getLast?_eq_some_iff.1 hr
        rcases List.append_eq_append_iff.1 e with ⟨x, e1, e2⟩ | ⟨x, e1, e2⟩
        · exact hroot ⟨a, x, e1.symm⟩
        · cases x with
          | nil => exact hroot ⟨a, [], by simpa using e1⟩
          | cons c x =>
            have hlast := congrArg List.getLast? e1
            rw [List.getLast?_append_of_ne_nil _ (by simp), List.getLast?_append_of_ne_nil _ (by simp)] at hlast
            have hc : '/' ∈ c :: x := List.mem_of_getLast? (hlast.symm.trans (by decide))
            exact h4 (by rw [e2]; exact List.mem_append_left _ hc)
    · simp only [not_or] at hr
      rw [if_neg (by simp [hr.1, hr.2])] at e
      have e' : a ++ "//".toList ++ b = (root ++ ['/']) ++ file := by rw [e]; simp
      rcases List.append_eq_append_iff.1 e' with ⟨x, e1, e2⟩ | ⟨x, e1, e2⟩
      · rcases List.eq_nil_or_concat x with rfl | ⟨x, c, rfl⟩
        · rw [List.append_nil] at e1
          have : root = a ++ ['/'] := by
            have := congrArg List.dropLast e1
            simpa using this
          exact hr.2 (by rw [this]; simp)
        · have : root = a ++ "//".toList ++ x := by
            have := congrArg List.dropLast e1
            rw [List.concat_eq_append, ← List.append_assoc, List.dropLast_concat, List.dropLast_concat] at this
            exact this
          exact hroot ⟨a, x, this.symm⟩
      · cases x with
        | nil =>
          rw [List.append_nil] at e1
          have : root = a ++ ['/'] := by
            have := congrArg List.dropLast e1
            simpa using this.symm
          exact hr.2 (by rw [this]; simp)
        | cons c x =>
          have hlast := congrArg List.getLast? e1
          rw [List.getLast?_append_of_ne_nil _ (by simp), List.getLast?_append_of_ne_nil _ (by simp)] at hlast
          have hc : '/' ∈ c :: x := List.mem_of_getLast? (hlast.symm.trans (by decide))
          exact h4 (by rw [e2]; exact List.mem_append_left _ hc)

example : Means "/h".toList "d/".toList ["h".toList, "d".toList] ∧ ¬ "//".toList <:+: "d/".toList ∧ joinPath "d/".toList "a".toList = "d/a".toList :=
  ⟨(means_iff _ _ _).2 (by decide +kernel), by decide, by decide⟩

/-- The other reader of lists stops at a list file that cannot be opened (the first one goes on, `C42_total`). -/
theorem C42_cli_missing (py : Py) (fs : Fs) (f : List Char) (h : fs.text f = none) (hd : fs.isDir ('@' :: f) = false) (before after acc : List (List Char)) :
    ∃ e, cliParse py fs acc (before ++ ('@' :: f) :: after) = .error e := by
  induction before generalizing acc with
  | nil =>
    rw [List.nil_append, cliParse, cliExpandArg, if_neg (by simp [hd]), if_pos rfl, cliTextFile, h]
    exact ⟨_, rfl⟩
  | cons a r ih =>
    rw [List.cons_append, cliParse]
    cases cliExpandArg py fs a with
    | error e => exact ⟨e, rfl⟩
    | ok l => exact ih _

example : toolFs.text "none".toList = none ∧ toolFs.isDir "@none".toList = false := by decide

end Verif.Props
