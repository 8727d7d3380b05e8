import Mathlib.Data.List.Forall2
import Verif.Spec.FileListTool
import Verif.Lemmas.FileList
/-!
# Paths and lists of files
-/
namespace Verif.Lemmas
open Verif.Model Verif.Spec

theorem splitSlash_ne (s : List Char) : splitSlash s ≠ [] := by
  cases s with
  | nil => simp [splitSlash]
  | cons c s =>
    rw [splitSlash]
    split
    · simp
    · split <;> simp

theorem splitSlash_sep (a b : List Char) : splitSlash (a ++ '/' :: b) = splitSlash a ++ splitSlash b := by
  induction a with
  | nil => simp [splitSlash]
  | cons c a ih =>
    rw [List.cons_append, splitSlash, splitSlash, ih]
    by_cases hc : c = '/'
    · rw [if_pos hc, if_pos hc, List.cons_append]
    · rw [if_neg hc, if_neg hc]
      cases h : splitSlash a with
      | nil => exact absurd h (splitSlash_ne a)
      | cons l r => rfl

theorem splitSlash_plain {a : List Char} (h : '/' ∉ a) : splitSlash a = [a] := by
  induction a with
  | nil => rfl
  | cons c a ih =>
    simp only [List.mem_cons, not_or] at h
    rw [splitSlash, if_neg (Ne.symm h.1), ih h.2]

theorem splitSlash_mem (s : List Char) : ∀ n ∈ splitSlash s, '/' ∉ n := by
  induction s with
  | nil => simp [splitSlash]
  | cons c s ih =>
    rw [splitSlash]
    by_cases hc : c = '/'
    · rw [if_pos hc]
      intro n hn
      rcases List.mem_cons.1 hn with rfl | hn
      · simp
      · exact ih n hn
    · rw [if_neg hc]
      cases h : splitSlash s with
      | nil => exact absurd h (splitSlash_ne s)
      | cons l r =>
        rw [h] at ih
        intro n hn
        rcases List.mem_cons.1 hn with rfl | hn
        · simpa using ⟨Ne.symm hc, ih l (by simp)⟩
        · exact ih n (by simp [hn])

theorem joinSlash_cons (l : List Char) {r : List (List Char)} (h : r ≠ []) : joinSlash (l :: r) = l ++ '/' :: joinSlash r := by
  cases r with
  | nil => exact absurd rfl h
  | cons x r => rfl

theorem joinSlash_split (s : List Char) : joinSlash (splitSlash s) = s := by
  induction s with
  | nil => rfl
  | cons c s ih =>
    rw [splitSlash]
    by_cases hc : c = '/'
    · rw [if_pos hc, joinSlash_cons _ (splitSlash_ne s), ih, hc]; rfl
    · rw [if_neg hc]
      cases h : splitSlash s with
      | nil => exact absurd h (splitSlash_ne s)
      | cons l r =>
        rw [h] at ih
        cases r with
        | nil => rw [← ih]; rfl
        | cons x r => rw [← ih]; rfl

theorem splitSlash_join {l : List (List Char)} (h : l ≠ []) (hn : ∀ n ∈ l, '/' ∉ n) : splitSlash (joinSlash l) = l := by
  induction l with
  | nil => exact absurd rfl h
  | cons x l ih =>
    cases l with
    | nil => exact splitSlash_plain (hn x (by simp))
    | cons y l =>
      rw [joinSlash_cons _ (by simp), splitSlash_sep, splitSlash_plain (hn x (by simp)), ih (by simp) fun n h => hn n (by simp [h])]
      rfl

theorem names_iff (path : List Char) (ns : List (List Char)) : Names path ns ↔ splitSlash path = ns := by
  constructor
  · rintro ⟨h1, rfl, h2⟩; exact splitSlash_join h1 h2
  · rintro rfl; exact ⟨splitSlash_ne _, (joinSlash_split _).symm, splitSlash_mem _⟩

theorem pathParts_join (root file : List Char) : pathParts (joinPath root file) = pathParts root ++ pathParts file := by
  unfold joinPath pathParts
  by_cases h : root = []
  · subst h; simp [splitSlash]
  · by_cases hl : root.getLast? = some '/'
    · rw [if_pos (.inr hl)]
      obtain ⟨r, rfl⟩ := List.getLast?_eq_some_iff.1 hl
      rw [List.append_assoc, List.singleton_append, splitSlash_sep, splitSlash_sep]
      simp [splitSlash]
    · rw [if_neg (by simp [h, hl]), splitSlash_sep, List.filter_append]

/-- where a list of names leads -/
theorem leads_iff (ns d e : List (List Char)) :
    Leads d ns e ↔ (ns.filter fun x => x != [] && x != ['.']).foldl pushPart d = e := by
  constructor
  · intro h
    induction h with
    | stop d => rfl
    | @stay d x r e hx _ ih =>
      rw [List.filter_cons_of_neg]
      · exact ih
      · rcases hx with rfl | rfl <;> simp
    | @up d x r e _ ih =>
      rw [List.filter_cons_of_pos (by decide), List.foldl_cons]
      simpa [pushPart] using ih
    | @top r e _ ih =>
      rw [List.filter_cons_of_pos (by decide), List.foldl_cons]
      simpa [pushPart] using ih
    | @down d x r e h1 h2 h3 _ ih =>
      have h2' : x ≠ ['.'] := h2
      have h3' : x ≠ ['.', '.'] := h3
      rw [List.filter_cons_of_pos (by simp [h1, h2']), List.foldl_cons, pushPart, if_neg h3']
      exact ih
  · rintro rfl
    induction ns generalizing d with
    | nil => exact .stop d
    | cons x r ih =>
      by_cases h1 : x = []
      · rw [List.filter_cons_of_neg (by simp [h1])]; exact .stay (.inl h1) (ih d)
      · by_cases h2 : x = ['.']
        · rw [List.filter_cons_of_neg (by simp [h2])]; exact .stay (.inr h2) (ih d)
        · rw [List.filter_cons_of_pos (by simp [h1, h2]), List.foldl_cons]
          by_cases h3 : x = ['.', '.']
          · rw [pushPart, if_pos h3]
            subst h3
            rcases List.eq_nil_or_concat d with rfl | ⟨d, y, rfl⟩
            · exact .top (ih _)
            · rw [List.concat_eq_append, List.dropLast_concat]
              exact .up (ih d)
          · rw [pushPart, if_neg h3]
            exact .down h1 h2 h3 (ih _)

theorem means_iff (cwd path : List Char) (file : List (List Char)) : Means cwd path file ↔ absParts cwd path = file := by
  unfold Means absParts
  constructor
  · rintro ⟨d, ns, cs, h1, h2, h3, h4⟩
    rw [names_iff] at h1 h3
    subst h1 h3
    rw [leads_iff] at h2 h4
    by_cases hp : path.head? = some '/'
    · rw [if_pos hp] at h4 ⊢; exact h4
    · rw [if_neg hp] at h4 ⊢
      rw [pathParts_join, List.foldl_append]
      unfold pathParts
      rw [h2, h4]
  · rintro rfl
    refine ⟨_, _, _, (names_iff _ _).2 rfl, (leads_iff _ _ _).2 rfl, (names_iff _ _).2 rfl, (leads_iff _ _ _).2 ?_⟩
    by_cases hp : path.head? = some '/'
    · rw [if_pos hp, if_pos hp]; rfl
    · rw [if_neg hp, if_neg hp, pathParts_join, List.foldl_append]; rfl

/-- a name of a file or directory -/
def FileName (n : List Char) : Prop := n ≠ [] ∧ n ≠ ['.'] ∧ n ≠ ['.', '.'] ∧ '/' ∉ n

theorem pathParts_mem {s n : List Char} (h : n ∈ pathParts s) : n ≠ [] ∧ n ≠ ['.'] ∧ '/' ∉ n := by
  unfold pathParts at h
  rw [List.mem_filter] at h
  refine ⟨by rintro rfl; simp at h, by rintro rfl; simp at h, splitSlash_mem s n h.1⟩

theorem foldl_names {l st : List (List Char)} (hs : ∀ n ∈ st, FileName n) (h : ∀ n ∈ l, n ≠ [] ∧ n ≠ ['.'] ∧ '/' ∉ n) :
    ∀ n ∈ l.foldl pushPart st, FileName n := by
  induction l generalizing st with
  | nil => exact hs
  | cons x l ih =>
    rw [List.foldl_cons]
    refine ih ?_ fun n hn => h n (by simp [hn])
    obtain ⟨h1, h2, h3⟩ := h x (by simp)
    unfold pushPart
    split
    · exact fun n hn => hs n (List.dropLast_subset _ hn)
    · rename_i hx
      intro n hn
      rcases List.mem_append.1 hn with hn | hn
      · exact hs n hn
      · rw [List.mem_singleton] at hn; subst hn; exact ⟨h1, h2, hx, h3⟩

theorem absParts_names (cwd path : List Char) : ∀ n ∈ absParts cwd path, FileName n :=
  foldl_names (by simp) fun _ hn => pathParts_mem hn

theorem foldl_push {l st : List (List Char)} (h : ∀ n ∈ l, FileName n) : l.foldl pushPart st = st ++ l := by
  induction l generalizing st with
  | nil => simp
  | cons x l ih =>
    rw [List.foldl_cons, pushPart, if_neg (h x (by simp)).2.2.1, ih fun n hn => h n (by simp [hn])]
    simp

theorem foldl_up (k : Nat) (st : List (List Char)) :
    (List.replicate k ['.', '.']).foldl pushPart st = st.take (st.length - k) := by
  induction k generalizing st with
  | zero => simp
  | succ k ih =>
    rw [List.replicate_succ, List.foldl_cons, ih, pushPart, if_pos rfl, List.length_dropLast, List.dropLast_eq_take, List.take_take]
    congr 1
    omega

theorem commonLen_le (a b : List (List Char)) : commonLen a b ≤ a.length ∧ commonLen a b ≤ b.length := by
  induction a generalizing b with
  | nil => simp [commonLen]
  | cons x a ih =>
    cases b with
    | nil => simp [commonLen]
    | cons y b =>
      rw [commonLen]
      split
      · have := ih b; simp only [List.length_cons]; omega
      · simp

theorem commonLen_take (a b : List (List Char)) : a.take (commonLen a b) = b.take (commonLen a b) := by
  induction a generalizing b with
  | nil => simp [commonLen]
  | cons x a ih =>
    cases b with
    | nil => simp [commonLen]
    | cons y b =>
      rw [commonLen]
      split
      · rename_i h; subst h; simp [ih b]
      · simp

/-- the names in a relative path -/
def relParts (cwd path : List Char) : List (List Char) :=
  List.replicate ((absParts cwd []).length - commonLen (absParts cwd []) (absParts cwd path)) ['.', '.'] ++
    (absParts cwd path).drop (commonLen (absParts cwd []) (absParts cwd path))

theorem relpath_eq (cwd : List Char) {path : List Char} (h : path ≠ []) :
    relpath cwd path = .ok (if relParts cwd path = [] then ['.'] else joinSlash (relParts cwd path)) := by
  unfold relpath
  rw [if_neg h]
  rfl

theorem relParts_mem {cwd path n : List Char} (h : n ∈ relParts cwd path) : n = ['.', '.'] ∨ n ∈ absParts cwd path := by
  rcases List.mem_append.1 h with h | h
  · exact .inl (List.eq_of_mem_replicate h)
  · exact .inr (List.mem_of_mem_drop h)

theorem relParts_name {cwd path n : List Char} (h : n ∈ relParts cwd path) : n ≠ [] ∧ n ≠ ['.'] ∧ '/' ∉ n := by
  rcases relParts_mem h with rfl | h
  · decide
  · have := absParts_names cwd path n h; exact ⟨this.1, this.2.1, this.2.2.2⟩

theorem relParts_leads (cwd path : List Char) : (relParts cwd path).foldl pushPart (absParts cwd []) = absParts cwd path := by
  have hle := commonLen_le (absParts cwd []) (absParts cwd path)
  rw [relParts, List.foldl_append, foldl_up, foldl_push fun n hn => absParts_names cwd path n (List.mem_of_mem_drop hn)]
  have : (absParts cwd []).length - ((absParts cwd []).length - commonLen (absParts cwd []) (absParts cwd path)) =
      commonLen (absParts cwd []) (absParts cwd path) := by omega
  rw [this, commonLen_take, List.take_append_drop]

theorem absParts_rel (cwd : List Char) {path : List Char} (h : path.head? ≠ some '/') :
    absParts cwd path = (pathParts path).foldl pushPart (absParts cwd []) := by
  unfold absParts
  rw [if_neg h, if_neg (by simp), pathParts_join, pathParts_join, List.foldl_append, List.foldl_append]
  rfl

theorem head_joinSlash {l : List (List Char)} (h : l ≠ []) (hn : ∀ n ∈ l, n ≠ []) : ∃ n ∈ l, (joinSlash l).head? = n.head? := by
  cases l with
  | nil => exact absurd rfl h
  | cons x l =>
    refine ⟨x, by simp, ?_⟩
    cases l with
    | nil => rfl
    | cons y l =>
      rw [joinSlash_cons _ (by simp)]
      cases x with
      | nil => exact absurd rfl (hn [] (by simp))
      | cons c x => rfl

theorem last_joinSlash {l : List (List Char)} (h : l ≠ []) (hn : ∀ n ∈ l, n ≠ []) : ∃ n ∈ l, (joinSlash l).getLast? = n.getLast? := by
  induction l with
  | nil => exact absurd rfl h
  | cons x l ih =>
    cases l with
    | nil => exact ⟨x, by simp, rfl⟩
    | cons y l =>
      obtain ⟨n, h1, h2⟩ := ih (by simp) fun n hn' => hn n (by simp [hn'])
      refine ⟨n, by simp [h1], ?_⟩
      have hne : n ≠ [] := hn n (by simp [h1])
      rw [joinSlash_cons _ (by simp), ← List.singleton_append, ← List.append_assoc]
      cases hj : joinSlash (y :: l) with
      | nil =>
        rw [hj] at h2
        cases n with
        | nil => exact absurd rfl hne
        | cons c n => simp [List.getLast?_cons] at h2
      | cons c j =>
        rw [List.getLast?_append_of_ne_nil _ (by simp), ← hj, h2]

theorem mem_joinSlash {l : List (List Char)} {c : Char} (h : c ∈ joinSlash l) : c = '/' ∨ ∃ n ∈ l, c ∈ n := by
  induction l with
  | nil => simp [joinSlash] at h
  | cons x l ih =>
    cases l with
    | nil => exact .inr ⟨x, by simp, h⟩
    | cons y l =>
      rw [joinSlash_cons _ (by simp)] at h
      rcases List.mem_append.1 h with h | h
      · exact .inr ⟨x, by simp, h⟩
      · rcases List.mem_cons.1 h with h | h
        · exact .inl h
        · rcases ih h with h | ⟨n, h1, h2⟩
          · exact .inl h
          · exact .inr ⟨n, by simp [h1], h2⟩

/-- a relative path leads to the file the path it was made of leads to -/
theorem relpath_same {cwd path w : List Char} (h : relpath cwd path = .ok w) : absParts cwd w = absParts cwd path ∧ w.head? ≠ some '/' := by
  by_cases hp : path = []
  · rw [relpath, if_pos hp] at h; cases h
  rw [relpath_eq cwd hp, Except.ok.injEq] at h
  by_cases hr : relParts cwd path = []
  · rw [if_pos hr] at h
    subst h
    refine ⟨?_, by decide⟩
    have := relParts_leads cwd path
    rw [hr] at this
    rw [absParts_rel cwd (by decide), ← this]
    rfl
  · rw [if_neg hr] at h
    subst h
    have hh : (joinSlash (relParts cwd path)).head? ≠ some '/' := by
      obtain ⟨n, h1, h2⟩ := head_joinSlash hr fun n hn => (relParts_name hn).1
      rw [h2]
      intro h
      exact (relParts_name h1).2.2 (List.mem_of_head? h)
    refine ⟨?_, hh⟩
    rw [absParts_rel cwd hh, pathParts, splitSlash_join hr fun n hn => (relParts_name hn).2.2, List.filter_eq_self.2, relParts_leads]
    intro n hn
    simp [(relParts_name hn).1, (relParts_name hn).2.1]

theorem plain_dots (py : Py) {p : List Char} (h : p = ['.'] ∨ p = ['.', '.']) : PlainPath py p := by
  have hd : py.space '.' = false := by rw [py.space_ascii '.' (by decide)]; decide
  rcases h with rfl | rfl
  all_goals
    refine ⟨by decide, by decide, by decide, by decide, ?_, ?_⟩
    all_goals
      intro c hc
      simp at hc
      subst hc
      exact hd

theorem relpath_plain {py : Py} {cwd path w : List Char} (h : relpath cwd path = .ok w) (hp : ∀ n ∈ absParts cwd path, PlainPath py n) :
    PlainPath py w := by
  by_cases he : path = []
  · rw [relpath, if_pos he] at h; cases h
  rw [relpath_eq cwd he, Except.ok.injEq] at h
  by_cases hr : relParts cwd path = []
  · rw [if_pos hr] at h
    subst h
    exact plain_dots py (.inl rfl)
  · rw [if_neg hr] at h
    subst h
    have hn : ∀ n ∈ relParts cwd path, PlainPath py n := by
      intro n hn
      rcases relParts_mem hn with rfl | hn
      · exact plain_dots py (.inr rfl)
      · exact hp n hn
    obtain ⟨n, h1, h2⟩ := head_joinSlash hr fun n hn => (relParts_name hn).1
    obtain ⟨m, h3, h4⟩ := last_joinSlash hr fun n hn => (relParts_name hn).1
    refine ⟨?_, ?_, ?_, ?_, ?_, ?_⟩
    · intro e
      rw [e] at h2
      cases hnn : n with
      | nil => exact (relParts_name h1).1 hnn
      | cons c r => rw [hnn] at h2; cases h2
    · intro hc
      rcases mem_joinSlash hc with h | ⟨n, h5, h6⟩
      · exact absurd h (by decide)
      · exact (hn n h5).2.1 h6
    · intro hc
      rcases mem_joinSlash hc with h | ⟨n, h5, h6⟩
      · exact absurd h (by decide)
      · exact (hn n h5).2.2.1 h6
    · rw [h2]; exact (hn n h1).2.2.2.1
    · rw [h2]; exact (hn n h1).2.2.2.2.1
    · rw [h4]; exact (hn m h3).2.2.2.2.2

theorem listText_ok {absolute : Bool} {real : List Char → List Char} {cwd : List Char} {l : List (List Char)}
    (h : absolute = true ∨ [] ∉ l) : ∃ ws, List.Forall₂ (fun p w => writtenPath absolute real cwd p = .ok w) l ws ∧
      listText absolute real cwd l = .ok (ws.flatMap fun w => w ++ ['\n']) := by
  induction l with
  | nil => exact ⟨[], .nil, rfl⟩
  | cons p l ih =>
    have hw : ∃ w, writtenPath absolute real cwd p = .ok w := by
      unfold writtenPath
      cases absolute with
      | true => exact ⟨_, rfl⟩
      | false =>
        have hp : p ≠ [] := by
          rcases h with h | h
          · cases h
          · rintro rfl; simp at h
        exact ⟨_, relpath_eq cwd hp⟩
    obtain ⟨w, hw⟩ := hw
    obtain ⟨ws, h1, h2⟩ := ih (h.imp id fun h => by simp only [List.mem_cons, not_or] at h; exact h.2)
    exact ⟨w :: ws, .cons hw h1, by rw [listText, hw, h2]; simp⟩

theorem listText_error {real : List Char → List Char} {cwd : List Char} {l : List (List Char)} (h : [] ∈ l) :
    listText false real cwd l = .error .valueError := by
  induction l with
  | nil => cases h
  | cons p l ih =>
    rw [listText]
    by_cases hp : p = []
    · subst hp; rfl
    · have : writtenPath false real cwd p = .ok (if relParts cwd p = [] then ['.'] else joinSlash (relParts cwd p)) := relpath_eq cwd hp
      rw [this, ih (by rcases List.mem_cons.1 h with h | h; exact absurd h.symm hp; exact h)]

theorem lines_written {ws : List (List Char)} (h : ∀ w ∈ ws, '\n' ∉ w) : lines (ws.flatMap fun w => w ++ ['\n']) = ws.map (· ++ ['\n']) := by
  refine (linesOf_unique ⟨List.flatMap_def.symm, ?_, ?_⟩).symm
  · intro l hl
    obtain ⟨w, hw, rfl⟩ := List.mem_map.1 hl
    exact ⟨by simp, by simpa using h w hw⟩
  · intro l hl
    obtain ⟨w, hw, rfl⟩ := List.mem_map.1 (List.dropLast_subset _ hl)
    simp

/-- a list of plain paths is read as it was written -/
theorem written_read {py : Py} {ws : List (List Char)} (h : ∀ w ∈ ws, PlainPath py w) :
    ((lines (newlines (ws.flatMap fun w => w ++ ['\n']))).filter fun l => !(l.head? == some '#')) = ws.map (· ++ ['\n']) ∧
      (lines (newlines (ws.flatMap fun w => w ++ ['\n']))).map py.strip = ws ∧ (ws.map (· ++ ['\n'])).map py.strip = ws := by
  have hn : newlines (ws.flatMap fun w => w ++ ['\n']) = ws.flatMap fun w => w ++ ['\n'] := by
    refine newlines_plain ?_
    intro hc
    obtain ⟨w, hw, hc⟩ := List.mem_flatMap.1 hc
    rcases List.mem_append.1 hc with hc | hc
    · exact (h w hw).2.2.1 hc
    · exact absurd hc (by decide)
  have hs : (ws.map (· ++ ['\n'])).map py.strip = ws := by
    rw [List.map_map]
    refine (List.map_congr_left (g := id) ?_).trans (List.map_id _)
    intro w hw
    have : TrimsTo py (w ++ ['\n']) w := by
      refine ⟨[], ['\n'], by simp, by simp [Blank], ?_, (h w hw).2.2.2.2⟩
      intro c hc
      rw [List.mem_singleton] at hc
      subst hc
      rw [py.space_ascii '\n' (by decide)]; decide
    exact (trimmed_unique this).symm
  rw [hn, lines_written fun w hw => (h w hw).2.1]
  refine ⟨?_, hs, hs⟩
  rw [List.filter_eq_self]
  intro l hl
  obtain ⟨w, hw, rfl⟩ := List.mem_map.1 hl
  obtain ⟨h1, _, _, h4, _⟩ := h w hw
  cases w with
  | nil => exact absurd rfl h1
  | cons c w => simpa using h4

theorem list_read {py : Py} {fs : Fs} {out : List Char} {ws : List (List Char)} (h : ∀ w ∈ ws, PlainPath py w)
    (ht : fs.text out = some (ws.flatMap fun w => w ++ ['\n'])) (hd : fs.isDir ('@' :: out) = false) :
    parseArgs py fs ['@' :: out] = .ok ws ∧ cliParse py fs [] ['@' :: out] = .ok ws := by
  obtain ⟨h1, h2, h3⟩ := written_read h
  refine ⟨?_, ?_⟩
  · rw [parseArgs, parseFrom, expandArg, if_neg (by simp [hd]), if_pos rfl, textFile, ht]
    dsimp only
    rw [h1, h3]
    rfl
  · rw [cliParse, cliExpandArg, if_neg (by simp [hd]), if_pos rfl, cliTextFile, ht]
    dsimp only
    rw [h2]
    rfl

end Verif.Lemmas
