import Verif.Spec.Grammar
import Verif.Lemmas.Spelled
import Verif.Lemmas.MarksRun
/-!
# The parser accepts the well-formed files
-/
namespace Verif.Lemmas
open Verif Verif.Model Verif.Spec

theorem space_iff (c : Char) : xmlSpace c = true ↔ (c = ' ' ∨ c = '\t' ∨ c = '\n' ∨ c = '\r') := by
  simp only [xmlSpace, Bool.or_eq_true, beq_iff_eq, or_assoc]

theorem blank_iff (s : Str) : White s ↔ s.all xmlSpace = true := by
  rw [List.all_eq_true]
  exact forall_congr' fun c => imp_congr_right fun _ => (space_iff c).symm

theorem white_cons {c : Char} {s : Str} (hc : xmlSpace c = true) (hs : White s) : White (c :: s) := by
  intro x hx
  rcases List.mem_cons.1 hx with rfl | hx
  · exact (space_iff x).1 hc
  · exact hs x hx

theorem white_append {a b : Str} (ha : White a) (hb : White b) : White (a ++ b) := by
  intro x hx
  rcases List.mem_append.1 hx with hx | hx
  · exact ha x hx
  · exact hb x hx

theorem blank_nil : White [] := fun _ h => by cases h

theorem blank_lt {s : Str} (h : White s) : '<' ∉ s := fun hm => by have := h _ hm; simp at this

theorem space_char {nc : NameChars} {c : Char} (h : xmlSpace c = true) : nc.char c = false ∧ nc.start c = false ∧ c ≠ '>' ∧ c ≠ '/' ∧ c ≠ '=' ∧ c ≠ '"' ∧ c ≠ '\'' ∧ c ≠ '<' := by
  have h' := (space_iff c).1 h
  have hm : c ∈ ['<', '>', '/', '=', '"', '\'', '&', ';', ' ', '\t', '\n', '\r'] := by
    simp only [List.mem_cons, List.not_mem_nil, or_false]; tauto
  refine ⟨char_special hm, start_special hm, ?_, ?_, ?_, ?_, ?_, ?_⟩ <;> · rintro rfl; simp at h'

/-- from this state the text is read to its end, and `e` is the root -/
def Accepts (nc : NameChars) (st : PState) (s : Str) (e : El) : Prop := ∃ fin, run nc st s = some fin ∧ finish fin = some e

theorem accepts_cons {nc : NameChars} {st : PState} {c : Char} {s : Str} {e : El} :
    Accepts nc st (c :: s) e ↔ ∃ st', step nc st c = some st' ∧ Accepts nc st' s e := by
  constructor
  · rintro ⟨fin, h1, h2⟩
    rw [run_cons] at h1
    obtain ⟨st', h3, h4⟩ := Option.bind_eq_some_iff.1 h1
    exact ⟨st', h3, fin, h4, h2⟩
  · rintro ⟨st', h3, fin, h4, h2⟩
    exact ⟨fin, by rw [run_cons, h3]; exact h4, h2⟩

theorem accepts_nil {nc : NameChars} {st : PState} {e : El} : Accepts nc st [] e ↔ finish st = some e := by
  constructor
  · rintro ⟨fin, h1, h2⟩; cases h1; exact h2
  · intro h; exact ⟨st, rfl, h⟩

/-- the state after a start tag -/
def opened (nc : NameChars) (stk : List Frame) (root : Option El) (n : Str) (as : List (Str × Str)) (selfClosing : Bool) (s : Str) (e : El) : Prop :=
  ∃ st, ((openEl stk root n as).bind fun st => if selfClosing then closeEl st.stack st.root n else some st) = some st ∧ Accepts nc st s e

/-! ### Reading what the grammar produces -/

theorem run_blank {nc : NameChars} {stk : List Frame} {root : Option El} {m : Mode} (h : ∀ c, xmlSpace c = true → step nc ⟨stk, root, m⟩ c = some ⟨stk, root, m⟩)
    {w : Str} (hw : White w) (rest : Str) : run nc ⟨stk, root, m⟩ (w ++ rest) = run nc ⟨stk, root, m⟩ rest := by
  induction w with
  | nil => rfl
  | cons c w ih =>
    rw [List.cons_append, run_cons, h c ((space_iff c).2 (hw c (by simp))), Option.bind_some, ih fun x hx => hw x (by simp [hx])]

/-- the modes in which an attribute may follow after white space -/
inductive Ready : Mode → Str → List (Str × Str) → Prop
  | name (n : Str) : Ready (.name n) n.reverse []
  | closed (n : Str) (as : List (Str × Str)) : Ready (.closed n as) n as

theorem ready_space {nc : NameChars} {stk : List Frame} {root : Option El} {m : Mode} {n : Str} {as : List (Str × Str)} (h : Ready m n as) {c : Char} (hc : xmlSpace c = true) :
    step nc ⟨stk, root, m⟩ c = some ⟨stk, root, .tag n as⟩ := by
  obtain ⟨h1, h2, _⟩ := space_char (nc := nc) hc
  cases h <;> simp [step, h1, hc]

theorem tag_space {nc : NameChars} (stk : List Frame) (root : Option El) (n : Str) (as : List (Str × Str)) (c : Char) (hc : xmlSpace c = true) :
    step nc ⟨stk, root, .tag n as⟩ c = some ⟨stk, root, .tag n as⟩ := by simp [step, hc]

theorem ready_gt {nc : NameChars} {stk : List Frame} {root : Option El} {m : Mode} {n : Str} {as : List (Str × Str)} (h : Ready m n as ∨ m = .tag n as) :
    step nc ⟨stk, root, m⟩ '>' = openEl stk root n as := by
  have h1 : nc.char '>' = false := char_special (by simp)
  rcases h with h | rfl
  · cases h <;> simp [step, h1, xmlSpace]
  · simp [step, xmlSpace]

theorem ready_slash {nc : NameChars} {stk : List Frame} {root : Option El} {m : Mode} {n : Str} {as : List (Str × Str)} (h : Ready m n as ∨ m = .tag n as) :
    step nc ⟨stk, root, m⟩ '/' = some ⟨stk, root, .slash n as⟩ := by
  have h1 : nc.char '/' = false := char_special (by simp)
  rcases h with h | rfl
  · cases h <;> simp [step, h1, xmlSpace]
  · simp [step, xmlSpace]

theorem accepts_slash {nc : NameChars} {stk : List Frame} {root : Option El} {n : Str} {as : List (Str × Str)} {s : Str} {e : El} :
    Accepts nc ⟨stk, root, .slash n as⟩ ('>' :: s) e ↔ opened nc stk root n as true s e := by
  rw [accepts_cons]
  simp only [step, if_true, opened]

theorem ready_blank {nc : NameChars} {stk : List Frame} {root : Option El} {m : Mode} {n : Str} {as : List (Str × Str)} (h : Ready m n as) {w : Str} (hw : White w) (rest : Str) :
    ∃ m', (Ready m' n as ∨ m' = .tag n as) ∧ (w ≠ [] → m' = .tag n as) ∧ run nc ⟨stk, root, m⟩ (w ++ rest) = run nc ⟨stk, root, m'⟩ rest := by
  cases w with
  | nil => exact ⟨m, .inl h, fun h => absurd rfl h, rfl⟩
  | cons c w =>
    refine ⟨.tag n as, .inr rfl, fun _ => rfl, ?_⟩
    rw [List.cons_append, run_cons, ready_space h ((space_iff c).2 (hw c (by simp))), Option.bind_some,
      run_blank (tag_space stk root n as) fun x hx => hw x (by simp [hx])]

theorem attrs_run {nc : NameChars} {a : Str} {bs : List (Str × Str)} (h : Attrs nc a bs) {stk : List Frame} {root : Option El} {m : Mode} {n : Str} {as : List (Str × Str)}
    (hm : Ready m n as) (hn : ∀ b ∈ bs, b.1 ∉ as.map Prod.fst) (rest : Str) :
    ∃ m', (Ready m' n (as ++ bs) ∨ m' = .tag n (as ++ bs)) ∧ run nc ⟨stk, root, m⟩ (a ++ rest) = run nc ⟨stk, root, m'⟩ rest := by
  induction h generalizing m as with
  | nil hw =>
    obtain ⟨m', h1, _, h2⟩ := ready_blank (nc := nc) (stk := stk) (root := root) hm hw rest
    exact ⟨m', by simpa using h1, h2⟩
  | @cons w a w1 w2 raw v r q as' hw0 hw ha hw1 hw2 hq hlt hqr hs _ hd ih =>
    have e : w ++ a ++ w1 ++ '=' :: w2 ++ q :: raw ++ q :: r ++ rest = w ++ (a ++ (w1 ++ ('=' :: (w2 ++ (q :: (raw ++ (q :: (r ++ rest)))))))) := by simp
    rw [e]
    obtain ⟨m1, _, h1, h2⟩ := ready_blank (nc := nc) (stk := stk) (root := root) hm hw (a ++ (w1 ++ ('=' :: (w2 ++ (q :: (raw ++ (q :: (r ++ rest))))))))
    rw [h2, h1 hw0]
    obtain ⟨c, x, rfl, hc, hx⟩ := ha
    have hs1 : step nc ⟨stk, root, .tag n as⟩ c = some ⟨stk, root, .attr n as [c]⟩ := by
      have ne : ∀ x ∈ ['<', '>', '/', '=', '"', '\'', '&', ';', ' ', '\t', '\n', '\r'], c ≠ x := by
        intro x hx e; subst e; rw [start_special hx] at hc; cases hc
      simp only [step]
      rw [if_neg (by simp [xmlSpace, ne]), if_neg (ne _ (by simp)), if_neg (ne _ (by simp)), if_pos hc]
    rw [List.cons_append, run_cons, hs1, Option.bind_some, run_attrName_go hx]
    -- to the equals sign
    have heq : run nc ⟨stk, root, .attr n as (x.reverse ++ [c])⟩ (w1 ++ ('=' :: (w2 ++ (q :: (raw ++ (q :: (r ++ rest))))))) =
        run nc ⟨stk, root, .quote n as (c :: x)⟩ (w2 ++ (q :: (raw ++ (q :: (r ++ rest))))) := by
      cases w1 with
      | nil =>
        have : step nc ⟨stk, root, .attr n as (x.reverse ++ [c])⟩ '=' = some ⟨stk, root, .quote n as (c :: x)⟩ := by
          simp only [step]
          rw [char_special (by simp), if_neg (by simp), if_neg (by decide), if_pos trivial]
          simp
        rw [List.nil_append, run_cons, this, Option.bind_some]
      | cons y w1 =>
        have hy := (space_iff y).2 (hw1 y (by simp))
        have : step nc ⟨stk, root, .attr n as (x.reverse ++ [c])⟩ y = some ⟨stk, root, .eq n as (c :: x)⟩ := by
          simp only [step]
          rw [(space_char hy).1, if_neg (by simp), if_pos hy]
          simp
        rw [List.cons_append, run_cons, this, Option.bind_some, run_blank (fun z hz => by simp [step, hz]) (fun z hz => hw1 z (by simp [hz])), run_cons]
        rfl
    rw [heq, run_blank (fun z hz => by simp [step, hz]) hw2, run_cons]
    have hs2 : step nc ⟨stk, root, .quote n as (c :: x)⟩ q = some ⟨stk, root, .value n as (c :: x) q []⟩ := by
      simp only [step]
      rw [if_neg (by rcases hq with rfl | rfl <;> decide), if_pos hq]
    rw [hs2, Option.bind_some, run_value_go hlt hqr, run_cons]
    have hs3 : step nc ⟨stk, root, .value n as (c :: x) q (raw.reverse ++ [])⟩ q = some ⟨stk, root, .closed n (as ++ [(c :: x, v)])⟩ := by
      have hv : decodeAttr raw = some v := by
        unfold decodeAttr
        rw [toBlank_eq]; exact (decode_spelled _ _ _).2 hs
      simp only [step]
      rw [if_neg (by rcases hq with rfl | rfl <;> decide), if_pos trivial, if_neg (hn (c :: x, v) (by simp))]
      simp [hv]
    rw [hs3, Option.bind_some]
    obtain ⟨m', h3, h4⟩ := ih (.closed n (as ++ [(c :: x, v)])) (fun b hb => by
      intro hm
      rw [List.map_append, List.mem_append] at hm
      rcases hm with hm | hm
      · exact hn b (by simp [hb]) hm
      · simp only [List.map_cons, List.map_nil, List.mem_singleton] at hm
        exact hd (by rw [← hm]; exact List.mem_map_of_mem hb))
    exact ⟨m', by simpa using h3, h4⟩

/-- a start tag -/
theorem start_run {nc : NameChars} {n a : Str} {as : List (Str × Str)} (hn : XmlName nc n) (ha : Attrs nc a as) (stk : List Frame) (root : Option El) (sc : Bool) (s : Str) (e : El) :
    Accepts nc ⟨stk, root, .lt⟩ (n ++ (a ++ ((if sc then ['/', '>'] else ['>']) ++ s))) e ↔ opened nc stk root n as sc s e := by
  have h1 : run nc ⟨stk, root, .lt⟩ (n ++ (a ++ ((if sc then ['/', '>'] else ['>']) ++ s))) = run nc ⟨stk, root, .name n.reverse⟩ (a ++ ((if sc then ['/', '>'] else ['>']) ++ s)) :=
    run_name hn stk root _
  have hr : Ready (.name n.reverse) n [] := by
    have := Ready.name n.reverse
    rwa [List.reverse_reverse] at this
  obtain ⟨m', h2, h3⟩ := attrs_run ha (stk := stk) (root := root) hr (by simp) ((if sc then ['/', '>'] else ['>']) ++ s)
  rw [List.nil_append] at h2
  have h4 : Accepts nc ⟨stk, root, .lt⟩ (n ++ (a ++ ((if sc then ['/', '>'] else ['>']) ++ s))) e ↔ Accepts nc ⟨stk, root, m'⟩ ((if sc then ['/', '>'] else ['>']) ++ s) e := by
    unfold Accepts
    rw [h1, h3]
  rw [h4]
  cases sc with
  | true =>
    simp only [if_true, List.cons_append, List.nil_append]
    rw [accepts_cons, ready_slash h2]
    simp only [Option.some.injEq, exists_eq_left', accepts_slash]
  | false =>
    simp only [Bool.false_eq_true, if_false, List.cons_append, List.nil_append]
    rw [accepts_cons, ready_gt h2]
    simp [opened]

end Verif.Lemmas
