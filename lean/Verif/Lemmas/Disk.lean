import Verif.Spec.Disk
import Verif.Lemmas.MarkupText
/-!
# Lemmas for interrupted saves
-/
namespace Verif.Lemmas
open Verif Verif.Model Verif.Spec

/-! ### The parser, on the beginning of a text -/

theorem step_done {nc : NameChars} {st st' : PState} {e : El} {c : Char} (hs : st.stack = []) (hr : st.root = some e)
    (h : step nc st c = some st') : st'.stack = [] ∧ st'.root = some e := by
  obtain ⟨stack, root, mode⟩ := st
  subst hs
  subst hr
  cases mode <;> simp only [step, openEl, closeEl, flush, endCdata] at h <;> (repeat' split at h) <;> simp_all <;>
    (first | (subst h; simp) | (obtain ⟨_, rfl⟩ := h; simp) | (obtain ⟨_, _, rfl⟩ := h; simp) | skip)

theorem run_done {nc : NameChars} {e : El} (s : Str) : ∀ {st st' : PState}, st.stack = [] → st.root = some e →
    run nc st s = some st' → st'.stack = [] ∧ st'.root = some e := by
  induction s with
  | nil => intro st st' hs hr h; cases h; exact ⟨hs, hr⟩
  | cons c s ih =>
    intro st st' hs hr h
    rw [run] at h
    obtain ⟨st1, h1, h2⟩ := Option.bind_eq_some_iff.1 h
    obtain ⟨hs1, hr1⟩ := step_done hs hr h1
    exact ih hs1 hr1 h2

theorem run_split {nc : NameChars} (s t : Str) : ∀ st : PState, run nc st (s ++ t) = (run nc st s).bind fun st' => run nc st' t := by
  induction s with
  | nil => intro st; rfl
  | cons c s ih =>
    intro st
    rw [List.cons_append, run, run]
    cases step nc st c with
    | none => rfl
    | some st' => exact ih st'

theorem finish_some {st : PState} {e : El} (h : finish st = some e) : st.stack = [] ∧ st.root = some e := by
  unfold finish at h
  split at h
  · rename_i e' raw hs hr hm
    split at h
    · cases h; exact ⟨hs, hr⟩
    · cases h
  · cases h

theorem run_same {nc : NameChars} {st : PState} {s t : Str} {e e' : El} (h : (run nc st s).bind finish = some e)
    (h' : (run nc st (s ++ t)).bind finish = some e') : e = e' := by
  obtain ⟨st1, h1, hf⟩ := Option.bind_eq_some_iff.1 h
  rw [run_split, h1] at h'
  obtain ⟨st2, h2, hf'⟩ := Option.bind_eq_some_iff.1 h'
  obtain ⟨hs, hr⟩ := finish_some hf
  obtain ⟨_, hr2⟩ := run_done t hs hr h2
  obtain ⟨_, hr3⟩ := finish_some hf'
  rw [hr2] at hr3
  exact Option.some.inj hr3

theorem newlines_begin (s t : Str) : ∃ u, newlines (s ++ t) = newlines s ++ u := by
  induction s using newlines.induct with
  | case1 => exact ⟨_, rfl⟩
  | case2 s ih =>
    obtain ⟨u, hu⟩ := ih
    exact ⟨u, by simp only [List.cons_append, newlines, hu]⟩
  | case3 s hn ih =>
    obtain ⟨u, hu⟩ := ih
    cases s with
    | nil =>
      cases t with
      | nil => exact ⟨[], rfl⟩
      | cons d t =>
        by_cases hd : d = '\n'
        · subst hd; exact ⟨newlines t, rfl⟩
        · refine ⟨newlines (d :: t), ?_⟩
          rw [List.singleton_append, newlines_cr (by simpa using hd)]
          rfl
    | cons d s =>
      have hd : d ≠ '\n' := by rintro rfl; exact hn s rfl
      refine ⟨u, ?_⟩
      rw [List.cons_append, newlines_cr (by simpa using hd), hu, newlines_cr (by simpa using hd)]
      rfl
  | case4 c s h1 h2 ih =>
    obtain ⟨u, hu⟩ := ih
    have hc : c ≠ '\r' := h2
    refine ⟨u, ?_⟩
    rw [List.cons_append, newlines_cons hc, hu, newlines_cons hc]
    rfl

theorem afterDecl_begin {s t u : Str} (h : afterDecl s = some u) : afterDecl (s ++ t) = some (u ++ t) := by
  induction s with
  | nil => cases h
  | cons c s ih =>
    rw [afterDecl] at h
    rw [List.cons_append, afterDecl]
    split at h
    · rename_i hp
      have hp' : "?>".toList.isPrefixOf (c :: (s ++ t)) = true := by
        rw [List.isPrefixOf_iff_prefix] at hp ⊢
        exact hp.trans (List.prefix_append (c :: s) t)
      rw [if_pos hp']
      cases h
      cases s with
      | nil => simp [List.isPrefixOf] at hp
      | cons d s => rfl
    · rename_i hp
      have hs : s ≠ [] := by rintro rfl; cases h
      have hp' : ¬ "?>".toList.isPrefixOf (c :: (s ++ t)) = true := by
        cases s with
        | nil => exact absurd rfl hs
        | cons d s => simpa [List.isPrefixOf] using hp
      rw [if_neg hp']
      exact ih h

theorem step_open {nc : NameChars} {st st' : PState} {c : Char} (hr : st.root = none) (hc : c ≠ '>')
    (h : step nc st c = some st') : st'.root = none := by
  obtain ⟨stack, root, mode⟩ := st
  subst hr
  cases mode <;> simp only [step] at h <;> (repeat' split at h) <;> simp_all <;>
    (first | (subst h; simp) | (obtain ⟨_, rfl⟩ := h; simp) | (obtain ⟨_, _, rfl⟩ := h; simp) | skip)

theorem run_open {nc : NameChars} {s : Str} : ∀ {st st' : PState}, st.root = none → (∀ c ∈ s, c ≠ '>') → run nc st s = some st' → st'.root = none := by
  induction s with
  | nil => intro st st' hr _ h; cases h; exact hr
  | cons c s ih =>
    intro st st' hr hc h
    rw [run] at h
    obtain ⟨st1, h1, h2⟩ := Option.bind_eq_some_iff.1 h
    exact ih (step_open hr (hc c List.mem_cons_self) h1) (fun d hd => hc d (List.mem_cons_of_mem _ hd)) h2

/-- the beginning of a text is no other document -/
theorem parseXml_begin {nc : NameChars} {s t : Str} {e e' : El} (h : parseXml nc s = some e) (h' : parseXml nc (s ++ t) = some e') : e = e' := by
  obtain ⟨u, hu⟩ := newlines_begin s t
  unfold parseXml at h h'
  simp only [hu] at h'
  simp only at h
  split at h
  case isFalse => cases h
  split at h'
  case isFalse => cases h'
  obtain ⟨v, hv, hr⟩ := Option.bind_eq_some_iff.1 h
  obtain ⟨w, hw, hr'⟩ := Option.bind_eq_some_iff.1 h'
  unfold skipDecl at hv hw
  by_cases hp : "<?xml ".toList.isPrefixOf (newlines s) = true
  · have hp' : "<?xml ".toList.isPrefixOf (newlines s ++ u) = true := by
      rw [List.isPrefixOf_iff_prefix] at hp ⊢
      exact hp.trans (List.prefix_append _ u)
    rw [if_pos hp] at hv
    rw [if_pos hp', afterDecl_begin hv] at hw
    cases hw
    exact run_same hr hr'
  · rw [if_neg hp] at hv
    cases hv
    by_cases hp' : "<?xml ".toList.isPrefixOf (newlines s ++ u) = true
    · rw [List.isPrefixOf_iff_prefix] at hp hp'
      exfalso
      rcases List.prefix_or_prefix_of_prefix hp' (List.prefix_append (newlines s) u) with h1 | h1
      · exact hp h1
      · obtain ⟨w, hw⟩ := h1
        generalize newlines s = l at *
        obtain ⟨st, hst, hf⟩ := Option.bind_eq_some_iff.1 hr
        have hl : l = ("<?xml ".toList).take l.length := by rw [← hw]; simp
        have := run_open (s := l) rfl (fun c hc => by
          rw [hl] at hc
          have hm := List.mem_of_mem_take hc
          rintro rfl
          exact absurd hm (by decide)) hst
        rw [(finish_some hf).2] at this
        cases this
    · rw [if_neg hp'] at hw
      cases hw
      exact run_same hr hr'

end Verif.Lemmas
