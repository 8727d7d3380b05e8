import Verif.Model.Regex
namespace Verif.Lemmas
open Verif.Model Verif.Model.Re

/-- `m` succeeds exactly when the rest after some `R`-step lets the continuation succeed -/
def Rel (m : M) (R : List Char → List Char → Prop) : Prop :=
  ∀ (s : List Char) {α : Type} (k : List Char → Option α), (m s k).isSome = true ↔ ∃ s', R s s' ∧ (k s').isSome = true

theorem or_isSome {α : Type} (a b : Option α) : (a.or b).isSome = true ↔ a.isSome = true ∨ b.isSome = true := by
  cases a <;> simp

theorem rel_chr (p : Char → Bool) : Rel (chr p) fun s s' => ∃ c, s = c :: s' ∧ p c = true := by
  intro s α k
  cases s with
  | nil => simp [chr]
  | cons c s =>
    by_cases h : p c = true
    · simp only [chr, h, if_true]
      exact ⟨fun hk => ⟨s, ⟨c, rfl, h⟩, hk⟩, fun ⟨s', ⟨c', e, _⟩, hk⟩ => by cases e; exact hk⟩
    · simp only [chr, h]
      refine ⟨fun hk => by simp at hk, fun ⟨s', ⟨c', e, hp⟩, _⟩ => ?_⟩
      cases e; exact absurd hp h

theorem rel_lit (x : Char) : Rel (lit x) fun s s' => s = x :: s' := by
  intro s α k
  rw [lit, rel_chr]
  simp

theorem rel_star (p : Char → Bool) : Rel (star p) fun s s' => ∃ a, s = a ++ s' ∧ ∀ c ∈ a, p c = true := by
  intro s α k
  induction s with
  | nil =>
    simp only [star, starK]
    constructor
    · exact fun h => ⟨[], ⟨[], rfl, by simp⟩, h⟩
    · rintro ⟨s', ⟨a, e, _⟩, h⟩
      have := (List.append_eq_nil_iff.mp e.symm).2
      subst this; exact h
  | cons c s ih =>
    simp only [star, starK] at ih ⊢
    by_cases hp : p c = true
    · simp only [hp, if_true, or_isSome, ih]
      constructor
      · rintro (⟨s', ⟨a, e, ha⟩, h⟩ | h)
        · exact ⟨s', ⟨c :: a, by simp [e], by simpa [hp] using ha⟩, h⟩
        · exact ⟨_, ⟨[], rfl, by simp⟩, h⟩
      · rintro ⟨s', ⟨a, e, ha⟩, h⟩
        cases a with
        | nil => right; simp only [List.nil_append] at e; subst e; exact h
        | cons b a =>
          simp only [List.cons_append, List.cons.injEq] at e
          exact .inl ⟨s', ⟨a, e.2, fun x hx => ha x (by simp [hx])⟩, h⟩
    · simp only [hp]
      constructor
      · exact fun h => ⟨_, ⟨[], rfl, by simp⟩, h⟩
      · rintro ⟨s', ⟨a, e, ha⟩, h⟩
        cases a with
        | nil => simp only [List.nil_append] at e; subst e; exact h
        | cons b a =>
          simp only [List.cons_append, List.cons.injEq] at e
          exact absurd (e.1 ▸ ha b (by simp)) hp

theorem rel_seq {a b : M} {R S : List Char → List Char → Prop} (ha : Rel a R) (hb : Rel b S) :
    Rel (seq a b) fun s s' => ∃ t, R s t ∧ S t s' := by
  intro s α k
  simp only [seq]
  rw [ha]
  constructor
  · rintro ⟨t, hr, h⟩
    obtain ⟨s', hs, hk⟩ := (hb t k).mp h
    exact ⟨s', ⟨t, hr, hs⟩, hk⟩
  · rintro ⟨s', ⟨t, hr, hs⟩, hk⟩
    exact ⟨t, hr, (hb t k).mpr ⟨s', hs, hk⟩⟩

theorem rel_plus (p : Char → Bool) : Rel (plus p) fun s s' => ∃ a, s = a ++ s' ∧ a ≠ [] ∧ ∀ c ∈ a, p c = true := by
  intro s α k
  rw [plus, rel_seq (rel_chr p) (rel_star p)]
  constructor
  · rintro ⟨s', ⟨t, ⟨c, rfl, hc⟩, a, rfl, ha⟩, h⟩
    exact ⟨s', ⟨c :: a, rfl, by simp, by simpa [hc] using ha⟩, h⟩
  · rintro ⟨s', ⟨a, rfl, hne, ha⟩, h⟩
    cases a with
    | nil => exact absurd rfl hne
    | cons c a => exact ⟨s', ⟨a ++ s', ⟨c, rfl, ha c (by simp)⟩, a, rfl, fun x hx => ha x (by simp [hx])⟩, h⟩

theorem rel_opt {a : M} {R : List Char → List Char → Prop} (ha : Rel a R) :
    Rel (opt a) fun s s' => R s s' ∨ s' = s := by
  intro s α k
  simp only [opt, or_isSome, ha s k]
  constructor
  · rintro (⟨s', hr, hk⟩ | h)
    · exact ⟨s', .inl hr, hk⟩
    · exact ⟨s, .inr rfl, h⟩
  · rintro ⟨s', hr | rfl, hk⟩
    · exact .inl ⟨s', hr, hk⟩
    · exact .inr hk

theorem rel_alt {a b : M} {R S : List Char → List Char → Prop} (ha : Rel a R) (hb : Rel b S) :
    Rel (alt a b) fun s s' => R s s' ∨ S s s' := by
  intro s α k
  simp only [alt, or_isSome, ha s k, hb s k]
  constructor
  · rintro (⟨s', hr, hk⟩ | ⟨s', hr, hk⟩)
    · exact ⟨s', .inl hr, hk⟩
    · exact ⟨s', .inr hr, hk⟩
  · rintro ⟨s', hr | hr, hk⟩
    · exact .inl ⟨s', hr, hk⟩
    · exact .inr ⟨s', hr, hk⟩

theorem rel_eol : Rel eol fun s s' => s' = s ∧ (s = [] ∨ s = ['\n']) := by
  intro s α k
  simp only [eol]
  by_cases h : s = [] ∨ s = ['\n']
  · simp only [h, if_true]
    exact ⟨fun hk => ⟨s, ⟨rfl, trivial⟩, hk⟩, fun ⟨s', ⟨e, _⟩, hk⟩ => e ▸ hk⟩
  · simp only [h, if_false]
    exact ⟨fun hk => by simp at hk, fun ⟨s', ⟨_, f⟩, _⟩ => f.elim⟩

theorem test_iff {m : M} {R : List Char → List Char → Prop} (h : Rel m R) (s : List Char) :
    test m s = true ↔ ∃ s', R s s' := by
  rw [test, h]; simp

/-- when the continuation succeeds on the longest match, that is what is taken -/
theorem starK_greedy (p : Char → Bool) {α : Type} (s : List Char) (k : List Char → Option α)
    (h : (k (s.dropWhile p)).isSome = true) : starK p s k = k (s.dropWhile p) := by
  induction s with
  | nil => rfl
  | cons c s ih =>
    by_cases hp : p c = true
    · simp only [starK, hp, if_true]
      rw [List.dropWhile_cons_of_pos hp] at h ⊢
      rw [ih h]
      cases hk : k (s.dropWhile p) with
      | none => simp [hk] at h
      | some x => rfl
    · simp [starK, hp]

/-- the last place where the continuation succeeds is taken -/
theorem starK_last (p : Char → Bool) {α : Type} (a b : List Char) (k : List Char → Option α) (ha : ∀ c ∈ a, p c = true)
    (hb : (k b).isSome = true) (hn : ∀ x y, x ≠ [] → b = x ++ y → k y = none) : starK p (a ++ b) k = k b := by
  induction a with
  | nil =>
    have key : ∀ s : List Char, (∀ x y, s = x ++ y → k y = none) → starK p s k = none := by
      intro s
      induction s with
      | nil => intro h; exact h [] [] rfl
      | cons c s ih =>
        intro h
        have h1 := h [] (c :: s) rfl
        have h2 := ih fun x y e => h (c :: x) y (by simp [e])
        simp only [starK, h1, h2]
        split <;> rfl
    cases b with
    | nil => rfl
    | cons c b =>
      have := key b fun x y e => hn (c :: x) y (by simp) (by simp [e])
      simp only [List.nil_append, starK, this]
      split <;> simp
  | cons c a ih =>
    have := ih fun x hx => ha x (by simp [hx])
    simp only [List.cons_append, starK, ha c (by simp), if_true, this]
    cases hk : k b with
    | none => simp [hk] at hb
    | some v => rfl

theorem take_takeWhile (p : Char → Bool) (s : List Char) :
    s.take (s.length - (s.dropWhile p).length) = s.takeWhile p := by
  have h := List.takeWhile_append_dropWhile (p := p) (l := s)
  conv => lhs; rw [← h]
  rw [List.take_append_of_le_length]
  · rw [List.take_of_length_le]
    rw [List.length_append]; simp
  · rw [List.length_append]; simp

/-- a group around `p+` at the end of a pattern captures the longest run -/
theorem cap_plus (p : Char → Bool) (s : List Char) :
    cap (plus p) s (fun g _ => some g) = if s.takeWhile p = [] then none else some (s.takeWhile p) := by
  cases s with
  | nil => simp [cap, plus, seq, chr]
  | cons c s =>
    by_cases hp : p c = true
    · have : plus p (c :: s) (fun s' => some ((c :: s).take ((c :: s).length - s'.length)))
          = some ((c :: s).take ((c :: s).length - (s.dropWhile p).length)) := by
        simp only [plus, seq, chr, hp, if_true, star]
        rw [starK_greedy _ _ _ (by simp)]
      have hd : s.dropWhile p = (c :: s).dropWhile p := by rw [List.dropWhile_cons_of_pos hp]
      have e : cap (plus p) (c :: s) (fun g _ => some g) = some ((c :: s).takeWhile p) := by
        unfold cap
        rw [this, hd, take_takeWhile]
      rw [e, if_neg]
      simp [hp]
    · simp [cap, plus, seq, chr, hp]

end Verif.Lemmas
