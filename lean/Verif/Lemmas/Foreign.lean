import Verif.Lemmas.Guards
import Verif.Lemmas.Document
/-!
# Elements with tags that are not mentioned anywhere
-/
namespace Verif.Lemmas
open Verif Verif.Model Verif.Spec

def wokFirst (k : List Key → Bool) : List Key → List Key → Bool
  | [], c => k c
  | a :: ts, c => if a = 0 then touched c && wokFirst k ts [] else wokFirst k ts (a :: c)

/-- Wildcards in a path are harmless or come in one of the exceptions; `c`: the known tags of the element and its ancestors -/
def wok (soft : Bool) : Path → List Key → Bool
  | .nil, _ => true
  | .all a r, c => if a = 0 then ((r == .nil && soft) || touched c) && wok soft r [] else wok soft r (a :: c)
  | .first ts r, c => wokFirst (wok soft r) ts c
  | .pick ts r, c => ts.all fun a => a != 0 && wok soft r (a :: c)
  | .need p r, c => wok false p c && wok soft r c
  | .lack p r, c => wok false p c && wok soft r c
  | .alt p r, c => wok false p c && wok soft p c && wok soft r c

theorem touched_mono {c A : List Key} (h : c <+: A) (ht : touched c = true) : touched A = true := by
  match c, h, ht with
  | [p], ⟨r, e⟩, ht =>
    subst e
    cases r with
    | nil => exact ht
    | cons g r => simp only [touched] at ht; simp [touched]; exact .inl (by simpa using ht)
  | p :: g :: c, ⟨r, e⟩, ht => subst e; exact ht

section
variable {u : Key} {R : List Key} (hR : touched R = false)
include hR

omit hR in
theorem fits_ne {a b : Key} (h : fitsTag a b = true) (h0 : a ≠ 0) : b = a := by
  simp only [fitsTag, Bool.or_eq_true, beq_iff_eq] at h
  exact (h.resolve_left h0).symm

omit hR in
theorem fits_foreign {a : Key} (h : u ≠ a) (h0 : a ≠ 0) : fitsTag a u = false := by
  simp only [fitsTag, Bool.or_eq_false_iff, beq_eq_false_iff_ne, ne_eq]
  exact ⟨h0, fun e => h e.symm⟩

theorem wokFirst_sound {k : List Key → Bool} {k' : Key → List Key → Bool}
    (hk : ∀ pre w A c, pre.reverse ++ w :: A = R → c <+: w :: A → k c = true → k' w (pre ++ [u]) = false)
    {ts pre : List Key} {w : Key} {A c : List Key} (hu : u ∉ ts) (hp : pre.reverse ++ w :: A = R) (hc : c <+: w :: A)
    (h : wokFirst k ts c = true) : looksFirst k' ts w (pre ++ [u]) = false := by
  induction ts generalizing pre w A c with
  | nil => exact hk pre w A c hp hc h
  | cons a ts ih =>
    simp only [List.mem_cons, not_or] at hu
    simp only [wokFirst] at h
    cases pre with
    | nil =>
      simp only [List.nil_append, looksFirst, if_true, Bool.and_true]
      split at h
      · rw [Bool.and_eq_true] at h
        simp only [List.reverse_nil, List.nil_append] at hp
        subst hp
        rw [touched_mono hc h.1] at hR
        cases hR
      · rename_i h0; exact fits_foreign hu.1 h0
    | cons b pre =>
      simp only [List.cons_append, looksFirst, List.append_eq_nil_iff, List.cons_ne_self, and_false, if_false]
      by_cases hf : fitsTag a b = true
      · rw [hf, Bool.true_and]
        have hp' : pre.reverse ++ b :: w :: A = R := by rw [← hp]; simp
        split at h
        · rw [Bool.and_eq_true] at h
          exact ih hu.2 hp' (by simp) h.2
        · rename_i h0
          have := fits_ne hf h0
          subst this
          exact ih hu.2 hp' (by simpa using hc) h
      · rw [Bool.not_eq_true] at hf; rw [hf, Bool.false_and]

theorem wok_sound {p : Path} {soft : Bool} {final : Key → List Key → Bool} {hit : Key → Bool} {pre : List Key} {w : Key} {A c : List Key}
    (hf : ∀ pre w A, pre.reverse ++ w :: A = R → final w (pre ++ [u]) = false) (hh : soft = true → hit u = false) (hu : u ∉ tagsOf p)
    (hp : pre.reverse ++ w :: A = R) (hc : c <+: w :: A) (h : wok soft p c = true) : looks final hit p w (pre ++ [u]) = false := by
  have h0 : ∀ (pre : List Key) (w : Key) (A : List Key), pre.reverse ++ w :: A = R → (fun _ _ => false : Key → List Key → Bool) w (pre ++ [u]) = false :=
    fun _ _ _ _ => rfl
  have h1 : ∀ g : Key → Bool, false = true → g u = false := fun _ h => by cases h
  induction p generalizing soft final hit pre w A c with
  | nil => exact hf pre w A hp
  | all a r ih =>
    simp only [tagsOf, List.mem_cons, not_or] at hu
    simp only [wok] at h
    cases pre with
    | nil =>
      simp only [List.nil_append, looks, if_true]
      split at h
      · simp only [Bool.and_eq_true, Bool.or_eq_true, beq_iff_eq] at h
        simp only [List.reverse_nil, List.nil_append] at hp
        subst hp
        rcases h.1 with ⟨hr, hs⟩ | ht
        · rw [if_pos hr, hh hs, Bool.and_false]
        · rw [touched_mono hc ht] at hR; cases hR
      · rename_i h0; rw [fits_foreign hu.1 h0, Bool.false_and]
    | cons b pre =>
      simp only [List.cons_append, looks, List.append_eq_nil_iff, List.cons_ne_self, and_false, if_false]
      by_cases hfi : fitsTag a b = true
      · rw [hfi, Bool.true_and]
        have hp' : pre.reverse ++ b :: w :: A = R := by rw [← hp]; simp
        split at h
        · rw [Bool.and_eq_true] at h
          exact ih hf hh hu.2 hp' (List.nil_prefix) h.2
        · rename_i h0
          have := fits_ne hfi h0
          subst this
          exact ih hf hh hu.2 hp' (by simpa using hc) h
      · rw [Bool.not_eq_true] at hfi; rw [hfi, Bool.false_and]
  | first ts r ih =>
    simp only [tagsOf, List.mem_append, not_or] at hu
    exact wokFirst_sound hR (fun pre w A c hp hc h => ih hf hh hu.2 hp hc h) hu.1 hp hc h
  | pick ts r ih =>
    simp only [tagsOf, List.mem_append, not_or] at hu
    simp only [wok, List.all_eq_true, Bool.and_eq_true, bne_iff_ne, ne_eq] at h
    cases pre with
    | nil =>
      simp only [List.nil_append, looks, if_true, Bool.and_true]
      rw [List.any_eq_false]
      intro a ha
      rw [fits_foreign (fun e : u = a => hu.1 (e ▸ ha)) (h a ha).1]
      simp
    | cons b pre =>
      simp only [List.cons_append, looks, List.append_eq_nil_iff, List.cons_ne_self, and_false, if_false]
      cases hfi : ts.any fun a => fitsTag a b
      · rfl
      · obtain ⟨a, ha, hfa⟩ := List.any_eq_true.1 hfi
        have := fits_ne hfa (h a ha).1
        subst this
        rw [Bool.true_and]
        have hp' : pre.reverse ++ b :: w :: A = R := by rw [← hp]; simp
        exact ih hf hh hu.2 hp' (by simpa using hc) (h _ ha).2
  | need p r ihp ih =>
    simp only [tagsOf, List.mem_append, not_or] at hu
    simp only [wok, Bool.and_eq_true] at h
    simp only [looks, ihp (soft := false) (final := fun _ _ => false) (hit := fun _ => true) h0 (fun h => nomatch h) hu.1 hp hc h.1, ih hf hh hu.2 hp hc h.2, Bool.or_self]
  | lack p r ihp ih =>
    simp only [tagsOf, List.mem_append, not_or] at hu
    simp only [wok, Bool.and_eq_true] at h
    simp only [looks, ihp (soft := false) (final := fun _ _ => false) (hit := fun _ => true) h0 (fun h => nomatch h) hu.1 hp hc h.1, ih hf hh hu.2 hp hc h.2, Bool.or_self]
  | alt p r ihp ih =>
    simp only [tagsOf, List.mem_append, not_or] at hu
    simp only [wok, Bool.and_eq_true] at h
    simp only [looks, ihp (soft := false) (final := fun _ _ => false) (hit := fun _ => true) h0 (fun h => nomatch h) hu.1 hp hc h.1.1, ihp hf hh hu.1 hp hc h.1.2,
      ih hf hh hu.2 hp hc h.2, Bool.or_self]

end

/-- an unknown element selected by a wildcard is harmless -/
def soft : Item → Bool
  | .objs _ => true
  | .guard _ e => e != .unbound
  | _ => false

def wokBody (c : List Key) (b : RBody) : Bool := b.slots.all fun s => wok (soft s.item) s.path c && match s.item with
  | .want a _ => a != 0
  | _ => true

/-- each method that is called for a tag -/
def callsOk (b : RBody) : Bool := b.slots.all fun s => match s.item with
  | .objs alts => alts.all fun a => a.1 != 0 && match readers a.2 with
    | none => true
    | some b => wokBody [a.1] b
  | _ => true

theorem calls_load : callsOk loadBody = true ∧ wokBody [] loadBody = true := by decide +kernel
theorem calls_table : (Gen.readTable.all fun _ b => callsOk b) = true := by decide +kernel

theorem calls_ok {k : Key} {b : RBody} (h : readers k = some b) : callsOk b = true := by
  unfold readers at h
  split at h
  · cases h; exact calls_load.1
  · exact (Bst.all_toList _ _).1 calls_table _ (Bst.find?_mem h)

theorem altOf_mem'' {alts : List (Key × Key)} {t k : Key} (h : altOf alts t = some k) : ∃ t', (t', k) ∈ alts ∧ (t' = 0 ∨ t' = t) := by
  induction alts with
  | nil => cases h
  | cons a l ih =>
    simp only [altOf] at h
    split at h
    · rename_i hc; cases h; exact ⟨a.1, by simp, .inr hc⟩
    · obtain ⟨t', h1, h2⟩ := ih h; exact ⟨t', by simp [h1], h2⟩

/-- a foreign element is not looked at -/
theorem foreign_unknown {u : Key} (hu : Foreign u) {R : List Key} (hR : touched R = false) {n : Nat} {k : Key} {b : RBody} (hb : readers k = some b)
    {c : List Key} (hw : wokBody c b = true) {pre : List Key} {w : Key} {A : List Key} (hc : c <+: w :: A) (hp : pre.reverse ++ w :: A = R) :
    known readers false n k w (pre ++ [u]) = false := by
  induction n generalizing k b c pre w A with
  | zero => rfl
  | succ n ih =>
    simp only [known, hb]
    rw [List.any_eq_false]
    intro s hs
    rw [Bool.not_eq_true]
    have hus := hu k b hb s hs
    rw [RSlot.tags, List.mem_append, not_or] at hus
    have hws := List.all_eq_true.1 hw s hs
    rw [Bool.and_eq_true] at hws
    have hcs := List.all_eq_true.1 (calls_ok hb) s hs
    refine wok_sound hR ?_ ?_ hus.1 hp hc hws.1
    · intro pre w A hp
      cases hi : s.item <;> simp only [inItem]
      · rename_i alts
        rw [hi] at hcs
        simp only at hcs
        split
        · rfl
        · rename_i j hj
          obtain ⟨t', h1, h2⟩ := altOf_mem'' hj
          have := List.all_eq_true.1 hcs _ h1
          simp only [Bool.and_eq_true, bne_iff_ne, ne_eq] at this
          have ht : t' = w := h2.resolve_left this.1
          subst ht
          cases hr : readers j with
          | none => cases n <;> simp [known, hr]
          | some b' =>
            rw [hr] at this
            exact ih hr this.2 (by simp) hp
      · rename_i a e
        rw [hi] at hus hws
        cases pre with
        | nil => exact fits_foreign (by simpa using hus.2) (by simpa using hws.2)
        | cons d l => cases l <;> rfl
    · intro h
      cases hi : s.item <;> rw [hi] at h hus <;> simp only [onItem, Bool.false_or] <;> simp only [soft] at h
      all_goals try cases h
      · rename_i alts
        rw [hi] at hcs
        simp only at hcs
        cases ha : altOf alts u with
        | none => rfl
        | some j =>
          obtain ⟨t', h1, h2⟩ := altOf_mem'' ha
          have := List.all_eq_true.1 hcs _ h1
          simp only [Bool.and_eq_true, bne_iff_ne, ne_eq] at this
          have ht : t' = u := h2.resolve_left this.1
          subst ht
          exact absurd (List.mem_map.2 ⟨_, h1, rfl⟩) hus.2
      · rename_i e
        simp only [bne_iff_ne, ne_eq] at h
        simp [h]

end Verif.Lemmas
