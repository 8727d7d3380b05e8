import Verif.Lemmas.Insert
import Verif.Gen.Joining
/-!
# Adding an element to a file: the elements that add objects and do nothing else
-/
namespace Verif.Lemmas
open Verif Verif.Model Verif.Spec

/-- what is checked for one slot of the method `k`: an element of the list disturbs nothing, and the tags of objects in lists are in the list -/
def slotJoins (k : Key) (s : RSlot) : Bool := ((disturbs (tagFor k) s).all fun u => u != 0 && (Gen.joiningTags.find? u).isNone) && match s.item with
  | .objs alts => alts.all fun a => (s.last || !endsInLoop s.path || otherWays.contains a.1 || (Gen.joiningTags.find? a.1).isSome) &&
      (!singles.contains (tagFor a.2) || singles.contains a.1)
  | _ => true

set_option maxRecDepth 100000 in
theorem joins_table : (Gen.readTable.all fun k b => b.slots.all (slotJoins k)) = true := by decide +kernel

theorem joins_load : loadBody.slots.all (slotJoins k!"load") = true := by decide +kernel

theorem joins_slot {k : Key} {b : RBody} (hb : readers k = some b) {s : RSlot} (hs : s ∈ b.slots) : slotJoins k s = true := by
  unfold readers at hb
  split at hb
  · rename_i hk; subst hk; cases hb; exact List.all_eq_true.1 joins_load s hs
  · exact List.all_eq_true.1 ((Bst.all_toList _ _).1 joins_table _ (Bst.find?_mem hb)) s hs

/-- a new element in a list does nothing else -/
theorem joins_of {t : Key} (h : ListTag t) (ht : t ∉ otherWays) : Joins t := by
  obtain ⟨k, b, s, alts, k', hb, hs, hi, ha, hl, hp⟩ := h
  have h1 := joins_slot hb hs
  simp only [slotJoins, hi, Bool.and_eq_true, List.all_eq_true] at h1
  have h2 := (h1.2 _ ha).1
  have h3 : (Gen.joiningTags.find? t).isSome = true := by
    simp only [hl, hp, Bool.or_eq_true, Bool.false_or, Bool.not_true] at h2
    exact h2.resolve_left fun h => ht (List.contains_iff_mem.1 h)
  intro k b hb s hs
  have h4 := joins_slot hb hs
  simp only [slotJoins, Bool.and_eq_true, List.all_eq_true] at h4
  refine ⟨fun hu => ?_, fun hu => ?_, fun alts hi a ha hm => ?_⟩
  · have := (h4.1 _ hu).2
    rw [Option.isNone_iff_eq_none] at this
    rw [this] at h3; cases h3
  · have := (h4.1 _ hu).1
    simp at this
  · have h5 := h4.2
    simp only [hi, Bool.and_eq_true, List.all_eq_true] at h5
    have h6 := (h5 a ha).2
    rw [Bool.or_eq_true] at h6
    rcases h6 with h6 | h6
    · rw [Bool.not_eq_true', ← Bool.not_eq_true] at h6
      exact absurd (List.contains_iff_mem.2 hm) h6
    · exact List.contains_iff_mem.1 h6

/-- a method makes objects of elements with this tag in a loop -/
def loopsB (k t : Key) : Bool := match readers k with
  | none => false
  | some b => b.slots.any fun s => !s.last && endsInLoop s.path && match s.item with
    | .objs alts => alts.any fun a => a.1 == t
    | _ => false

theorem loopsB_sound {k t : Key} (h : loopsB k t = true) : ListTag t := by
  unfold loopsB at h
  split at h
  · cases h
  · rename_i b hb
    obtain ⟨s, hs, h⟩ := List.any_eq_true.1 h
    simp only [Bool.and_eq_true, Bool.not_eq_true'] at h
    obtain ⟨⟨hl, hp⟩, h⟩ := h
    split at h
    · rename_i alts hi
      obtain ⟨a, ha, h⟩ := List.any_eq_true.1 h
      have : a.1 = t := by simpa using h
      subst this
      exact ⟨k, b, s, alts, a.2, hb, hs, hi, ha, hl, hp⟩
    · cases h

end Verif.Lemmas
