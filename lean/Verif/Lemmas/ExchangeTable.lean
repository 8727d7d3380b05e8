import Verif.Lemmas.Exchange
import Verif.Gen.Whole
/-!
# Exchanging one element of a file: the elements of which nothing but an object is made
-/
namespace Verif.Lemmas
open Verif Verif.Model Verif.Spec

/-- what is checked for one slot: nothing is read of an element of the list, and the tags of objects are in the list -/
def slotWhole (s : RSlot) : Bool := ((uses s).all fun u => u != 0 && (Gen.wholeTags.find? u).isNone) && match s.item with
  | .objs alts => alts.all fun a => twoWays.contains a.1 || (Gen.wholeTags.find? a.1).isSome
  | _ => true

set_option maxRecDepth 100000 in
theorem whole_table : (Gen.readTable.all fun _ b => b.slots.all slotWhole) = true := by decide +kernel

theorem whole_load : loadBody.slots.all slotWhole = true := by decide +kernel

theorem whole_slot {k : Key} {b : RBody} (hb : readers k = some b) {s : RSlot} (hs : s ∈ b.slots) : slotWhole s = true := by
  unfold readers at hb
  split at hb
  · cases hb; exact List.all_eq_true.1 whole_load s hs
  · exact List.all_eq_true.1 ((Bst.all_toList _ _).1 whole_table _ (Bst.find?_mem hb)) s hs

/-- nothing else is read of the elements objects are made of -/
theorem whole_of {t : Key} (h : ObjectTag t) (ht : t ∉ twoWays) : Whole t := by
  obtain ⟨k, b, s, alts, k', hb, hs, hi, ha⟩ := h
  have h1 := whole_slot hb hs
  simp only [slotWhole, hi, Bool.and_eq_true, List.all_eq_true] at h1
  have h2 := h1.2 _ ha
  have h3 : (Gen.wholeTags.find? t).isSome = true := by
    rw [Bool.or_eq_true] at h2
    exact h2.resolve_left fun h => ht (List.contains_iff_mem.1 h)
  intro k b hb s hs
  have h4 := whole_slot hb hs
  simp only [slotWhole, Bool.and_eq_true, List.all_eq_true] at h4
  refine ⟨fun hu => ?_, fun hu => ?_⟩
  · have := (h4.1 _ hu).2
    rw [Option.isNone_iff_eq_none] at this
    rw [this] at h3; cases h3
  · have := (h4.1 _ hu).1
    simp at this

/-- a method makes objects of elements with this tag -/
def makesB (k t : Key) : Bool := match readers k with
  | none => false
  | some b => b.slots.any fun s => match s.item with
    | .objs alts => alts.any fun a => a.1 == t
    | _ => false

theorem makesB_sound {k t : Key} (h : makesB k t = true) : ObjectTag t := by
  unfold makesB at h
  split at h
  · cases h
  · rename_i b hb
    obtain ⟨s, hs, h⟩ := List.any_eq_true.1 h
    split at h
    · rename_i alts hi
      obtain ⟨a, ha, h⟩ := List.any_eq_true.1 h
      have : a.1 = t := by simpa using h
      subst this
      exact ⟨k, b, s, alts, a.2, hb, hs, hi, ha⟩
    · cases h

end Verif.Lemmas
