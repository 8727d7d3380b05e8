import Verif.Lemmas.AdminData
/-!
# C41: admin-data removal
-/
namespace Verif.Props
open Verif Verif.Model Verif.Gen Verif.Spec Verif.Lemmas
variable {F : Type}

/-- **C41** After the transformer ran, the document and every package at any depth have no admin data, and no
element of a package has.  (Elements are `Referrable`s, and an object only has admin data when its class has
the attribute.) -/
theorem C41_removed (d : MObj F)
    (hd : ∀ path p, pkgAt d path = some p → ∀ e ∈ p.get k!"elements", armodel.sub e.cls k!"Referrable" = true ∧ HasAttribute e)
    (path : List Nat) (p' : MObj F) (hp : pkgAt (removeAll d) path = some p') :
    p'.get k!"adminData" = [] ∧ (path ≠ [] → ∀ e ∈ p'.get k!"elements", e.get k!"adminData" = []) := by
  cases path with
  | nil =>
    cases hp
    refine ⟨?_, fun h => absurd rfl h⟩
    simp only [MObj.get, removeAll_fields, List.flatMap_eq_nil_iff, List.mem_map, hits_admin]
    rintro x ⟨y, _, rfl⟩
    by_cases h : y.1.1 = k!"adminData"
    · simp [h]
    · by_cases h' : y.1.1 = k!"arPackages" <;> simp [h, h']
  | cons i path =>
    rw [pkgAt_removeAll] at hp
    obtain ⟨p, hp1, rfl⟩ := Option.map_eq_some_iff.1 hp
    refine ⟨processPkg_admin p, fun _ e he => ?_⟩
    rcases processPkg_elements p e he with ⟨e0, h0, rfl⟩ | ⟨q, rfl⟩
    · exact processElement_get e0 (hd _ _ hp1 e0 h0).1 (hd _ _ hp1 e0 h0).2
    · exact processPkg_admin q

/-- **C41** Nothing else changes: every package is still there, with the same class, the same number of
sub-packages, the same elements but for their admin data and the same other fields; no package is added; the
other fields of the document are the same. -/
theorem C41_unchanged (d : MObj F) :
    (∀ i path p, pkgAt d (i :: path) = some p → ∃ p', pkgAt (removeAll d) (i :: path) = some p' ∧ p'.cls = p.cls ∧
      List.Forall₂ SameField p.fields p'.fields) ∧
    (∀ path, pkgAt d path = none → pkgAt (removeAll d) path = none) ∧
    (removeAll d).cls = d.cls ∧
    List.Forall₂ (fun x y => y.1 = x.1 ∧ (x.1.1 ≠ k!"adminData" → x.1.1 ≠ k!"arPackages" → y.2 = x.2)) d.fields (removeAll d).fields := by
  refine ⟨fun i path p hp => ⟨processPkg p, by rw [pkgAt_removeAll, hp]; rfl, processPkg_cls p, ?_⟩, fun path hp => ?_, ?_, ?_⟩
  · rw [processPkg_fields]
    exact forall₂_map _ fun f _ => onField_same f
  · cases path with
    | nil => cases hp
    | cons i path => rw [pkgAt_removeAll, hp]; rfl
  · cases d <;> rfl
  · rw [removeAll_fields]
    refine forall₂_map _ fun f _ => ?_
    by_cases h : f.1.1 = k!"adminData"
    · simp [h]
    · by_cases h' : f.1.1 = k!"arPackages" <;> simp [h, h']

/-- a document with admin data on a nested package and on its elements -/
def adminDoc : MObj Nat :=
  .mk k!"AUTOSAR" [((k!"adminData", false), [.mk k!"AdminData" []]), ((k!"arPackages", false), [
    .mk k!"ARPackage" [((k!"short_name", false), [.scal (.str "A".toList)]), ((k!"arPackages", false), [
      .mk k!"ARPackage" [((k!"adminData", false), [.mk k!"AdminData" []]), ((k!"elements", false), [
        .mk k!"ApplicationSwComponentType" [((k!"short_name", false), [.scal (.str "C".toList)]), ((k!"adminData", false), [.mk k!"AdminData" []])],
        .mk k!"HwElement" [((k!"short_name", false), [.scal (.str "H".toList)])]])]])]])]

/-- non-vacuity: the hypotheses hold for it, and its package `[0, 0]` has an element with admin data before -/
example : (∀ path p, pkgAt adminDoc path = some p → ∀ e ∈ p.get k!"elements", armodel.sub e.cls k!"Referrable" = true ∧ HasAttribute e) ∧
    ∃ p, pkgAt adminDoc [0, 0] = some p ∧ (p.get k!"adminData").length = 1 ∧ (p.get k!"elements").length = 2 ∧
      ∃ e ∈ p.get k!"elements", (e.get k!"adminData").length = 1 := by
  refine ⟨?_, _, rfl, by decide, by decide, _, List.mem_cons_self .., by decide⟩
  have r1 : armodel.sub k!"ApplicationSwComponentType" k!"Referrable" = true := by decide +kernel
  have r2 : armodel.sub k!"HwElement" k!"Referrable" = true := by decide +kernel
  have r3 : (inits k!"ApplicationSwComponentType" k!"adminData").isSome = true := by decide +kernel
  intro path p hp e he
  match path with
  | [] => cases hp; exact absurd he (by simp [adminDoc, MObj.get, MObj.fields, hits])
  | [0] => cases hp; exact absurd he (by simp [MObj.get, MObj.fields, hits])
  | [0, 0] =>
    cases hp
    simp only [MObj.get, MObj.fields, hits, List.flatMap_cons, List.flatMap_nil] at he
    simp at he
    rcases he with rfl | rfl
    · exact ⟨r1, fun _ => r3⟩
    · refine ⟨r2, fun h => absurd ?_ h⟩
      simp [MObj.get, MObj.fields, hits]
  | 0 :: 0 :: n :: r => simp [pkgAt, adminDoc, MObj.get, MObj.fields, hits] at hp
  | 0 :: (n + 1) :: r => simp [pkgAt, adminDoc, MObj.get, MObj.fields, hits] at hp
  | (n + 1) :: r => simp [pkgAt, adminDoc, MObj.get, MObj.fields, hits] at hp

/-- elements below the elements of a package keep their admin data: the transformer does not look into them -/
theorem C41_nested_kept (e : MObj F) (f : Key × Bool) (vs : List (MObj F)) (h : (f, vs) ∈ e.fields) (hf : f.1 ≠ k!"adminData") :
    (f, vs) ∈ (processElement e).fields := by
  have hr : (f, vs) ∈ e.removeAdminData.fields := by
    cases e with
    | scal s => exact h
    | mk c fs =>
      simp only [MObj.removeAdminData, MObj.fields, List.mem_map] at *
      exact ⟨_, h, by simp [hf]⟩
  unfold processElement
  split
  · exact hr
  · split
    · exact hr
    · exact h

end Verif.Props
