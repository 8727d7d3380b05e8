import Verif.Model.AdminData
import Verif.Spec.AdminData
/-!
# The transformer, field by field
-/
namespace Verif.Lemmas
open Verif Verif.Model Verif.Gen Verif.Spec
variable {F : Type}

/-- every `Referrable` with the attribute is `Identifiable` -/
theorem table_adminData : classTable.all (fun c _ =>
    !(armodel.sub c k!"Referrable") || !(inits c k!"adminData").isSome || armodel.sub c k!"Identifiable") = true := by decide +kernel

theorem identifiable_of {c : Key} (h1 : armodel.sub c k!"Referrable" = true) (h2 : (inits c k!"adminData").isSome = true) :
    armodel.sub c k!"Identifiable" = true := by
  cases hc : classTable.find? c with
  | some l =>
    have := (Bst.all_toList _ _).1 table_adminData _ (Bst.find?_mem hc)
    simpa [h1, h2] using this
  | none =>
    have : ancestors c = [c] := by simp [ancestors, hc]
    have e : c = k!"Referrable" := by
      have h1 : (ancestors c).contains k!"Referrable" = true := h1
      rw [this] at h1
      simpa [eq_comm] using h1
    subst e
    revert hc; decide +kernel

theorem hits_admin (k : Key × Bool) : hits k!"adminData" k = (k.1 == k!"adminData") := by
  unfold hits
  rw [show ((k!"adminData" : Key) == k!"elements") = false by decide]
  simp

theorem hits_pkgs (k : Key × Bool) : hits k!"arPackages" k = (k.1 == k!"arPackages") := by
  unfold hits
  rw [show ((k!"arPackages" : Key) == k!"elements") = false by decide]
  simp

theorem hits_elements (k : Key × Bool) : hits k!"elements" k = isMember k := by
  unfold hits isMember
  cases k.2 <;> simp

theorem removeAdminData_get (e : MObj F) : e.removeAdminData.get k!"adminData" = [] := by
  cases e with
  | scal s => rfl
  | mk c fs =>
    simp only [MObj.removeAdminData, MObj.get, MObj.fields, List.flatMap_eq_nil_iff, List.mem_map, hits_admin]
    rintro x ⟨y, _, rfl⟩
    by_cases h : y.1.1 = k!"adminData" <;> simp [h]

theorem removeAdminData_same (e : MObj F) : SameButAdminData e e.removeAdminData := by
  cases e with
  | scal s => exact ⟨rfl, .nil⟩
  | mk c fs =>
    refine ⟨rfl, ?_⟩
    simp only [MObj.removeAdminData, MObj.fields]
    induction fs with
    | nil => exact .nil
    | cons f fs ih =>
      refine .cons ?_ ih
      by_cases h : f.1.1 = k!"adminData" <;> simp [h]

theorem same_refl (e : MObj F) : SameButAdminData e e := by
  refine ⟨rfl, ?_⟩
  induction e.fields with
  | nil => exact .nil
  | cons f fs ih => exact .cons ⟨rfl, fun _ => rfl⟩ ih

theorem processElement_same (e : MObj F) : SameButAdminData e (processElement e) := by
  unfold processElement
  split
  · exact removeAdminData_same e
  · split
    · exact removeAdminData_same e
    · exact same_refl e

theorem processElement_get (e : MObj F) (hr : armodel.sub e.cls k!"Referrable" = true) (ha : HasAttribute e) :
    (processElement e).get k!"adminData" = [] := by
  unfold processElement
  split
  · exact removeAdminData_get e
  · split
    · exact removeAdminData_get e
    · rename_i h
      by_contra hne
      exact h (identifiable_of hr (ha hne))

theorem processPkgs_map (vs : List (MObj F)) : processPkgs vs = vs.map processPkg := by
  induction vs with
  | nil => simp [processPkgs]
  | cons v vs ih => simp [processPkgs, ih]

/-- the fields of a processed package, one by one -/
def onField (f : (Key × Bool) × List (MObj F)) : (Key × Bool) × List (MObj F) :=
  (f.1, if f.1.1 = k!"arPackages" then f.2.map processPkg
        else if f.1.1 = k!"adminData" then []
        else if isMember f.1 = true then f.2.map processElement
        else f.2)

theorem processFields_map (fs : List ((Key × Bool) × List (MObj F))) : processFields fs = fs.map onField := by
  induction fs with
  | nil => simp [processFields]
  | cons f fs ih =>
    obtain ⟨k, vs⟩ := f
    simp only [processFields, ih, List.map_cons, onField, processPkgs_map]

theorem processPkg_fields (p : MObj F) : (processPkg p).fields = p.fields.map onField := by
  cases p with
  | scal s => simp [processPkg, MObj.fields]
  | mk c fs => simp [processPkg, MObj.fields, processFields_map]

theorem processPkg_cls (p : MObj F) : (processPkg p).cls = p.cls := by
  cases p <;> simp [processPkg, MObj.cls]

theorem flatMap_pkgs (fs : List ((Key × Bool) × List (MObj F))) (g : (Key × Bool) × List (MObj F) → (Key × Bool) × List (MObj F))
    (h1 : ∀ f, (g f).1 = f.1) (h2 : ∀ f, f.1.1 = k!"arPackages" → (g f).2 = f.2.map processPkg) :
    ((fs.map g).flatMap fun e => if hits k!"arPackages" e.1 then e.2 else []) =
      (fs.flatMap fun e => if hits k!"arPackages" e.1 then e.2 else []).map processPkg := by
  induction fs with
  | nil => rfl
  | cons f fs ih =>
    simp only [List.map_cons, List.flatMap_cons, List.map_append, ih, h1]
    by_cases h : f.1.1 = k!"arPackages"
    · rw [hits_pkgs, h2 f h]; simp [h]
    · rw [hits_pkgs]; simp [h]

theorem processPkg_pkgs (p : MObj F) : (processPkg p).get k!"arPackages" = (p.get k!"arPackages").map processPkg := by
  simp only [MObj.get, processPkg_fields]
  exact flatMap_pkgs _ _ (fun f => rfl) (fun f h => by simp [onField, h])

theorem removeAll_fields (d : MObj F) : (removeAll d).fields = d.fields.map fun e =>
      if e.1.1 = k!"adminData" then (e.1, [])
      else if e.1.1 = k!"arPackages" then (e.1, e.2.map processPkg)
      else e := by
  cases d with
  | scal s => simp [removeAll, MObj.fields]
  | mk c fs => simp [removeAll, MObj.fields, processPkgs_map]

theorem removeAll_pkgs (d : MObj F) : (removeAll d).get k!"arPackages" = (d.get k!"arPackages").map processPkg := by
  simp only [MObj.get, removeAll_fields]
  refine flatMap_pkgs _ _ (fun f => ?_) (fun f h => ?_)
  · split
    · rfl
    · split <;> rfl
  · rw [if_neg (by rw [h]; decide), if_pos h]

theorem pkgAt_process (path : List Nat) : ∀ p : MObj F, pkgAt (processPkg p) path = (pkgAt p path).map processPkg := by
  induction path with
  | nil => intro p; rfl
  | cons i path ih =>
    intro p
    simp only [pkgAt, processPkg_pkgs, List.getElem?_map]
    cases (p.get k!"arPackages")[i]? with
    | none => rfl
    | some q => simpa using ih q

theorem pkgAt_removeAll (i : Nat) (path : List Nat) (d : MObj F) :
    pkgAt (removeAll d) (i :: path) = (pkgAt d (i :: path)).map processPkg := by
  simp only [pkgAt, removeAll_pkgs, List.getElem?_map]
  cases (d.get k!"arPackages")[i]? with
  | none => rfl
  | some q => simpa using pkgAt_process path q

theorem processPkg_admin (p : MObj F) : (processPkg p).get k!"adminData" = [] := by
  simp only [MObj.get, processPkg_fields, List.flatMap_eq_nil_iff, List.mem_map, hits_admin]
  rintro x ⟨y, _, rfl⟩
  by_cases h : y.1.1 = k!"adminData" <;> simp [h, onField]

theorem processPkg_elements (p : MObj F) (e' : MObj F) (h : e' ∈ (processPkg p).get k!"elements") :
    (∃ e ∈ p.get k!"elements", e' = processElement e) ∨ ∃ q, e' = processPkg q := by
  simp only [MObj.get, processPkg_fields, List.mem_flatMap, List.mem_map] at h
  obtain ⟨x, ⟨f, hf, rfl⟩, hx⟩ := h
  simp only [onField, hits_elements] at hx
  by_cases hm : isMember f.1 = true
  · rw [if_pos hm] at hx
    split at hx
    · obtain ⟨q, _, rfl⟩ := List.mem_map.1 hx; exact .inr ⟨q, rfl⟩
    · split at hx
      · cases hx
      · obtain ⟨e, he, rfl⟩ := List.mem_map.1 hx
        left
        refine ⟨e, ?_, rfl⟩
        simp only [MObj.get, List.mem_flatMap]
        exact ⟨f, hf, by rw [hits_elements, if_pos hm]; exact he⟩
  · rw [if_neg hm] at hx; cases hx

theorem forall₂_map {α β : Type} {R : α → β → Prop} {g : α → β} (l : List α) (h : ∀ a ∈ l, R a (g a)) : List.Forall₂ R l (l.map g) := by
  induction l with
  | nil => exact .nil
  | cons a l ih => exact .cons (h a (.head _)) (ih fun b hb => h b (.tail _ hb))

theorem onField_same (f : (Key × Bool) × List (MObj F)) : SameField f (onField f) := by
  refine ⟨rfl, fun h => by simp [onField, h], fun h1 h2 => ?_⟩
  have hm : (f.1.2 = true ∨ f.1.1 = k!"elements") ↔ isMember f.1 = true := by simp [isMember]
  by_cases h : isMember f.1 = true
  · rw [if_pos (hm.2 h)]
    simp only [onField, if_neg h1, if_neg h2, if_pos h]
    exact forall₂_map _ fun e _ => processElement_same e
  · rw [if_neg (fun h' => h (hm.1 h'))]
    simp only [onField, if_neg h1, if_neg h2, if_neg h]

end Verif.Lemmas
