import Verif.Spec.Plain
import Verif.Props.Rename
/-!
# Property C74: methods that work on plain lists
-/
namespace Verif.Props
open Verif.Model Verif.Spec Verif.Model.Plain Verif.Spec.Plain

/-- **C74** In any state, whatever was renamed: what is found under a name is the first object of the list that has this name now, and nothing
is found exactly if no object has it. -/
theorem C74_current (s : Named) (n : Option String) :
    (∀ q, s.get n = some q ↔ FirstNamed s n q) ∧ (s.get n = none ↔ ∀ x ∈ s.items, s.names x ≠ n) := by
  constructor
  · intro q
    unfold Named.get FirstNamed
    rw [List.find?_eq_some_iff_append]
    constructor
    · rintro ⟨h1, as, bs, h2, h3⟩
      exact ⟨as, bs, h2, by simpa using h1, fun x hx => by simpa using h3 x hx⟩
    · rintro ⟨as, bs, h1, h2, h3⟩
      exact ⟨by simpa using h2, as, bs, h1, fun x hx => by simpa using h3 x hx⟩
  · unfold Named.get
    rw [List.find?_eq_none]
    simp

theorem plain_get_append {s : Named} {n : Option String} {f : Nat} (hf : f ∉ s.items) (h : s.get n = none) : (s.append n f).get n = some f := by
  have h' := (C74_current s n).2.1 h
  refine ((C74_current _ n).1 f).2 ⟨s.items, [], rfl, if_pos rfl, fun x hx => ?_⟩
  show (if x = f then n else s.names x) ≠ n
  rw [if_neg (by rintro rfl; exact hf hx)]
  exact h' x hx

/-- both create methods do the same for a name: what is found, if something is found, and otherwise a new object at the end of the list -/
theorem plain_create_eq (s : Named) (n : String) (f : Nat) (hf : f ∉ s.items) :
    s.createQuery (some n) f = (match s.get (some n) with | some q => (s, some q) | none => (s.append (some n) f, some f)) ∧
    s.createPinGroup (some n) f = s.createQuery (some n) f := by
  have h1 : s.createQuery (some n) f = (match s.get (some n) with | some q => (s, some q) | none => (s.append (some n) f, some f)) := rfl
  refine ⟨h1, ?_⟩
  rw [h1]
  unfold Named.createPinGroup
  cases hg : s.get (some n) with
  | some q =>
    have : s.items.any (fun g => s.names g == some n) = true := by
      rw [← List.isSome_find?]; exact (congrArg Option.isSome hg).trans rfl
    rw [this]
    exact Prod.ext rfl hg
  | none =>
    have : s.items.any (fun g => s.names g == some n) = false := by
      rw [← List.isSome_find?]; exact (congrArg Option.isSome hg).trans rfl
    rw [this]
    exact Prod.ext rfl (plain_get_append hf hg)

/-- **C74** The create methods return the first object that has the name now; if there is none, a new object with this name is put at the end of the
list and returned.  Other objects keep their names, and a second call with the name returns the same object and changes nothing. -/
theorem C74_create (s : Named) (n : String) (f : Nat) (hf : f ∉ s.items) (create : Named → Option String → Nat → Named × Option Nat)
    (hc : create = Named.createQuery ∨ create = Named.createPinGroup) :
    (∀ q, FirstNamed s (some n) q → create s (some n) f = (s, some q)) ∧
    ((∀ x ∈ s.items, s.names x ≠ some n) → (create s (some n) f).2 = some f ∧ (create s (some n) f).1.items = s.items ++ [f] ∧
      (create s (some n) f).1.names f = some n ∧ ∀ x, x ≠ f → (create s (some n) f).1.names x = s.names x) ∧
    ∀ g, g ∉ (create s (some n) f).1.items → create (create s (some n) f).1 (some n) g = create s (some n) f := by
  have key : ∀ (s : Named) (f : Nat), f ∉ s.items →
      create s (some n) f = match s.get (some n) with | some q => (s, some q) | none => (s.append (some n) f, some f) := by
    intro s f hf
    rcases hc with rfl | rfl
    · exact (plain_create_eq s n f hf).1
    · rw [(plain_create_eq s n f hf).2]; exact (plain_create_eq s n f hf).1
  refine ⟨fun q hq => ?_, fun h => ?_, fun g hg => ?_⟩
  · rw [key s f hf, ((C74_current s _).1 q).2 hq]
  · rw [key s f hf, (C74_current s _).2.2 h]
    exact ⟨rfl, rfl, if_pos rfl, fun x hx => if_neg hx⟩
  · rw [key _ g hg, key s f hf]
    cases h : s.get (some n) with
    | some q => simp only [h]
    | none => simp only [plain_get_append hf h]

/-- **C74** Queries: without a name nothing is created and nothing returned. -/
theorem C74_no_name (s : Named) (f : Nat) : s.createQuery none f = (s, none) := rfl

/-- **C74** In contrast to collections (`C72_stale_broken`): an object of the list that is renamed to a name no object of the list has is found under
the new name, not under the old one, and the create methods return it instead of making a second one. -/
theorem C74_renamed (s : Named) (q : Nat) (m : String) (hq : q ∈ s.items) (hm : ∀ x ∈ s.items, s.names x ≠ some m) (f : Nat) (hf : f ∉ s.items) :
    (s.rename q (some m)).get (some m) = some q ∧ (s.rename q (some m)).get (s.names q) ≠ some q ∧
    (s.rename q (some m)).createQuery (some m) f = (s.rename q (some m), some q) ∧
    (s.rename q (some m)).createPinGroup (some m) f = (s.rename q (some m), some q) := by
  have hg : (s.rename q (some m)).get (some m) = some q := by
    cases h : (s.rename q (some m)).get (some m) with
    | none => exact absurd (if_pos rfl) ((C74_current _ _).2.1 h q hq)
    | some p =>
      obtain ⟨as, bs, h1, h2, -⟩ := ((C74_current _ _).1 p).1 h
      have hp : p ∈ s.items := by
        have : p ∈ as ++ p :: bs := by simp
        rwa [← h1] at this
      by_cases hpq : p = q
      · rw [hpq]
      · have h2' : (if p = q then some m else s.names p) = some m := h2
        rw [if_neg hpq] at h2'
        exact absurd h2' (hm p hp)
  refine ⟨hg, fun h => ?_, ?_, ?_⟩
  · obtain ⟨_, _, _, h2, _⟩ := ((C74_current _ _).1 q).1 h
    have h2' : (if q = q then some m else s.names q) = s.names q := h2
    rw [if_pos rfl] at h2'
    exact hm q hq h2'.symm
  · rw [(plain_create_eq (s.rename q (some m)) m f hf).1, hg]
  · rw [(plain_create_eq (s.rename q (some m)) m f hf).2, (plain_create_eq (s.rename q (some m)) m f hf).1, hg]

theorem plain_tidy_append {s : Named} {n : Option String} {f : Nat} (h : s.items.Pairwise fun a b => s.names a ≠ s.names b) (hf : f ∉ s.items)
    (hn : ∀ x ∈ s.items, s.names x ≠ n) : (s.append n f).items.Pairwise fun a b => (s.append n f).names a ≠ (s.append n f).names b := by
  have hk : ∀ x ∈ s.items, (s.append n f).names x = s.names x := fun x hx => if_neg (by rintro rfl; exact hf hx)
  refine List.pairwise_append.2 ⟨?_, List.pairwise_singleton _ _, fun a ha b hb => ?_⟩
  · refine List.Pairwise.imp_of_mem ?_ h
    intro a b ha hb hab
    rw [hk a ha, hk b hb]
    exact hab
  · rw [List.mem_singleton.1 hb, hk a ha, show (s.append n f).names f = n from if_pos rfl]
    exact hn a ha

/-- **C74** Along every sequence of create calls and of renamings to names that are not in use, no two objects of the list have the same name. -/
theorem C74_one_per_name (s : Named) (h : Tidy s) : s.items.Pairwise fun a b => s.names a ≠ s.names b := by
  induction h with
  | new => exact List.Pairwise.nil
  | @query s n f _ hf ih =>
    unfold Named.createQuery
    split
    · exact ih
    · split
      · exact ih
      · rename_i h
        exact plain_tidy_append ih hf ((C74_current s _).2.1 h)
  | @pinGroup s n f _ hf ih =>
    unfold Named.createPinGroup
    dsimp only
    split
    · exact ih
    · rename_i h
      refine plain_tidy_append ih hf fun x hx hn => h (List.any_eq_true.2 ⟨x, hx, by simpa using hn⟩)
  | @rename s i n _ hn ih =>
    refine List.Pairwise.imp_of_mem ?_ (show s.items.Pairwise fun a b => s.names a ≠ s.names b ∧ a ≠ b from
      ih.imp fun h => ⟨h, fun hab => h (hab ▸ rfl)⟩)
    intro a b ha hb hab
    show (if a = i then n else s.names a) ≠ (if b = i then n else s.names b)
    split
    · split
      · rename_i h1 h2
        exact absurd (h1.trans h2.symm) hab.2
      · exact (hn b hb).symm
    · split
      · exact hn a ha
      · exact hab.1

/-! ## memory sections and key slots -/

variable {H : Hier}

/-- **C74** A memory section is looked up by the name it has now, whatever was renamed; without renamings of members this is what looking up an
element of this class gives. -/
theorem C74_section (s : Reg) (n : String) (t : Nat) :
    getSection H s n t = (membersNamed H s n t).head? ∧ (Calm H s → getSection H s n t = s.get H n t) := by
  have h : getSection H s n t = (membersNamed H s n t).head? := by
    unfold getSection membersNamed
    rw [List.head?_filter]
    exact congrArg (fun p => s.elements.find? p) (funext fun e => Bool.and_comm _ _)
  exact ⟨h, fun hc => h.trans (C72_lookup_partial s hc n t).1.symm⟩

/-- **C74** fails for key slots: if there is a content with the name already, the call returns a new object all the same, which is put into the list of
contents but not among the elements, so that it is not what is found under its name. -/
theorem C74_slot_broken (s : Reg) (h : Calm H s) (contents : List Ident) (n : String) (t f : Nat)
    (hx : membersNamed H s n t ≠ []) :
    (createSlotContent H s contents n t f).2.2 = ⟨f, t⟩ ∧ (createSlotContent H s contents n t f).2.1 = contents ++ [⟨f, t⟩] ∧
    (createSlotContent H s contents n t f).1.elements = s.elements ∧ (createSlotContent H s contents n t f).1.names f = n ∧
    (createSlotContent H s contents n t f).1.get H n t = (membersNamed H s n t).head? := by
  have hex : (s.rename f n).exists? H ((s.rename f n).names f) t = true := by
    rw [show (s.rename f n).names f = n from if_pos rfl]
    exact (C72_lookup_partial s h n t).2.2 hx
  have hadd : (s.rename f n).add H ⟨f, t⟩ = s.rename f n := by
    unfold Reg.add; rw [if_pos hex]
  unfold createSlotContent
  rw [hadd]
  exact ⟨rfl, rfl, rfl, if_pos rfl, (C72_lookup_partial s h n t).1⟩

/-- **C74** For a name that is not in use the content is created, is the last element and the last content, and is found under its name.
(Missing: names that are in use, see `C74_slot_broken`.) -/
theorem C74_slot_partial (s : Reg) (h : Calm H s) (contents : List Ident) (n : String) (t f : Nat) (hf : ¬ IsMember s f)
    (hx : membersNamed H s n t = []) :
    (createSlotContent H s contents n t f).2.2 = ⟨f, t⟩ ∧ (createSlotContent H s contents n t f).2.1 = contents ++ [⟨f, t⟩] ∧
    (createSlotContent H s contents n t f).1.elements = s.elements ++ [⟨f, t⟩] ∧ (createSlotContent H s contents n t f).1.names f = n ∧
    (createSlotContent H s contents n t f).1.get H n t = some ⟨f, t⟩ := by
  have hex : (s.rename f n).exists? H ((s.rename f n).names f) t = false := by
    rw [show (s.rename f n).names f = n from if_pos rfl]
    exact Bool.eq_false_iff.2 fun h' => (C72_lookup_partial s h n t).2.1 h' hx
  have hcalm : Calm H ((s.rename f n).add H ⟨f, t⟩) := .add _ (.rename f n h hf)
  have hnil : (s.rename f n).elements.filter (fun e => (s.rename f n).names e.id == n && H.sub e.cls t) = [] := by
    rw [List.filter_eq_nil_iff]
    intro e he
    rw [show (s.rename f n).names e.id = s.names e.id from if_neg fun h' => hf ⟨e, he, h'⟩]
    exact (List.filter_eq_nil_iff.1 hx) e he
  refine ⟨rfl, rfl, ?_, ?_, ?_⟩
  · show ((s.rename f n).add H ⟨f, t⟩).elements = _
    unfold Reg.add; rw [hex]; rfl
  · show ((s.rename f n).add H ⟨f, t⟩).names f = n
    unfold Reg.add; rw [hex]; exact if_pos rfl
  · show ((s.rename f n).add H ⟨f, t⟩).get H n t = _
    rw [(C72_lookup_partial _ hcalm n t).1]
    unfold Reg.add membersNamed
    rw [hex]
    show (((s.rename f n).elements ++ [(⟨f, t⟩ : Ident)]).filter fun e => (s.rename f n).names e.id == n && H.sub e.cls t).head? = _
    rw [List.filter_append, hnil]
    simp [H.refl, Reg.rename]

/-! ## values and descriptors -/

theorem plain_sorted_error {l : List α} (h : 2 ≤ l.length) : getVfs l = .error .typeError := by
  induction l with
  | nil => simp at h
  | cons a l ih =>
    unfold getVfs sortedBy
    match l with
    | [] => simp at h
    | [b] => rfl
    | b :: c :: l =>
      have := ih (by simp)
      unfold getVfs at this
      rw [this]; rfl

/-- **C74** The values of a value list can be read back exactly if there is at most one. -/
theorem C74_values_partial (l r : List α) : getVfs l = .ok r ↔ l.length ≤ 1 ∧ r = l := by
  match l with
  | [] => exact ⟨fun h => ⟨by simp, (Except.ok.inj h).symm⟩, fun h => by rw [h.2]; rfl⟩
  | [a] => exact ⟨fun h => ⟨by simp, (Except.ok.inj h).symm⟩, fun h => by rw [h.2]; rfl⟩
  | a :: b :: l =>
    rw [plain_sorted_error (by simp)]
    simp

/-- **C74** fails for value lists: with two values or more the call raises `TypeError`. -/
theorem C74_values_broken (a b : α) (l : List α) : getVfs (a :: b :: l) = .error .typeError := plain_sorted_error (by simp)

/-- **C74** Artifact descriptors by category: the descriptors of this category in their order, provided every descriptor has a category.
(Missing: descriptors without category, see `C74_descriptors_broken`.) -/
theorem C74_descriptors_partial (cat : α → Option String) (c : String) (ds : List α) (h : c ≠ "") (r : List α) :
    getArtifactDescriptors cat c ds = .ok r ↔ (∀ d ∈ ds, cat d ≠ none) ∧ r = ds.filter fun d => cat d == some c := by
  unfold getArtifactDescriptors
  rw [if_neg (by simpa using h)]
  induction ds generalizing r with
  | nil => exact ⟨fun h => ⟨by simp, (Except.ok.inj h).symm⟩, fun h => by rw [h.2]; rfl⟩
  | cons a ds ih =>
    unfold byCategory
    cases hc : cat a with
    | none => simp [hc]
    | some t =>
      cases hb : byCategory cat c ds with
      | error e =>
        have hno : ¬ ∀ d ∈ ds, cat d ≠ none := fun hall => by
          have := (ih (ds.filter fun d => cat d == some c)).2 ⟨hall, rfl⟩
          rw [hb] at this; cases this
        constructor
        · intro h; cases h
        · rintro ⟨h1, -⟩; exact absurd (fun d hd => h1 d (List.mem_cons_of_mem _ hd)) hno
      | ok r' =>
        obtain ⟨h1, h2⟩ := (ih r').1 hb
        have hall : ∀ d ∈ a :: ds, cat d ≠ none := by
          intro d hd
          rcases List.mem_cons.1 hd with rfl | hd
          · rw [hc]; simp
          · exact h1 d hd
        have hr : (if t == c then a :: r' else r') = (a :: ds).filter fun d => cat d == some c := by
          rw [List.filter_cons, hc, ← h2]
          by_cases htc : t = c
          · simp [htc]
          · have h1 : (t == c) = false := by simpa using htc
            have h2 : (some t == some c) = false := by simpa using htc
            rw [h1, h2]
        constructor
        · intro h; exact ⟨hall, (Except.ok.inj h).symm.trans hr⟩
        · rintro ⟨-, h⟩; rw [h, ← hr]; rfl

/-- **C74** fails for artifact descriptors: if some descriptor has no category, asking for a category raises `AttributeError`, whichever descriptors have
this category. -/
theorem C74_descriptors_broken (cat : α → Option String) (c : String) (ds : List α) (h : c ≠ "") (hd : ∃ d ∈ ds, cat d = none) :
    getArtifactDescriptors cat c ds = .error .attributeError := by
  unfold getArtifactDescriptors
  rw [if_neg (by simpa using h)]
  obtain ⟨d, hd, hn⟩ := hd
  induction ds with
  | nil => cases hd
  | cons a ds ih =>
    unfold byCategory
    cases hc : cat a with
    | none => rfl
    | some t =>
      rcases List.mem_cons.1 hd with rfl | hd
      · rw [hn] at hc; cases hc
      · rw [ih hd]; rfl

/-- **C74** Without a category all descriptors are returned. -/
theorem C74_descriptors_all (cat : α → Option String) (ds : List α) : getArtifactDescriptors cat "" ds = .ok ds := rfl

/-! ## concrete cases -/

/-- two queries, the second one created last, then renamed -/
def demoQueries : Named := (((⟨fun _ => none, []⟩ : Named).createQuery (some "A") 0).1.createQuery (some "B") 1).1.rename 1 (some "C")

theorem demoQueries_tidy : Tidy demoQueries :=
  .rename 1 _ (.query _ 1 (.query _ 0 (.new _) (by decide)) (by decide)) (by decide)

example : demoQueries.items = [0, 1] ∧ demoQueries.get (some "C") = some 1 ∧ demoQueries.get (some "B") = none ∧
    (demoQueries.createPinGroup (some "C") 2).2 = some 1 ∧ (demoQueries.createPinGroup (some "B") 2).2 = some 2 := by decide

/-- a collection with the content `A`: the second call with the name -/
example : membersNamed renameHier renameReg "A" 0 ≠ [] ∧ (createSlotContent renameHier renameReg [⟨0, 0⟩] "A" 0 7).2.1 = [⟨0, 0⟩, ⟨7, 0⟩] ∧
    (createSlotContent renameHier renameReg [⟨0, 0⟩] "A" 0 7).1.get renameHier "A" 0 = some ⟨0, 0⟩ ∧
    membersNamed renameHier renameReg "Z" 0 = [] := by decide

/-- a section renamed to `C` is found under its new name, in contrast to `getElement` -/
example : getSection renameHier (renameReg.rename 1 "C") "C" 1 = some ⟨1, 1⟩ ∧ (renameReg.rename 1 "C").get renameHier "C" 1 = none := by decide

example : getVfs [1] = .ok [1] ∧ getVfs [1, 2] = .error .typeError := ⟨rfl, rfl⟩

example : getArtifactDescriptors (fun d : Nat × Option String => d.2) "SWSRC" [(0, some "SWSRC"), (1, some "SWHDR"), (2, some "SWSRC")]
      = .ok [(0, some "SWSRC"), (2, some "SWSRC")] ∧
    getArtifactDescriptors (fun d : Nat × Option String => d.2) "SWSRC" [(0, some "SWSRC"), (1, none)] = .error .attributeError := ⟨rfl, rfl⟩

end Verif.Props
