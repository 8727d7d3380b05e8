import Verif.Lemmas.Fuel
import Verif.Lemmas.Needs
import Verif.Gen.PairsOk
/-!
# Loading and saving whole documents
-/
namespace Verif.Lemmas
open Verif Verif.Model Verif.Spec

theorem pairs_ok : ∀ k, ∀ p ∈ pairs k, p.check readers writers conds reordered pairs = true := by
  intro k p hp
  unfold pairs at hp
  split at hp
  · rename_i ps hps
    have := (Bst.all_toList _ _).1 Gen.pairTable_ok _ (Bst.find?_mem hps)
    exact List.all_eq_true.1 this p hp
  · cases hp

theorem readTable_moving : Gen.readTable.all (fun _ b => b.slots.all fun s => !deep s.item || moves s.path) = true := by
  decide +kernel

theorem moving : Moving readers := by
  intro k b hb s hs hd
  unfold readers at hb
  split at hb
  · cases hb
    have : (loadBody.slots.all fun s => !deep s.item || moves s.path) = true := by decide +kernel
    simpa [hd] using List.all_eq_true.1 this s hs
  · have := (Bst.all_toList _ _).1 readTable_moving _ (Bst.find?_mem hb)
    rw [List.all_eq_true] at this
    simpa [hd] using this s hs

/-- every method a reader method calls for an object exists -/
theorem readers_closed : (loadBody.slots.all fun s => match s.item with
      | .objs alts => alts.all fun a => (readers a.2).isSome
      | _ => true) = true ∧ Gen.readTable.all (fun _ b => b.slots.all fun s => match s.item with
      | .objs alts => alts.all fun a => (readers a.2).isSome
      | _ => true) = true := by
  constructor <;> decide +kernel

section
variable {py : Py} {repr : py.F → Str} {strict : Bool}

theorem mapE_err {α β ε : Type} {f : α → Except ε β} {l : List α} {e : ε} (h : mapE f l = .error e) : ∃ x ∈ l, f x = .error e := by
  induction l with
  | nil => cases h
  | cons x l ih =>
    simp only [mapE] at h
    split at h
    · rename_i e' he; cases h; exact ⟨x, by simp, he⟩
    · split at h
      · rename_i e' he
        cases h
        obtain ⟨y, hy, hf⟩ := ih he
        exact ⟨y, by simp [hy], hf⟩
      · cases h

theorem altOf_mem' {alts : List (Key × Key)} {t k : Key} (h : altOf alts t = some k) : ∃ t', (t', k) ∈ alts := by
  induction alts with
  | nil => cases h
  | cons a l ih =>
    obtain ⟨t', k'⟩ := a
    simp only [altOf] at h
    split at h
    · cases h; exact ⟨t', by simp⟩
    · obtain ⟨u, hu⟩ := ih h; exact ⟨u, by simp [hu]⟩

/-- with enough fuel the reader does not run out of it -/
theorem readObj_fuel {n : Nat} {k : Key} {x : Xml} (hn : x.depth ≤ n) (hk : (readers k).isSome = true) :
    readObj py strict readers n k x ≠ .error .fuel := by
  induction n generalizing k x with
  | zero => have := depth_pos x; omega
  | succ n ih =>
    intro h
    simp only [readObj] at h
    split at h
    · rename_i hb; rw [hb] at hk; cases hk
    rename_i b hb
    simp only [readBody] at h
    split at h
    swap
    · split at h <;> cases h
    rename_i e he
    cases h
    obtain ⟨s, hs, hse⟩ := mapE_err he
    simp only [readSlot] at hse
    split at hse
    swap
    · split at hse
      · cases hse
      · split at hse <;> cases hse
      · cases hse
    rename_i e he
    cases hse
    obtain ⟨y, hy, hye⟩ := mapE_err he
    have hcl : (match s.item with
      | .objs alts => alts.all fun a => (readers a.2).isSome
      | _ => true) = true := by
      have hb' := hb
      unfold readers at hb'
      split at hb'
      · cases hb'
        exact List.all_eq_true.1 readers_closed.1 s hs
      · exact List.all_eq_true.1 ((Bst.all_toList _ _).1 readers_closed.2 _ (Bst.find?_mem hb')) s hs
    cases hi : s.item with
    | objs alts =>
      rw [hi] at hcl hye
      simp only [readItem] at hye
      split at hye
      · cases hye
      rename_i k' hk'
      split at hye
      · rename_i e' he'
        cases hye
        obtain ⟨t', ht'⟩ := altOf_mem' hk'
        have hd := (select_depth hy).2 (moving k b hb s hs (by rw [hi]; rfl))
        exact ih (x := y) (by omega) (List.all_eq_true.1 hcl _ ht') he'
      · cases hye
    | prim kk =>
      rw [hi] at hye
      simp only [readItem] at hye
      cases hr : readKind py kk y with
      | error e => rw [hr] at hye; cases hye
      | ok r => rw [hr] at hye; cases r <;> cases hye
    | attr a kk =>
      rw [hi] at hye
      simp only [readItem] at hye
      split at hye
      · cases hye
      · rename_i v hv
        cases hr : readAttr py strict kk v with
        | error e => rw [hr] at hye; cases hye
        | ok r => rw [hr] at hye; cases r <;> cases hye
    | name =>
      rw [hi] at hye
      simp only [readItem] at hye
      split at hye <;> cases hye
    | guard tags g =>
      rw [hi] at hye
      simp only [readItem] at hye
      split at hye
      · cases hye
      · cases g <;> cases strict <;> cases hye
    | want t e =>
      rw [hi] at hye
      simp only [readItem] at hye
      split at hye <;> cases hye
    | crash e =>
      rw [hi] at hye
      cases hye

/-- the element with a schema location -/
def addSchema : Xml → Xml
  | .node t a s kids => .node t (a ++ [(k!"xsi:schemaLocation", defaultSchema)]) s kids

theorem readers_load : readers k!"load" = some loadBody := if_pos rfl

theorem writers_save : writers k!"save" = some saveBody := if_pos rfl

/-- the slots besides the schema location -/
theorem loadBody_slots : loadBody.slots =
    { field := k!"schema_location", path := .nil, item := .attr k!"xsi:schemaLocation" .raw } :: loadBody.slots.tail := rfl

theorem select_addSchema {s : RSlot} (hs : s ∈ loadBody.slots.tail) (x : Xml) : select s.path (addSchema x) = select s.path x := by
  cases x with
  | node t a tx kids =>
    simp only [loadBody, Gen.R.readARPackages, List.cons_append, List.nil_append, List.tail_cons, List.mem_cons, List.not_mem_nil, or_false] at hs
    rcases hs with rfl | rfl | rfl <;> rfl

theorem readSchema (rd : Key → Xml → Except RErr (MObj py.F)) (x : Xml) :
    readSlot py strict rd x { field := k!"schema_location", path := .nil, item := .attr k!"xsi:schemaLocation" .raw } =
      .ok (match x.attr k!"xsi:schemaLocation" with
        | none => []
        | some v => [.scal (.str v)]) := by
  simp only [readSlot, select, mapE, readItem]
  cases x.attr k!"xsi:schemaLocation" <;> rfl

theorem attr_addSchema {x : Xml} (h : x.attr k!"xsi:schemaLocation" = none) :
    (addSchema x).attr k!"xsi:schemaLocation" = some defaultSchema := by
  cases x with
  | node t a s kids =>
    simp only [Xml.attr, Xml.attrs, addSchema] at h ⊢
    induction a with
    | nil => rfl
    | cons e a ih =>
      obtain ⟨k, v⟩ := e
      simp only [List.cons_append, List.lookup_cons] at h ⊢
      split at h
      · cases h
      · exact ih h

theorem names_load (v v' : List (MObj py.F)) (vss : List (List (MObj py.F))) :
    namesOk loadBody.slots (MObj.mk k!"AUTOSAR" ((loadBody.slots.map RSlot.key).zip (v :: vss))) =
      namesOk loadBody.slots (MObj.mk k!"AUTOSAR" ((loadBody.slots.map RSlot.key).zip (v' :: vss))) := by
  have : ∀ u : List (MObj py.F), MObj.get (MObj.mk k!"AUTOSAR" ((loadBody.slots.map RSlot.key).zip (u :: vss))) k!"arPackages" =
      MObj.get (MObj.mk k!"AUTOSAR" ((loadBody.slots.tail.map RSlot.key).zip vss)) k!"arPackages" := by
    intro u
    rw [loadBody_slots]
    simp only [List.map_cons, List.zip_cons_cons, MObj.get, MObj.fields, List.flatMap_cons]
    rfl
  have e : ∀ o : MObj py.F, namesOk loadBody.slots o = decide ((o.get k!"arPackages").map MObj.name).Nodup := by
    intro o
    simp [namesOk, loadBody, Gen.R.readARPackages]
  rw [e, e, this, this]

theorem get_schema (v : List (MObj py.F)) (vss : List (List (MObj py.F))) :
    MObj.get (MObj.mk k!"AUTOSAR" ((loadBody.slots.map RSlot.key).zip (v :: vss))) k!"schema_location" = v := by
  match vss with
  | [] => simp [loadBody, Gen.R.readARPackages, MObj.get, MObj.fields, hits, RSlot.key]
  | [a] => simp [loadBody, Gen.R.readARPackages, MObj.get, MObj.fields, hits, RSlot.key]
  | [a, b] =>
    simp [loadBody, Gen.R.readARPackages, MObj.get, MObj.fields, hits, RSlot.key]
  | a :: b :: c :: l =>
    simp [loadBody, Gen.R.readARPackages, MObj.get, MObj.fields, hits, RSlot.key]

theorem map_schema (v : List (MObj py.F)) (vss : List (List (MObj py.F))) (h : vss.length = 3) (u : List (MObj py.F)) :
    ((loadBody.slots.map RSlot.key).zip (v :: vss)).map (fun e => if e.1.1 = k!"schema_location" then (e.1, u) else e) =
      (loadBody.slots.map RSlot.key).zip (u :: vss) := by
  match vss, h with
  | [a, b, c], _ => rfl

/-- a document that was read, with the schema location it is saved with, could have been read as well -/
theorem load_schema {n : Nat} {x : Xml} {d : MObj py.F} (h : readObj py strict readers n k!"load" x = .ok d) :
    ∃ z, readObj py strict readers n k!"load" z = .ok (withSchema py d) := by
  cases n with
  | zero => cases h
  | succ n =>
    have h0 := h
    simp only [readObj, readers_load] at h
    simp only [readObj, readers_load]
    simp only [readBody] at h
    split at h
    · cases h
    rename_i vss hvss
    split at h
    swap
    · cases h
    rename_i hn
    cases h
    have hv := hvss
    rw [loadBody_slots] at hv
    simp only [mapE, readSchema] at hv
    split at hv
    · cases hv
    rename_i vs hvs
    cases hv
    have hlen : vs.length = 3 := (mapE_ok hvs).length_eq.symm
    cases hx : x.attr k!"xsi:schemaLocation" with
    | some v =>
      refine ⟨x, ?_⟩
      simp only [withSchema]
      rw [show loadBody.cls = k!"AUTOSAR" from rfl, get_schema]
      simp only [reduceCtorEq, if_false]
      simp only [readObj, readers_load] at h0
      rw [hx] at h0
      exact h0
    | none =>
      refine ⟨addSchema x, ?_⟩
      simp only [withSchema]
      rw [show loadBody.cls = k!"AUTOSAR" from rfl, get_schema]
      simp only [if_true]
      rw [map_schema _ _ hlen]
      have hm : mapE (readSlot py strict (readObj py strict readers n) (addSchema x)) loadBody.slots =
          .ok ([.scal (.str defaultSchema)] :: vs) := by
        rw [loadBody_slots]
        simp only [mapE, readSchema, attr_addSchema hx]
        rw [mapE_eq (g := readSlot py strict (readObj py strict readers n) x), hvs]
        intro s hs
        simp only [readSlot, select_addSchema hs]
      simp only [readBody, hm]
      rw [if_pos]
      · rfl
      · rw [← hn, show loadBody.cls = k!"AUTOSAR" from rfl]
        exact names_load _ _ _

theorem withSchema_get {d : MObj py.F} {c : Key} {fs : List ((Key × Bool) × List (MObj py.F))} (hd : d = .mk c fs)
    (hf : ∃ e ∈ fs, e.1.1 = k!"schema_location") : (withSchema py d).get k!"schema_location" ≠ [] := by
  subst hd
  simp only [withSchema]
  split
  · obtain ⟨e, he, hk⟩ := hf
    intro h0
    simp only [MObj.get, MObj.fields, List.flatMap_eq_nil_iff] at h0
    have := h0 _ (List.mem_map.2 ⟨e, he, rfl⟩)
    simp [hk, hits] at this
  · assumption

theorem withSchema_id {d : MObj py.F} (h : d.get k!"schema_location" ≠ []) : withSchema py d = d := if_neg h

theorem withSchema_clean {d : MObj py.F} {D : Key → List Need} (hD : D k!"AUTOSAR" = []) (hcls : d.cls = k!"AUTOSAR") (h : Clean D strict d) :
    Clean D strict (withSchema py d) := by
  unfold withSchema
  split
  swap
  · exact h
  cases h with
  | scal s => exact .scal s
  | mk c fs hn hk =>
    refine .mk _ _ ?_ ?_
    · simp only [MObj.cls] at hcls
      subst hcls
      rw [hD]
      intro n hn; cases hn
    · intro e he v hv
      obtain ⟨e', he', rfl⟩ := List.mem_map.1 he
      split at hv
      · simp only [List.mem_singleton] at hv
        subst hv
        exact .scal _
      · exact hk e' he' v hv

theorem SameAll.length {S : Key → Key → Bool} {vs us : List (MObj py.F)} (h : SameAll S vs us) : vs.length = us.length := by
  induction vs generalizing us with
  | nil => cases h; rfl
  | cons v vs ih => cases h with
    | cons _ _ _ _ _ h => simp [ih h]

theorem sameFields_get {S : Key → Key → Bool} {c : Key} {fs fs' : List ((Key × Bool) × List (MObj py.F))} (h : SameFields S c fs fs') (f : Key) :
    ((MObj.mk c fs).get f).length = ((MObj.mk c fs').get f).length := by
  induction fs generalizing fs' with
  | nil => cases h; rfl
  | cons e fs ih =>
    simp only [MObj.get, MObj.fields] at ih ⊢
    cases h with
    | same _ _ _ _ _ _ h1 h2 =>
      simp only [List.flatMap_cons, List.length_append, ih h2]
      congr 1
      split
      · exact SameAll.length h1
      · rfl
    | sorted _ _ _ _ _ _ h0 h1 h2 =>
      simp only [List.flatMap_cons, List.length_append, ih h2]
      congr 1
      split
      · rw [SameAll.length h1]; exact (sortBy_perm _ _).length_eq.symm
      · rfl

theorem same_get {S : Key → Key → Bool} {o o' : MObj py.F} (h : Same S o o') (f : Key) : (o.get f).length = (o'.get f).length := by
  cases h with
  | scal s => rfl
  | mk c fs fs' h => exact sameFields_get h f

theorem load_fields {n : Nat} {x : Xml} {d : MObj py.F} (h : readObj py strict readers n k!"load" x = .ok d) :
    ∃ fs, d = .mk k!"AUTOSAR" fs ∧ ∃ e ∈ fs, e.1.1 = k!"schema_location" := by
  cases n with
  | zero => cases h
  | succ n =>
    simp only [readObj, readers_load, readBody] at h
    split at h
    · cases h
    rename_i vss hvss
    split at h
    swap
    · cases h
    cases h
    refine ⟨_, rfl, ?_⟩
    rw [loadBody_slots] at hvss ⊢
    simp only [mapE, readSchema] at hvss
    split at hvss
    · cases hvss
    cases hvss
    exact ⟨_, by simp only [List.map_cons, List.zip_cons_cons]; exact List.mem_cons_self, rfl⟩

theorem root_pair : (⟨k!"load", k!"save", k!"AUTOSAR", []⟩ : Pair) ∈ pairs k!"load" := by
  have : (pairs k!"load").contains ⟨k!"load", k!"save", k!"AUTOSAR", []⟩ = true := by decide +kernel
  simpa using this

theorem conds_doc : conds k!"AUTOSAR" = [] := by decide +kernel

theorem load_eq {x : Xml} {d : MObj py.F} (h : load py strict x = .ok d) : readObj py strict readers x.depth k!"load" x = .ok d := by
  unfold load at h
  split at h
  · cases h
  · exact h

theorem document {x : Xml} {d : MObj py.F} (hl : load py strict x = .ok d) (hc : Clean lossy strict d) :
    ∃ y d', save py repr strict d = .ok y ∧ (∀ y', Reload y y' → load py strict y' = .ok d') ∧ Same reordered (withSchema py d) d' ∧
      save py repr strict d' = .ok y := by
  have hr := load_eq hl
  obtain ⟨fs, hd, hf⟩ := load_fields hr
  obtain ⟨z, hz⟩ := load_schema hr
  have hne := withSchema_get hd hf
  obtain ⟨d', y, hch⟩ := roundtrip (repr := repr) pairs_ok x.depth ⟨k!"load", k!"save", k!"AUTOSAR", []⟩ root_pair z (withSchema py d) hz
    (withSchema_clean conds_doc (by rw [hd]; rfl) (clean_conds hr hc)) (by intro m hm; cases hm)
  have hne' : d'.get k!"schema_location" ≠ [] := by
    intro h0
    apply hne
    have := same_get hch.same k!"schema_location"
    rw [h0] at this
    exact List.length_eq_zero_iff.1 this
  have hsave : ∀ e : MObj py.F, writeObj py repr strict writers x.depth k!"save" e = .ok { kids := [y] } → withSchema py e = e →
      save py repr strict e = .ok y := by
    intro e he hi
    have h1 := writeObj_mono (Nat.le_max_left x.depth e.depth) he
    rw [writeObj_stable (Nat.le_max_right _ _) (Nat.le_refl _)] at h1
    simp only [save, hi, h1]
  refine ⟨y, d', ?_, ?_, hch.same, hsave d' hch.w2 (withSchema_id hne')⟩
  · have := hsave (withSchema py d) hch.w1 (withSchema_id hne)
    simp only [save, withSchema_id hne] at this ⊢
    exact this
  · intro y' hy'
    have h1 := readObj_mono (Nat.le_max_left x.depth y'.depth) (hch.rd y' hy')
    rw [readObj_stable moving (Nat.le_max_right _ _) (Nat.le_refl _)] at h1
    have ht : y'.tag = k!"AUTOSAR" := hy'.tag.trans hch.tag
    unfold load
    rw [if_neg (by simp [ht])]
    exact h1

end
end Verif.Lemmas
