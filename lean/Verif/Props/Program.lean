import Verif.Lemmas.Program
import Verif.Props.Built
/-!
# C85: documents built by programs
-/
namespace Verif.Props
open Verif Verif.Model Verif.Spec Verif.Lemmas

/-- **C85** Whatever a program does with a document (creating elements, setting and adding values of the right kind anywhere in it, loading files in
between, clearing it): every object has the attributes of its class, with values of the right kind, one where there can be only one, and
objects created by name have different names. -/
theorem C85_typed (py : Py) (d : MObj py.F) (h : History py d) : HasType readers k!"load" d := history_typed h

/-- **C85** An object that a program makes on its own, in order to pass it to a set or add method later. -/
theorem C85_object (py : Py) (k : Key) (b : RBody) (hb : readers k = some b) (o : MObj py.F)
    (h : Relation.ReflTransGen (Step readers k) (blankOf py b) o) : HasType readers k o := by
  induction h with
  | refl => exact blank_typed hb
  | tail _ hs ih => exact (step_typed (fun _ _ => readers_neat) hs ih).1

/-- **C85** One call changes neither the name nor the class of the object it is made on or in. -/
theorem C85_identity (py : Py) (k : Key) (o o' : MObj py.F) (ho : HasType readers k o) (h : Step readers k o o') : o'.cls = o.cls ∧ o'.name = o.name :=
  (step_typed (fun _ _ => readers_neat) h ho).2

/-- **C85** A document that a program has built can be saved if no mandatory attribute is missing and nothing in it is known to be lost; what is saved can be
loaded; this yields the document the program built (with the schema location that is written, and up to the order of what `save` sorts); and
saving that yields the same tree.  (What is missing: the attributes in `Spec/Defects.lean`.) -/
theorem C85_program_partial (py : Py) (repr : py.F → Str) (strict : Bool) (d : MObj py.F) (h : History py d)
    (hm : Complete readers strict invariants k!"load" d) (hc : Clean lossy strict d) :
    ∃ y d', save py repr strict d = .ok y ∧ (∀ y', Reload y y' → load py strict y' = .ok d') ∧ Same reordered (withSchema py d) d' ∧
      save py repr strict d' = .ok y := by
  obtain ⟨n, hn⟩ := history_typed h
  exact document_fits (shaped_of hn (hm n)) hc

/-- **C85** The same with files, if the texts the program has set consist of characters XML allows (`GoodChars`) and are not changed by pretty printing
(`Smooth`). -/
theorem C85_file_partial (py : Py) (repr : py.F → Str) (strict : Bool) (nc : NameChars) (d : MObj py.F) (h : History py d)
    (hm : Complete readers strict invariants k!"load" d) (hc : Clean lossy strict d)
    (hw : ∀ y, save py repr strict d = .ok y → Every GoodChars y ∧ Every Smooth y) :
    ∃ y f x' d', save py repr strict d = .ok y ∧ saveToFile py nc false y = some f ∧ parseFile nc f = some x' ∧
      load py strict x' = .ok d' ∧ Same reordered (withSchema py d) d' ∧
      ∃ y', save py repr strict d' = .ok y' ∧ saveToFile py nc false y' = some f := by
  obtain ⟨y, d', h1, h2, h3, h4⟩ := C85_program_partial py repr strict d h hm hc
  have h := file_read (py := py) (nc := nc) false ⟨save_names nc h1, (hw y h1).1⟩ (fun h => by cases h)
  cases hf : saveToFile py nc false y with
  | none => rw [hf] at h; cases h
  | some f =>
    rw [hf] at h
    exact ⟨y, f, _, d', h1, hf, h, h2 _ (reload_laid 0 y (hw y h1).2), h3, y, h4, hf⟩

/-- **C85** A document is of the shape `C63_built_partial` asks for exactly if it is well typed and complete. -/
theorem C85_shaped (py : Py) (strict : Bool) (d : MObj py.F) : (∃ n, Shaped strict readers invariants n k!"load" d) ↔
    HasType readers k!"load" d ∧ Complete readers strict invariants k!"load" d :=
  ⟨fun ⟨n, h⟩ => ⟨⟨n, typed_of h⟩, complete_of (fun _ _ => readers_neat) h⟩, fun ⟨⟨n, h⟩, hc⟩ => ⟨n, shaped_of h (hc n)⟩⟩

/-! ## What calls do -/

/-- **C85** After a set method was called, the attribute has the value that was passed, and every other attribute the values it had. -/
theorem C85_set (py : Py) (k : Key) (b : RBody) (hb : readers k = some b) (o : MObj py.F) (ho : HasType readers k o) (a : Key × Bool) (v : MObj py.F)
    (hf : Fitting readers b o (.set a v)) :
    ((Deed.set a v).run py readers o).vals a = [v] ∧ ∀ f, hits f a = false → ((Deed.set a v).run py readers o).get f = o.get f := by
  obtain ⟨s, hs, _⟩ := hf
  exact ⟨vals_change ho hb hs _, fun f hf => get_change_miss hf o⟩

/-- **C85** After an add method was called, the list has the value that was passed at its end, after what it had. -/
theorem C85_add (py : Py) (k : Key) (b : RBody) (hb : readers k = some b) (o : MObj py.F) (ho : HasType readers k o) (a : Key × Bool) (v : MObj py.F)
    (hf : Fitting readers b o (.add a v)) :
    ((Deed.add a v).run py readers o).vals a = o.vals a ++ [v] ∧ ∀ f, hits f a = false → ((Deed.add a v).run py readers o).get f = o.get f := by
  obtain ⟨s, hs, _⟩ := hf
  exact ⟨vals_change ho hb hs _, fun f hf => get_change_miss hf o⟩

/-- **C85** After a create method was called there is exactly one object of that name where the method creates objects, and it is of the class the method
creates.  If there was none, it is the last one of the attribute and nothing is set in it but the name; if there was one, nothing changes.
Other attributes have the values they had. -/
theorem C85_create (py : Py) (k : Key) (b : RBody) (hb : readers k = some b) (o : MObj py.F) (ho : HasType readers k o) (a : Key × Bool) (k' : Key) (n : Str)
    (b' : RBody) (hb' : readers k' = some b') (hf : Fitting readers b o (.create a k' n)) :
    let o' := (Deed.create a k' n).run py readers o
    (∃ v ∈ o'.get (collection a), v.cls = b'.cls ∧ v.name = n) ∧
      (∀ v ∈ o'.get (collection a), ∀ w ∈ o'.get (collection a), v.name = n → w.name = n → v = w) ∧
      ((∃ v ∈ o.get (collection a), v.name = n) → o' = o) ∧
      ((∀ v ∈ o.get (collection a), v.name ≠ n) → ∃ v, o'.vals a = o.vals a ++ [v] ∧ v.name = n ∧ v.cls = b'.cls ∧ ∀ f, hits f (k!"short_name", false) = false → v.get f = []) ∧
      ∀ f, hits f a = false → o'.get f = o.get f := by
  intro o'
  have hty : HasType readers k o' := (step_typed (fun _ _ => readers_neat) (.here hb hf) ho).1
  obtain ⟨s, alts, t, b2, hs, hnm, hi, hal, hb2, hne, hcase⟩ := hf
  rw [hb'] at hb2
  cases hb2
  have hm := slotAt_mem hs
  have hrun : o' = if (o.get (collection a)).any (isIt b'.cls n) then o else o.change a fun vs => vs ++ [namedObj py b' n] := by
    show (match readers k' with | none => o | some b => _) = _
    rw [hb']
  obtain ⟨s', hs', hsi, hsu⟩ := (readers_neat hb).target s hm.1 hnm alts hi t k' b' hal hb'
  have huniq : ∀ v ∈ o'.get (collection a), ∀ w ∈ o'.get (collection a), v.name = n → w.name = n → v = w := by
    have hnd := (namesOk_iff.1 (hasType_names hty hb).1 s hm.1).1 hnm
    rw [hm.2] at hnd
    intro v hv w hw h1 h2
    exact List.inj_on_of_nodup_map hnd hv hw (h1.trans h2.symm)
  by_cases hany : (o.get (collection a)).any (isIt b'.cls n) = true
  · rw [if_pos hany] at hrun
    obtain ⟨v, hv, hvi⟩ := List.any_eq_true.1 hany
    unfold isIt at hvi
    rw [Bool.and_eq_true, beq_iff_eq, beq_iff_eq] at hvi
    refine ⟨⟨v, hrun ▸ hv, hvi⟩, huniq, fun _ => hrun, fun h => absurd hvi.2 (h v hv), fun f _ => by rw [hrun]⟩
  · rw [if_neg hany] at hrun
    have hno := (hcase.resolve_left fun h => hany (List.any_eq_true.2 h.2)).1
    have hvals : o'.vals a = o.vals a ++ [namedObj py b' n] := by
      rw [hrun]
      exact vals_change ho hb hs _
    refine ⟨⟨namedObj py b' n, vals_get (hits_collection a) (by rw [hvals]; simp), named_cls b' n, named_name hs' n⟩, huniq,
      fun ⟨v, hv, hvn⟩ => absurd hvn (hno v hv), fun _ => ⟨_, hvals, named_name hs' n, named_cls b' n, fun f hf => ?_⟩, fun f hf => ?_⟩
    · unfold namedObj
      rw [get_change_miss hf, get_blank]
    · rw [hrun, get_change_miss hf]

/-- **C85** After an attribute was unset it has no value. -/
theorem C85_unset (py : Py) (k : Key) (b : RBody) (hb : readers k = some b) (o : MObj py.F) (ho : HasType readers k o) (a : Key × Bool)
    (hf : Fitting readers b o (.unset a)) :
    ((Deed.unset a).run py readers o).vals a = [] ∧ ∀ f, hits f a = false → ((Deed.unset a).run py readers o).get f = o.get f := by
  obtain ⟨s, hs, _⟩ := hf
  exact ⟨vals_change ho hb hs _, fun f hf => get_change_miss hf o⟩

/-- **C85** After an element was removed there is none of that name, and all others are there, in the same order. -/
theorem C85_remove (py : Py) (k : Key) (b : RBody) (hb : readers k = some b) (o : MObj py.F) (ho : HasType readers k o) (a : Key × Bool) (n : Str)
    (hf : Fitting readers b o (.remove a n)) :
    let o' := (Deed.remove a n).run py readers o
    (∀ v ∈ o'.vals a, v.name ≠ n) ∧ (∃ v l r, v.name = n ∧ o.vals a = l ++ v :: r ∧ o'.vals a = l ++ r) ∧ ∀ f, hits f a = false → o'.get f = o.get f := by
  intro o'
  obtain ⟨_, s, alts, hs, hnm, hi, _, v, hv, hvn⟩ := hf
  have hm := slotAt_mem hs
  have hvals : o'.vals a = dropNamed n (o.vals a) := vals_change ho hb hs _
  have hsplit : ∃ v l r, v.name = n ∧ o.vals a = l ++ v :: r ∧ dropNamed n (o.vals a) = l ++ r := by
    generalize o.vals a = vs at hv
    induction vs with
    | nil => cases hv
    | cons w vs ih =>
      unfold dropNamed
      split
      next h => exact ⟨w, [], vs, by simpa using h, rfl, rfl⟩
      next h =>
        replace h : w.name ≠ n := by simpa using h
        obtain ⟨u, l, r, h1, h2, h3⟩ := ih ((List.mem_cons.1 hv).resolve_left fun h' => h (h' ▸ hvn))
        exact ⟨u, w :: l, r, h1, by rw [h2]; rfl, by rw [h3]; rfl⟩
  obtain ⟨u, l, r, h1, h2, h3⟩ := hsplit
  refine ⟨fun w hw hwn => ?_, ⟨u, l, r, h1, h2, by rw [hvals, h3]⟩, fun f hf => get_change_miss hf o⟩
  have hnd := (namesOk_iff.1 (hasType_names ho hb).1 s hm.1).1 hnm
  rw [hm.2] at hnd
  have hsub : List.Sublist (o.vals a) (o.get (collection a)) := vals_sub (hits_collection a) o
  have hnd := (hsub.map MObj.name).nodup hnd
  rw [h2, List.map_append, List.map_cons, List.nodup_middle, List.nodup_cons] at hnd
  refine hnd.1 ?_
  rw [hvals, h3] at hw
  rw [← List.map_append, h1, ← hwn]
  exact List.mem_map_of_mem hw

/-- **C85** A call on an object in the document changes this object and nothing else. -/
theorem C85_inside (py : Py) (k : Key) (b : RBody) (hb : readers k = some b) (o : MObj py.F) (ho : HasType readers k o) (a : Key × Bool) (s : RSlot)
    (hs : slotAt b a = some s) (i : Nat) (v' : MObj py.F) :
    (o.change a fun vs => vs.set i v').vals a = (o.vals a).set i v' ∧ ∀ f, hits f a = false → (o.change a fun vs => vs.set i v').get f = o.get f :=
  ⟨vals_change ho hb hs _, fun _ hf => get_change_miss hf o⟩

/-! ## Examples -/

/-- a test for `Fitting`, for calls that pass no objects -/
def deedB {py : Py} (T : Key → Option RBody) (b : RBody) (o : MObj py.F) : Deed py.F → Bool
  | .set a v => match slotAt b a with
    | none => false
    | some s => !s.named && s.item != .name && !s.isList && valueB (fun _ _ => false) s.item v
  | .add a v => match slotAt b a with
    | none => false
    | some s => !s.named && s.item != .name && s.isList && valueB (fun _ _ => false) s.item v
  | .unset a => match slotAt b a with
    | none => false
    | some s => !s.named && s.item != .name && !s.isList
  | .remove a n => match slotAt b a with
    | none => false
    | some s => b.cls == k!"ARPackage" && s.named && (match s.item with
      | .objs _ => true
      | _ => false) && a == (k!"elements", true) && (o.vals a).any fun v => v.name == n
  | .create a k n => match slotAt b a, T k with
    | some s, some b' => s.named && (match s.item with
        | .objs al => al.any fun e => altOf al e.1 == some k
        | _ => false) && n != [] &&
        ((!s.fresh && (o.get (collection a)).any (isIt b'.cls n)) ||
          ((o.get (collection a)).all fun v => v.name != n) && (!(s.path.single || s.last || s.one) || (o.get a.1).isEmpty))
    | _, _ => false

theorem deedB_sound {py : Py} {T : Key → Option RBody} {b : RBody} {o : MObj py.F} {c : Deed py.F} (h : deedB T b o c = true) : Fitting T b o c := by
  cases c with
  | set a v =>
    simp only [deedB] at h
    split at h
    · cases h
    next s hs =>
      simp only [Bool.and_eq_true, Bool.not_eq_true', bne_iff_ne, ne_eq] at h
      exact ⟨s, hs, h.1.1.1, h.1.1.2, h.1.2, valueB_sound (by simp) h.2⟩
  | add a v =>
    simp only [deedB] at h
    split at h
    · cases h
    next s hs =>
      simp only [Bool.and_eq_true, Bool.not_eq_true', bne_iff_ne, ne_eq] at h
      exact ⟨s, hs, h.1.1.1, h.1.1.2, h.1.2, valueB_sound (by simp) h.2⟩
  | unset a =>
    simp only [deedB] at h
    split at h
    · cases h
    next s hs =>
      simp only [Bool.and_eq_true, Bool.not_eq_true', bne_iff_ne, ne_eq] at h
      exact ⟨s, hs, h.1.1, h.1.2, h.2⟩
  | remove a n =>
    simp only [deedB] at h
    split at h
    · cases h
    next s hs =>
      simp only [Bool.and_eq_true, beq_iff_eq] at h
      obtain ⟨⟨⟨⟨h0, h1⟩, h2⟩, h3⟩, h4⟩ := h
      split at h2
      next al hal =>
        obtain ⟨v, hv, h5⟩ := List.any_eq_true.1 h4
        exact ⟨h0, s, al, hs, h1, hal, h3, v, hv, by simpa using h5⟩
      · cases h2
  | create a k n =>
    simp only [deedB] at h
    split at h
    next s b' hs hb' =>
      simp only [Bool.and_eq_true] at h
      obtain ⟨⟨⟨h1, h2⟩, h3⟩, h4⟩ := h
      split at h2
      next al hal =>
        obtain ⟨e, _, he⟩ := List.any_eq_true.1 h2
        refine ⟨s, al, e.1, b', hs, h1, hal, by simpa using he, hb', by simpa using h3, ?_⟩
        rw [Bool.or_eq_true, Bool.and_eq_true, Bool.and_eq_true] at h4
        rcases h4 with ⟨h5, h6⟩ | ⟨h5, h6⟩
        · exact .inl ⟨by simpa using h5, List.any_eq_true.1 h6⟩
        · refine .inr ⟨fun v hv => by simpa using List.all_eq_true.1 h5 v hv, fun h7 => ?_⟩
          rw [h7] at h6
          simpa using h6
      · cases h2
    · cases h

/-- a call on the object at a path -/
def callB {py : Py} (T : Key → Option RBody) : List ((Key × Bool) × Nat) → Deed py.F → Key → MObj py.F → Option (MObj py.F)
  | [], c, k, o => match T k with
    | none => none
    | some b => if deedB T b o c then some (c.run py T o) else none
  | (a, i) :: p, c, k, o => match T k with
    | none => none
    | some b => match slotAt b a with
      | none => none
      | some s => match s.item, (o.vals a)[i]? with
        | .objs al, some v => match al.find? fun e => altOf al e.1 == some e.2 && (T e.2).map RBody.cls == some v.cls with
          | none => none
          | some e => match callB T p c e.2 v with
            | none => none
            | some v' => some (o.change a fun vs => vs.set i v')
        | _, _ => none

theorem callB_sound {py : Py} {T : Key → Option RBody} {p : List ((Key × Bool) × Nat)} {c : Deed py.F} {k : Key} {o o' : MObj py.F}
    (h : callB T p c k o = some o') : Step T k o o' := by
  induction p generalizing k o o' with
  | nil =>
    unfold callB at h
    split at h
    · cases h
    next b hb =>
      split at h
      next hd => cases h; exact .here hb (deedB_sound hd)
      next => cases h
  | cons e p ih =>
    obtain ⟨a, i⟩ := e
    unfold callB at h
    split at h
    · cases h
    next b hb =>
      split at h
      · cases h
      next s hs =>
        split at h
        next al v hal hv =>
          split at h
          · cases h
          next e he =>
            split at h
            · cases h
            next v' hv' =>
              cases h
              have h1 := List.find?_some he
              simp only [Bool.and_eq_true, beq_iff_eq, Option.map_eq_some_iff] at h1
              obtain ⟨h1, b', hb', h2⟩ := h1
              exact .inside hb hs hal h1 hb' hv h2.symm (ih hv')
        · cases h

/-- several calls -/
def callsB {py : Py} (d : MObj py.F) : List (List ((Key × Bool) × Nat) × Deed py.F) → Option (MObj py.F)
  | [] => some d
  | (p, c) :: l => match callB readers p c k!"load" d with
    | none => none
    | some d' => callsB d' l

theorem callsB_sound {py : Py} {d d' : MObj py.F} {l : List (List ((Key × Bool) × Nat) × Deed py.F)} (hd : History py d)
    (h : callsB d l = some d') : History py d' := by
  induction l generalizing d with
  | nil => cases h; exact hd
  | cons e l ih =>
    unfold callsB at h
    split at h
    · cases h
    next d1 h1 => exact ih (.call hd (callB_sound h1)) h

/-- `createARPackage("P")`, in it `createUnit("m")` with `setDisplayName`, `createCompositionSwComponentType("C")`, in that
`createPPortPrototype("p")`, and once more `createUnit("m")` -/
def builtCalls (F : Type) : List (List ((Key × Bool) × Nat) × Deed F) :=
  let pkg := ((k!"arPackages", false), 0)
  [([], .create (k!"arPackages", false) k!"readARPackages_ARPackage" "P".toList),
   ([pkg], .create (k!"elements", true) k!"readARPackageElements_Unit" "m".toList),
   ([pkg, ((k!"elements", true), 0)], .set (k!"displayName", false) (.scal (.lit none none "metre".toList))),
   ([pkg], .create (k!"elements", true) k!"readARPackageElements_CompositionSwComponentType" "C".toList),
   ([pkg, ((k!"elements", true), 1)], .create (k!"ports", true) k!"readSwComponentTypePorts_PPortPrototype" "p".toList),
   ([pkg], .create (k!"elements", true) k!"readARPackageElements_Unit" "m".toList)]

/-- two more units, the first of which is removed; a reference is set and unset -/
def moreCalls (F : Type) : List (List ((Key × Bool) × Nat) × Deed F) :=
  let pkg := ((k!"arPackages", false), 0)
  [([], .create (k!"arPackages", false) k!"readARPackages_ARPackage" "P".toList),
   ([pkg], .create (k!"elements", true) k!"readARPackageElements_Unit" "s".toList),
   ([pkg], .create (k!"elements", true) k!"readARPackageElements_Unit" "t".toList),
   ([pkg], .remove (k!"elements", true) "s".toList),
   ([pkg, ((k!"elements", true), 0)], .set (k!"physicalDimensionRef", false) (.scal (.ref none none "/P/D".toList))),
   ([pkg, ((k!"elements", true), 0)], .unset (k!"physicalDimensionRef", false))]

/-- the document of `Props/Built.lean` is what these calls make -/
theorem builtDoc_history (py : Py) : History py (builtDoc py.F) :=
  callsB_sound (l := builtCalls py.F) .new (by rfl)

/-- calls that remove and unset something are possible too; the second unit is there -/
example : ∃ d, History Py.demo d ∧ (findIn ["P".toList, "t".toList] d).isSome = true ∧
    (findIn ["P".toList, "s".toList] d).isSome = false := by
  have h : (match callsB (newDoc Py.demo) (moreCalls _) with
      | none => false
      | some d => (findIn ["P".toList, "t".toList] d).isSome && !(findIn ["P".toList, "s".toList] d).isSome) = true := by decide +kernel
  split at h
  · cases h
  next d hd =>
    rw [Bool.and_eq_true, Bool.not_eq_true'] at h
    exact ⟨d, callsB_sound .new hd, h.1, h.2⟩

/-- the hypotheses of `C85_program_partial` hold for it, in both modes -/
example (py : Py) (strict : Bool) : History py (builtDoc py.F) ∧ Complete readers strict invariants k!"load" (builtDoc py.F) ∧
    Clean lossy strict (builtDoc py.F) := by
  refine ⟨builtDoc_history py, ?_, ?_⟩
  · have h : Shaped strict readers invariants 4 k!"load" (builtDoc py.F) := by cases strict <;> exact fitsB_sound (by rfl)
    exact complete_of (fun _ _ => readers_neat) h
  · cases strict <;> exact cleanB_sound _ (by rfl)

/-- a file is loaded after that -/
example (py : Py) (strict : Bool) : ∃ d', loadInto py strict (builtDoc py.F) fileA = .ok d' ∧ History py d' := by
  have h : ∃ d', loadInto py strict (builtDoc py.F) fileA = .ok d' := by cases strict <;> exact ⟨_, by rfl⟩
  obtain ⟨d', h⟩ := h
  exact ⟨d', h, .load (builtDoc_history py) h⟩

/-- a module description with a behaviour and a called entity -/
def bareCalls (F : Type) : List (List ((Key × Bool) × Nat) × Deed F) :=
  let pkg := ((k!"arPackages", false), 0)
  let bsw := ((k!"elements", true), 0)
  let beh := ((k!"internalBehaviors", true), 0)
  [([], .create (k!"arPackages", false) k!"readARPackages_ARPackage" "P".toList),
   ([pkg], .create (k!"elements", true) k!"readARPackageElements_BswModuleDescription" "M".toList),
   ([pkg, bsw], .create (k!"internalBehaviors", true) k!"readBswModuleDescriptionBswInternalBehaviors_BswInternalBehavior" "B".toList),
   ([pkg, bsw, beh], .create (k!"entities", true) k!"readBswInternalBehaviorEntities_BswCalledEntity" "E".toList)]

/-- **C85, broken** Without the condition that no mandatory attribute is missing the claim is false: a program creates a called entity and does not set the reference
to the entry it implements.  `save` writes the document without complaint, in strict mode too, and `load` raises an exception on what it wrote. -/
theorem C85_missing_broken : ∃ d y, History Py.demo d ∧ Clean lossy true d ∧ save Py.demo (fun _ => []) true d = .ok y ∧
    load Py.demo true y = .error (.py .valueError) := by
  have h : (match callsB (newDoc Py.demo) (bareCalls _) with
      | none => false
      | some d => cleanB lossy true d && match save Py.demo (fun _ => []) true d with
        | .error _ => false
        | .ok y => match load Py.demo true y with
          | .error (.py .valueError) => true
          | _ => false) = true := by decide +kernel
  split at h
  · cases h
  next d hd =>
    rw [Bool.and_eq_true] at h
    obtain ⟨h1, h2⟩ := h
    split at h2
    · cases h2
    next y hy =>
      split at h2
      next hl => exact ⟨d, y, callsB_sound .new hd, cleanB_sound d h1, hy, hl⟩
      next => cases h2

/-- a test for `GoodChars` -/
def goodCharsB (x : Xml) : Bool := x.attrs.all (fun a => a.2.all xmlChar) && x.text.all xmlChar

/-- the hypotheses of `C85_file_partial` hold too -/
example (strict : Bool) (y : Xml) (h : save Py.demo (fun _ => []) strict (builtDoc _) = .ok y) : Every GoodChars y ∧ Every Smooth y := by
  have hb : ∀ s : Bool, (match save Py.demo (fun _ => []) s (builtDoc _) with
      | .error _ => false
      | .ok y => everyB smoothB 20 y && everyB goodCharsB 20 y) = true := by decide +kernel
  have hb := hb strict
  rw [h] at hb
  rw [Bool.and_eq_true] at hb
  refine ⟨everyB_sound (fun x hx => ?_) 20 y hb.2, everyB_sound smoothB_sound 20 y hb.1⟩
  unfold goodCharsB at hx
  rw [Bool.and_eq_true, List.all_eq_true, List.all_eq_true] at hx
  exact ⟨fun a ha c hc => xmlChar_of (List.all_eq_true.1 (hx.1 a ha) c hc), fun c hc => xmlChar_of (hx.2 c hc)⟩

end Verif.Props
