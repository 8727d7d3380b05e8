import Verif.Spec.Construct
import Verif.Spec.ComSpec
import Verif.Gen.CreateTable
import Verif.Props.Access
import Verif.Props.Built
import Verif.Props.ComSpec
/-!
# Property C71: abstract classes cannot be constructed, all others can, and nothing in the library constructs an abstract one
-/
namespace Verif.Props
open Verif Verif.Model Verif.Spec Verif.Lemmas Verif.Gen

/-- the first constructor of the class with the number of its parameters -/
def ctorParams (c : Key) : Nat := match definer (ancestors c) with
  | none => 0
  | some d => ((classAcc d).init.getD (0, [])).1

theorem refusal_arity {c : Key} (hc : IsClass c) {n : Nat} (h : n ≠ ctorParams c) : refusal c n = some "TypeError" := by
  unfold IsClass at hc
  cases hl : classTable.find? c with
  | none => rw [hl] at hc; cases hc
  | some l =>
    have ha : ancestors c = l := by simp only [ancestors, hl]
    simp only [ctorParams, ha] at h
    simp only [refusal, hl]
    cases hd : definer l with
    | none => rw [hd] at h; simp only; rw [if_neg h]
    | some d =>
      rw [hd] at h
      simp only [initError]
      have : (classAcc d).init.isSome := by
        have := List.find?_some hd
        exact this
      obtain ⟨⟨p, steps⟩, hp⟩ := Option.isSome_iff_exists.1 this
      simp only [hp, Option.getD] at h ⊢
      rw [if_neg h]

/-- the whole table -/
theorem table_construct : classTable.all (fun c _ => pythonEnums.contains c || bareEnums.contains c || slackClasses.contains c || c == k!"BswInterruptEvent" ||
    (ctorParams c == argumentsOf c && refusal c (argumentsOf c) == if declaredAbstract c then some "TypeError" else none)) = true := by decide +kernel

/-- the whole table -/
theorem table_odd : (slackClasses.all fun c => declaredAbstract c && refusal c (argumentsOf c) == none && ctorParams c == argumentsOf c) = true ∧
    (bareEnums.all fun c => !declaredAbstract c && ctorParams c == 1 && refusal c 1 == none) = true ∧
    (pythonEnums.all fun c => ctorParams c == 0) = true ∧
    refusal k!"BswInterruptEvent" (ctorParams k!"BswInterruptEvent") = some "TypeError" := by decide +kernel

theorem construct_ok {α : Type} {c : Key} {n : Nat} : (∃ o, construct α c n = .ok o) ↔ refusal c n = none := by
  unfold construct
  cases refusal c n <;> simp

/-- **C71** A class can be constructed exactly if it is not declared abstract, and exactly with its parent and short name if it has a short
name and without arguments otherwise.  Otherwise the exception is a `TypeError`.  (What is missing: the five classes `C71_abstract_broken`,
`C71_event_broken` and `C71_enum_broken` are about, and the two in `pythonEnums`.) -/
theorem C71_construct_partial (α : Type) (c : Key) (hc : IsClass c) (h1 : c ∉ slackClasses) (h2 : c ≠ k!"BswInterruptEvent") (h3 : c ∉ bareEnums)
    (h4 : c ∉ pythonEnums) (n : Nat) :
    ((∃ o, construct α c n = .ok o) ↔ declaredAbstract c = false ∧ n = argumentsOf c) ∧
    ((∃ o, construct α c n = .ok o) ∨ construct α c n = .error "TypeError") := by
  have hc' := hc
  obtain ⟨l, hl⟩ := Option.isSome_iff_exists.1 hc
  have := (Bst.all_toList _ _).1 table_construct _ (Bst.find?_mem hl)
  simp only [Bool.or_eq_true, List.contains_iff_mem, h4, h3, h1, beq_iff_eq, h2, false_or, Bool.and_eq_true] at this
  obtain ⟨hp, hr⟩ := this
  by_cases hn : n = argumentsOf c
  · subst hn
    rw [construct_ok, hr]
    unfold construct
    rw [hr]
    cases declaredAbstract c <;> simp
  · have ht := refusal_arity hc' (n := n) (by rw [hp]; exact hn)
    refine ⟨?_, .inr (by unfold construct; rw [ht])⟩
    rw [construct_ok, ht]
    exact ⟨fun h => (nomatch h), fun h => absurd h.2 hn⟩

/-- the claim of C71 is false for two classes: they are declared abstract and can be constructed -/
theorem C71_abstract_broken (α : Type) : (declaredAbstract k!"ARType" = true ∧ ∃ o, construct α k!"ARType" 0 = .ok o) ∧
    (declaredAbstract k!"AtomicSwComponentType" = true ∧ ∃ o, construct α k!"AtomicSwComponentType" 2 = .ok o) := by
  simp only [construct_ok]
  decide +kernel

/-- the claim of C71 is false for `BswInterruptEvent`: it is not declared abstract and cannot be constructed, whatever the arguments; its
constructor takes none and calls that of its base class, which needs two
(`BswModuleTemplate/BswBehavior/BswInterruptEvent.py:17-21`) -/
theorem C71_event_broken (α : Type) (n : Nat) : declaredAbstract k!"BswInterruptEvent" = false ∧ construct α k!"BswInterruptEvent" n = .error "TypeError" := by
  refine ⟨by decide +kernel, ?_⟩
  unfold construct
  by_cases hn : n = ctorParams k!"BswInterruptEvent"
  · rw [hn, table_odd.2.2.2]
  · rw [refusal_arity (by unfold IsClass; decide +kernel) hn]

/-- two enumerations cannot be constructed without arguments as the other 97 can -/
theorem C71_enum_broken (α : Type) : ∀ c ∈ [k!"BswEntryRelationshipEnum", k!"GraphicFitEnum"], armodel.sub c k!"AREnum" = true ∧
    declaredAbstract c = false ∧ construct α c 0 = .error "TypeError" := by
  have h : ∀ c ∈ [k!"BswEntryRelationshipEnum", k!"GraphicFitEnum"], armodel.sub c k!"AREnum" = true ∧
    declaredAbstract c = false ∧ refusal c 0 = some "TypeError" := by decide +kernel
  intro c hc
  obtain ⟨a, b, r⟩ := h c hc
  exact ⟨a, b, by unfold construct; rw [r]⟩

/-- the whole table -/
theorem table_calls : (newTable.all fun r => refusal r.1 r.2 == none && (!declaredAbstract r.1)) = true := by decide +kernel

/-- **C71** Nothing in the library constructs an abstract class or gives a constructor the wrong number of arguments: no constructor call in
`src/armodel/**` raises. -/
theorem C71_calls (α : Type) : ∀ r ∈ newTable, declaredAbstract r.1 = false ∧ ∃ o, construct α r.1 r.2 = .ok o := by
  intro r hr
  have := List.all_eq_true.1 table_calls r hr
  simp only [Bool.and_eq_true, beq_iff_eq, Bool.not_eq_true'] at this
  exact ⟨this.2, construct_ok.2 this.1⟩

/-- the whole table -/
theorem table_created : (createTable.all fun r => refusal r.target 2 == none && (!declaredAbstract r.target)) = true := by decide +kernel

/-- **C71** What a method `createX(short_name)` makes is not of an abstract class, and making it does not raise. -/
theorem C71_created (α : Type) : ∀ r ∈ createTable, declaredAbstract r.target = false ∧ ∃ o, construct α r.target 2 = .ok o := by
  intro r hr
  have := List.all_eq_true.1 table_created r hr
  simp only [Bool.and_eq_true, beq_iff_eq, Bool.not_eq_true'] at this
  exact ⟨this.2, construct_ok.2 this.1⟩

/-- the class of what a reader method reads can be constructed -/
def readerOk (b : RBody) : Bool := refusal b.cls (ctorParams b.cls) == none && !declaredAbstract b.cls

/-- the whole table -/
theorem table_readers : readTable.all (fun _ b => readerOk b) = true ∧ readerOk loadBody = true := by decide +kernel

theorem readers_ok {k : Key} {b : RBody} (h : readers k = some b) : readerOk b = true := by
  unfold readers at h
  split at h
  · cases h; exact table_readers.2
  · exact (Bst.all_toList _ _).1 table_readers.1 _ (Bst.find?_mem h)

section
variable {py : Py} {strict : Bool}

theorem zip_mem {α β : Type} {l : List α} {m : List β} {p : α × β} (h : p ∈ l.zip m) : ∃ i : Nat, l[i]? = some p.1 ∧ m[i]? = some p.2 := by
  obtain ⟨i, hi⟩ := List.getElem?_of_mem h
  rw [List.getElem?_zip_eq_some] at hi
  exact ⟨i, hi.1, hi.2⟩

/-- what is inside a document that has the attributes of its classes is a value or an object with the attributes of its class -/
theorem within_shaped {d w : MObj py.F} (hw : Within d w) : ∀ {n : Nat} {k : Key}, Shaped strict readers invariants n k d →
    (∃ s, w = .scal s) ∨ ∃ n k, Shaped strict readers invariants n k w := by
  induction hw with
  | here o => intro n k h; exact .inr ⟨n, k, h⟩
  | inside e he hv hw ih =>
    rename_i o v w
    intro n k h
    cases n with
    | zero => cases h
    | succ n =>
      obtain ⟨b, vss, hb, ho, hs, _, _⟩ := h
      subst ho
      obtain ⟨i, h1, h2⟩ := zip_mem he
      obtain ⟨s, hs1, _⟩ : ∃ s, b.slots[i]? = some s ∧ s.key = e.1 := by simpa using h1
      have hf : SlotFits strict (Shaped strict readers invariants n) s e.2 := by
        rw [List.forall₂_iff_get] at hs
        obtain ⟨hl1, hg1⟩ := List.getElem?_eq_some_iff.1 hs1
        obtain ⟨hl2, hg2⟩ := List.getElem?_eq_some_iff.1 h2
        have := hs.2 i hl1 hl2
        simpa [hg1, hg2] using this
      have hk := hf.kinds v hv
      have scal : (∃ s, v = .scal s) → (∃ s, w = .scal s) := by
        rintro ⟨s, rfl⟩
        cases hw with
        | here => exact ⟨s, rfl⟩
        | inside e' he' _ _ => cases he'
      unfold ValueOf at hk
      split at hk
      · obtain ⟨s, rfl, _⟩ := hk; exact .inl (scal ⟨s, rfl⟩)
      · obtain ⟨s, rfl, _⟩ := hk; exact .inl (scal ⟨s, rfl⟩)
      · obtain ⟨s, _, rfl⟩ := hk; exact .inl (scal ⟨_, rfl⟩)
      · obtain ⟨_, k, _, hm⟩ := hk; exact ih hm
      · cases hk

/-- **C71** No object of a document has an abstract class, or a class that cannot be constructed: not in one loaded from files (in any mode),
nor in one that was changed or built by the API, as long as its objects have the attributes of their classes. -/
theorem C71_document (α : Type) (n : Nat) (d w : MObj py.F) (hd : Shaped strict readers invariants n k!"load" d) (hw : Within d w) :
    (∃ s, w = .scal s) ∨ (declaredAbstract w.cls = false ∧ ∃ n o, construct α w.cls n = .ok o) := by
  rcases within_shaped hw hd with h | ⟨m, k, h⟩
  · exact .inl h
  · cases m with
    | zero => cases h
    | succ m =>
      obtain ⟨b, vss, hb, ho, _⟩ := h
      have := readers_ok hb
      unfold readerOk at this
      simp only [Bool.and_eq_true, beq_iff_eq, Bool.not_eq_true'] at this
      subst ho
      exact .inr ⟨this.2, _, construct_ok.2 this.1⟩

/-- **C71** The same for the files loaded. -/
theorem C71_loaded (α : Type) (xs : List Xml) (d w : MObj py.F) (h : loadAll py strict (newDoc py) xs = .ok d) (hw : Within d w) :
    (∃ s, w = .scal s) ∨ (declaredAbstract w.cls = false ∧ ∃ n o, construct α w.cls n = .ok o) := by
  obtain ⟨n, hn⟩ := C63_fits py strict xs d h
  exact C71_document α n d w hn hw

end

/-- **C71** A new object is blank: its getters do not raise, and the getter of every setter returns `None` or an empty list.  (What is
missing: the exceptions `C45_initial_partial` names.) -/
theorem C71_blank_partial {α : Type} (c : Key) (n : Nat) (o : Attrs α) (h : construct α c n = .ok o) :
    (∀ s ign, IsSetter c s ign → s ∉ [k!"setEnumValues", k!"setBaseTypeDefinition", k!"setValue"] → ¬ (c = k!"EcucInstanceReferenceValue" ∧ s = k!"setValueIRef") →
      callGet c (getterName s) o = .ok .none ∨ callGet c (getterName s) o = .ok (.list [])) ∧
    (∀ g f, resolve c g = some (.get f) → ¬ (c = k!"EcucInstanceReferenceValue" ∧ g = k!"getValueIRef") → ∃ v, callGet c g o = .ok v) := by
  have ho : o = fresh α c := by
    unfold construct at h
    split at h
    · cases h
    · cases h; rfl
  subst ho
  refine ⟨fun s ign hs h1 h2 => C45_initial_partial c s ign hs h1 h2, fun g f hg hx => ?_⟩
  classical exact C45_getters_total c g f hg hx [] _ rfl

/-- classes that are declared abstract and classes that are not -/
example : IsClass k!"SwComponentType" ∧ k!"SwComponentType" ∉ slackClasses ∧ k!"SwComponentType" ∉ bareEnums ∧ declaredAbstract k!"SwComponentType" = true ∧
    IsClass k!"ApplicationSwComponentType" ∧ declaredAbstract k!"ApplicationSwComponentType" = false ∧ argumentsOf k!"ApplicationSwComponentType" = 2 ∧
    declaredAbstract k!"Sdg" = false ∧ argumentsOf k!"Sdg" = 0 := by unfold IsClass; decide +kernel

/-- how many classes are declared abstract, how many calls and create methods there are -/
theorem C71_count : (classTable.toList.filter fun e => declaredAbstract e.1).length = 150 ∧ createTable.length ≥ 300 ∧ newTable.length ≥ 600 := by decide +kernel

theorem within_get {F : Type} {o v w : MObj F} {f : Key} (h : v ∈ o.get f) (hw : Within v w) : Within o w := by
  unfold MObj.get at h
  obtain ⟨e, he, hv⟩ := List.mem_flatMap.1 h
  split at hv
  · exact .inside e he hv hw
  · cases hv

/-- an object in a loaded document -/
example (py : Py) : ∃ d w, loadAll py true (newDoc py) [portFile k!"P-PORT-PROTOTYPE" []] = .ok d ∧ Within d w ∧ w.cls = k!"PPortPrototype" := by
  have h : (match loadAll py true (newDoc py) [portFile k!"P-PORT-PROTOTYPE" []] with
    | .ok d => (d.get k!"arPackages").flatMap fun p => (p.get k!"elements").flatMap fun a => (a.get k!"ports").map MObj.cls
    | .error _ => []) = [k!"PPortPrototype"] := by rfl
  split at h
  · rename_i d hd
    have hm : k!"PPortPrototype" ∈ [k!"PPortPrototype"] := by simp
    rw [← h] at hm
    simp only [List.mem_flatMap, List.mem_map] at hm
    obtain ⟨p, hp, a, ha, w, hw, hc⟩ := hm
    exact ⟨d, w, hd, within_get hp (within_get ha (within_get hw (.here w))), hc⟩
  · cases h

end Verif.Props
