import Verif.Lemmas.Numbers
import Verif.Lemmas.SameFind
import Verif.Props.Built
/-!
# C66: numbers and truth values assigned by a program are saved; C67: paths find the same elements after saving and loading
-/
namespace Verif.Props
open Verif Verif.Model Verif.Spec Verif.Lemmas

/-! ## C67 -/

/-- **C67** A document, however it was made, is saved and loaded again: every path that finds nothing in the one finds nothing in the other,
and every path that finds an element finds the same element.  (What is missing: the attributes in `Spec/Defects.lean`.) -/
theorem C67_built_partial (py : Py) (repr : py.F → Str) (strict : Bool) (n : Nat) (d : MObj py.F) (hd : Shaped strict readers invariants n k!"load" d)
    (hc : Clean lossy strict d) :
    ∃ y d', save py repr strict d = .ok y ∧ (∀ y', Reload y y' → load py strict y' = .ok d') ∧
      ∀ p, p ≠ [] → SameOpt reordered (findIn p d) (findIn p d') := by
  obtain ⟨y, d', h1, h2, h3, h4⟩ := C63_built_partial py repr strict n d hd hc
  refine ⟨y, d', h1, h2, fun p hp => ?_⟩
  have := same_findIn reordered_name p h3
  rwa [findIn_schema (shaped_schema hd) hp] at this

/-- **C67** The same for a document that files were loaded into, one or many. -/
theorem C67_loaded_partial (py : Py) (repr : py.F → Str) (strict : Bool) (xs : List Xml) (d : MObj py.F) (h : loadAll py strict (newDoc py) xs = .ok d)
    (hc : Clean lossy strict d) :
    ∃ y d', save py repr strict d = .ok y ∧ (∀ y', Reload y y' → load py strict y' = .ok d') ∧
      ∀ p, p ≠ [] → SameOpt reordered (findIn p d) (findIn p d') := by
  obtain ⟨n, hn⟩ := C63_fits py strict xs d h
  exact C67_built_partial py repr strict n d hn hc

/-! ## C66 -/

/-- **C66** A document whose numbers and truth values were read or assigned, in any mixture, is saved; what is saved can be loaded; this yields
the document in which every assigned number has become the number its text denotes (`back`); and saving that yields the same tree.  (What is
missing: the attributes in `Spec/Defects.lean`, and values that have no decimal text.) -/
theorem C66_saved_partial (py : Py) (repr : py.F → Str) (strict : Bool) (n : Nat) (d : MObj py.F) (hd : Made repr strict readers invariants n k!"load" d)
    (hc : Clean lossy strict (back repr d)) :
    ∃ y d', save py repr strict d = .ok y ∧ (∀ y', Reload y y' → load py strict y' = .ok d') ∧ Same reordered (withSchema py (back repr d)) d' ∧
      save py repr strict d' = .ok y := by
  have := C63_built_partial py repr strict n (back repr d) (made_shaped hd) hc
  rwa [save_back] at this

/-- **C66** In terms of single values: at every path, every attribute that has one value has that value in the loaded document (as `backS`
says: the same unless it was assigned, and then with the text that was written). -/
theorem C66_value_partial (py : Py) (repr : py.F → Str) (strict : Bool) (n : Nat) (d : MObj py.F) (hd : Made repr strict readers invariants n k!"load" d)
    (hc : Clean lossy strict (back repr d)) :
    ∃ y d', save py repr strict d = .ok y ∧ (∀ y', Reload y y' → load py strict y' = .ok d') ∧
      ∀ p v f s, p ≠ [] → findIn p d = some v → v.get f = [.scal s] →
        ∃ v', findIn p d' = some v' ∧ v'.cls = v.cls ∧ v'.get f = [.scal (backS repr s)] := by
  obtain ⟨y, d', h1, h2, h3, h4⟩ := C66_saved_partial py repr strict n d hd hc
  refine ⟨y, d', h1, h2, fun p v f s hp hv hf => ?_⟩
  have h := same_findIn reordered_name p h3
  rw [findIn_schema (shaped_schema (made_shaped hd)) hp, findIn_back, hv] at h
  generalize findIn p d' = r at h
  cases h with
  | some _ u h =>
    refine ⟨u, rfl, by rw [same_cls h, back_cls], ?_⟩
    obtain ⟨w, hw, hs⟩ := same_value h (f := f) (v := .scal (backS repr s)) (by rw [back_get, hf]; rfl)
    cases hs
    exact hw

/-- **C66** The number is the same: a float that was assigned is that float, a truth value is that truth value, an integer that needs no more
than 53 bits is that integer (it is a float afterwards).  The text is the text that was written. -/
theorem C66_same_number (py : Py) (repr : py.F → Str) (t u sl : Option Str) :
    (∀ f, backS repr (.num .float t u sl ⟨.num (.flt f), none⟩) = .num .float t u sl ⟨.num (.flt f), some (repr f)⟩) ∧
    (∀ b, backS repr (.bool t u ⟨some b, none⟩) = .bool t u ⟨some b, some (if b then "true".toList else "false".toList)⟩) ∧
    (∀ c (i : Int), i.natAbs < 2 ^ 53 → ∃ m : Num py.F, backS repr (.num c t u sl ⟨.num (.int i), none⟩) = .num c t u sl ⟨.num m, some (strInt i)⟩ ∧
      m.toRat py = some (i : Rat)) := by
  refine ⟨fun f => rfl, fun b => rfl, fun c i hi => ⟨.flt (py.ofRat i), by cases c <;> rfl, ?_⟩⟩
  refine py.exact _ ⟨i, 0, hi, .inl (by simp)⟩ ?_
  rw [Rat.num_intCast]
  exact Nat.lt_trans hi (Nat.pow_lt_pow_right (by decide) (by decide))

/-- **C66** What the hypotheses ask of a number is what assigning numbers yields: whatever was assigned to a new object before, as long as it
was no text, after an integer (a float) was assigned the object has this value and no text. -/
theorem C66_assigned (py : Py) (c : PObj.Cls) (vs : List (PIn py.F)) (hvs : ∀ s, .str s ∉ vs) :
    (∀ i : Int, c ≠ .float → (c = .positive → 0 ≤ i) → PObj.assigns py c (vs ++ [.int i]) = ⟨.num (.int i), none⟩) ∧
    (∀ f, c = .float → PObj.assigns py c (vs ++ [.flt f]) = ⟨.num (.flt f), none⟩) := by
  have ht : (PObj.assigns py c vs).text = none := by
    have := text_fold py c vs PObj.new
    unfold PObj.assigns
    rw [this]
    have : lastText vs = none := by
      clear this
      induction vs with
      | nil => rfl
      | cons v vs ih =>
        have hv : lastText (v :: vs) = lastText vs := by
          cases v with
          | str s => exact absurd List.mem_cons_self (hvs s)
          | _ => rfl
        rw [hv]
        exact ih fun s h => hvs s (List.mem_cons_of_mem _ h)
    rw [this]
    rfl
  have ha : ∀ v, PObj.assigns py c (vs ++ [v]) = (PObj.setValue py c (PObj.assigns py c vs) v).1 := fun v => by
    simp only [PObj.assigns, List.foldl_append, List.foldl_cons, List.foldl_nil]
  constructor
  · intro i hc hp
    rw [ha]
    cases c with
    | float => exact absurd rfl hc
    | numerical => simp only [PObj.setValue, PObj.assign, ht]
    | positive => simp only [PObj.setValue, PObj.assign, ht, if_neg (Int.not_lt.2 (hp rfl))]
  · intro f hc
    rw [ha]
    subst hc
    simp only [PObj.setValue, PObj.assign, ht]

/-- **C66** A truth value that an integer was assigned to is like one that was read from the text of the integer. -/
theorem C66_assigned_boolean (py : Py) (t : Option Str) (i : Int) : ScalarOf py .boolean (.bool t none (PBool.setValue py PBool.new (.int i)).1) := by
  obtain ⟨d, ips, hw, ht, hv⟩ := strInt_denotes py i
  have hn : ∀ c ∈ strInt i, py.space c = false := by
    intro c hc
    rw [ht] at hc
    rcases dec_chars py hw c hc with h | h
    · exact py.digit_space c h
    · simp only [List.mem_cons, List.not_mem_nil, or_false] at h
      rcases h with rfl | rfl | rfl | rfl | rfl <;> rw [py.space_ascii _ (by decide)] <;> decide
  have hs : py.strip (strInt i) = strInt i := by
    have := strip_tight py (pre := []) (post := []) (s := strInt i) (by simp) (by simp)
      ⟨fun c r h => hn c (by rw [h]; simp), fun r c h => hn c (by rw [h]; simp)⟩
    simpa using this
  have hc : PBool.convert py (strInt i) = .ok (i != 0) := (boolConvert_iff py _ _).mpr ((C23_boolean_partial py PBool.new).2 i).2
  exact ⟨t, strInt i, _, (parse_int (py := py) .numerical i).1, by simp only [PBool.setValue, PBool.assign, hs, hc], rfl⟩

/-! ### What does not survive -/

/-- a document with a package `P` and in it an element `e` -/
def oneElement {F : Type} (e : MObj F) : MObj F := withFields k!"load" [(k!"arPackages", [withFields k!"readARPackages_ARPackage"
  [(k!"short_name", [.scal (.str "P".toList)]), (k!"elements", [e])]])]

/-- a unit `e` with a factor -/
def unitWith {F : Type} (s : Scalar F) : MObj F :=
  withFields k!"readARPackageElements_Unit" [(k!"short_name", [.scal (.str "e".toList)]), (k!"factorSiToUnit", [.scal s])]

/-- a signal `e` with a length -/
def signalWith {F : Type} (s : Scalar F) : MObj F :=
  withFields k!"readARPackageElements_ISignal" [(k!"short_name", [.scal (.str "e".toList)]), (k!"length", [.scal s])]

/-- the file with such an element -/
def oneTree (t c : Key) (text : Str) : Xml := .node k!"AUTOSAR" [(k!"xsi:schemaLocation", defaultSchema)] [] [.node k!"AR-PACKAGES" [] []
  [.node k!"AR-PACKAGE" [] [] [.leaf k!"SHORT-NAME" [] "P".toList, .node k!"ELEMENTS" [] [] [.node t [] [] [.leaf k!"SHORT-NAME" [] "e".toList, .leaf c [] text]]]]]

theorem save_unit (py : Py) (repr : py.F → Str) (strict : Bool) (o : PObj py.F) :
    save py repr strict (oneElement (unitWith (.num .float none none none o))) = .ok (oneTree k!"UNIT" k!"FACTOR-SI-TO-UNIT" (o.text' repr)) := by
  cases strict <;> rfl

theorem save_signal (py : Py) (repr : py.F → Str) (strict : Bool) (o : PObj py.F) :
    save py repr strict (oneElement (signalWith (.num .numerical none none none o))) =
      .ok (oneTree k!"I-SIGNAL" k!"LENGTH" (optText (o.writtenNumerical repr))) := by
  cases strict <;> rfl

theorem unit_rejected {py : Py} {strict : Bool} {text : Str} (hne : text ≠ []) {e : PyErr} (h : convert py text = .error e) (d : MObj py.F) :
    load py strict (oneTree k!"UNIT" k!"FACTOR-SI-TO-UNIT" text) ≠ .ok d := by
  intro hl
  unfold load at hl
  rw [if_neg (fun h => h.1 rfl)] at hl
  obtain ⟨m1, v1, h1⟩ := delegates_ok hl (delegates_at (i := 2) (j := 0) (l := k!"readARPackages_ARPackage") (y := _) rfl)
  obtain ⟨m2, v2, h2⟩ := delegates_ok h1 (delegates_at (i := 12) (j := 0) (l := k!"readARPackageElements_Unit") (y := _) rfl)
  obtain ⟨v, hv⟩ := prim_at h2 (i := 13) (j := 0) (r := .float) (y := .leaf k!"FACTOR-SI-TO-UNIT" [] text) rfl
  simp only [readKind, Xml.leaf, Xml.text, if_neg hne, parse_bad h] at hv
  cases hv

theorem signal_rejected {py : Py} {strict : Bool} {text : Str} (hne : text ≠ []) {e : PyErr} (h : convert py text = .error e) (d : MObj py.F) :
    load py strict (oneTree k!"I-SIGNAL" k!"LENGTH" text) ≠ .ok d := by
  intro hl
  unfold load at hl
  rw [if_neg (fun h => h.1 rfl)] at hl
  obtain ⟨m1, v1, h1⟩ := delegates_ok hl (delegates_at (i := 2) (j := 0) (l := k!"readARPackages_ARPackage") (y := _) rfl)
  obtain ⟨m2, v2, h2⟩ := delegates_ok h1 (delegates_at (i := 12) (j := 0) (l := k!"readARPackageElements_ISignal") (y := _) rfl)
  obtain ⟨v, hv⟩ := prim_at h2 (i := 17) (j := 0) (r := .numerical) (y := .leaf k!"LENGTH" [] text) rfl
  simp only [readKind, parseNum?, Xml.leaf, Xml.text, if_neg hne, parse_bad h] at hv
  cases hv

/-- **C66 fails** for infinity and for what is no number: a unit is given the factor `float("inf")` or `float("nan")`.  The document is saved
without an error, and the file that is written cannot be loaded. -/
theorem C66_infinite_broken (py : Py) (repr : py.F → Str) (strict : Bool) (f : py.F)
    (hf : repr f = "inf".toList ∨ repr f = "-inf".toList ∨ repr f = "nan".toList) :
    let o := (PObj.setValue py .float PObj.new (.flt f)).1
    ∃ y, save py repr strict (oneElement (unitWith (.num .float none none none o))) = .ok y ∧ ∀ d, load py strict y ≠ .ok d := by
  refine ⟨_, save_unit py repr strict _, fun d => ?_⟩
  have ht : (PObj.setValue py .float PObj.new (.flt f)).1.text' repr = repr f := rfl
  rw [ht]
  refine unit_rejected (e := .valueError) ?_ ?_ d
  · rcases hf with hf | hf | hf <;> rw [hf] <;> decide
  · refine convert_word py (x := 'n') ?_ (by decide) (by decide) (by decide) (by decide) (by decide) (by decide) ?_ ?_ ?_
    all_goals rcases hf with hf | hf | hf <;> rw [hf] <;> decide

/-- **C66 fails** for a float object that was given no value (`unit.setFactorSiToUnit(ARFloat())`): `None` is written as the factor, and the
file cannot be loaded. -/
theorem C66_unset_broken (py : Py) (repr : py.F → Str) (strict : Bool) :
    ∃ y, save py repr strict (oneElement (unitWith (.num .float none none none PObj.new))) = .ok y ∧ ∀ d, load py strict y ≠ .ok d := by
  refine ⟨_, save_unit py repr strict _, fun d => ?_⟩
  refine unit_rejected (text := "None".toList) (e := .valueError) (by decide) ?_ d
  exact convert_word py (x := 'n') (by decide) (by decide) (by decide) (by decide) (by decide) (by decide) (by decide) (by decide) (by decide) (by decide)

/-- **C66 fails** for truth values assigned to a number: a signal is given the length `True`.  `True` is written, and the file cannot be
loaded. -/
theorem C66_bool_broken (py : Py) (repr : py.F → Str) (strict : Bool) (b : Bool) :
    let o := (PObj.setValue py .numerical PObj.new (.bool b)).1
    ∃ y, save py repr strict (oneElement (signalWith (.num .numerical none none none o))) = .ok y ∧ ∀ d, load py strict y ≠ .ok d := by
  refine ⟨_, save_signal py repr strict _, fun d => ?_⟩
  cases b with
  | true =>
    exact signal_rejected (text := "True".toList) (e := .valueError) (by decide) (convert_word py (x := 'u') (by decide) (by decide) (by decide) (by decide) (by decide)
      (by decide) (by decide) (by decide) (by decide) (by decide)) d
  | false =>
    exact signal_rejected (text := "False".toList) (e := .valueError) (by decide) (convert_word py (x := 's') (by decide) (by decide) (by decide) (by decide) (by decide)
      (by decide) (by decide) (by decide) (by decide) (by decide)) d

/-- **C66 fails** for a number that was read and then assigned: the file is the same whatever number is assigned. -/
theorem C66_stale_broken (py : Py) (repr : py.F → Str) (strict : Bool) (o : PObj py.F) (t : Str) (ho : o.text = some t) (i : Int) :
    save py repr strict (oneElement (signalWith (.num .numerical none none none (PObj.setValue py .numerical o (.int i)).1))) =
      save py repr strict (oneElement (signalWith (.num .numerical none none none o))) := by
  rw [save_signal, save_signal, (C23_stale_broken py repr .numerical o t ho i).1]
  simp only [PObj.writtenNumerical, ho]

/-! ### Examples -/

/-- a test for `AssignedOf`; `D` tests floats -/
def assignedB {F : Type} (D : F → Bool) : RKind → Scalar F → Bool
  | .float, .num .float _ _ none ⟨.num (.flt f), none⟩ => D f
  | .numerical, .num .numerical _ _ _ ⟨.num (.int _), none⟩ => true
  | .integer, .num .numerical _ _ none ⟨.num (.int _), none⟩ => true
  | .positive, .num .positive _ _ none ⟨.num (.int i), none⟩ => decide (0 ≤ i)
  | .boolean, .bool _ none ⟨some _, none⟩ => true
  | _, _ => false

theorem assignedB_sound {py : Py} {repr : py.F → Str} {D : py.F → Bool} (hD : ∀ f, D f = true → Decimal py repr f) {k : RKind} {s : Scalar py.F}
    (h : assignedB D k s = true) : AssignedOf py repr k s := by
  unfold assignedB at h
  split at h
  · exact ⟨_, _, _, hD _ h, rfl⟩
  · exact ⟨_, _, _, _, rfl⟩
  · exact ⟨_, _, _, rfl⟩
  · exact ⟨_, _, _, by simpa using h, rfl⟩
  · exact ⟨_, _, rfl⟩
  · cases h

/-- a test for `Made` -/
def madeB {F : Type} (D : F → Bool) (strict : Bool) (T : Key → Option RBody) (I : Key → List Need) : Nat → Key → MObj F → Bool
  | 0, _, _ => false
  | n + 1, k, o => match T k, o with
    | some b, .mk c fs => c == b.cls && fs.map Prod.fst == b.slots.map RSlot.key &&
        (b.slots.zip (fs.map Prod.snd)).all (fun e => e.2.all (fun v => valueB (madeB D strict T I n) e.1.item v ||
            match e.1.item, v with | .prim k, .scal s => assignedB D k s | _, _ => false) &&
          (!(e.1.path.single || e.1.last) || decide (e.2.length ≤ 1)) &&
          (!e.2.isEmpty || (e.1.req != .always && (e.1.req != .strict || !strict) && !inherent e.1))) &&
        namesOk b.slots o && (I b.cls).all fun m => okB strict m o
    | _, _ => false

theorem madeB_sound {py : Py} {repr : py.F → Str} {D : py.F → Bool} (hD : ∀ f, D f = true → Decimal py repr f) {strict : Bool} {T : Key → Option RBody}
    {I : Key → List Need} {n : Nat} {k : Key} {o : MObj py.F} (h : madeB D strict T I n k o = true) : Made repr strict T I n k o := by
  induction n generalizing k o with
  | zero => cases h
  | succ n ih =>
    unfold madeB at h
    split at h
    next b c fs hb =>
      simp only [Bool.and_eq_true, beq_iff_eq] at h
      obtain ⟨⟨⟨⟨rfl, hk⟩, hs⟩, hn⟩, hI⟩ := h
      have hzip : fs = (b.slots.map RSlot.key).zip (fs.map Prod.snd) := by
        rw [← hk]
        clear hk hs hn hI
        induction fs with
        | nil => rfl
        | cons e fs ih => simp only [List.map_cons, List.zip_cons_cons, ← ih]
      refine ⟨b, fs.map Prod.snd, hb, by rw [← hzip], ?_, hn, fun m hm => okB_sound (List.all_eq_true.1 hI m hm)⟩
      have hlen : b.slots.length = (fs.map Prod.snd).length := by
        have := congrArg List.length hk
        simpa using this.symm
      rw [List.forall₂_iff_zip]
      refine ⟨hlen, fun {s vs} hsv => ?_⟩
      have h := List.all_eq_true.1 hs (s, vs) hsv
      simp only [Bool.and_eq_true, Bool.or_eq_true, Bool.not_eq_true', bne_iff_ne, ne_eq, decide_eq_true_eq, List.isEmpty_eq_false_iff] at h
      obtain ⟨⟨h1, h2⟩, h3⟩ := h
      refine ⟨fun v hv => ?_, fun hs => ?_, fun hvs => ?_⟩
      · have h1 := List.all_eq_true.1 h1 v hv
        simp only [Bool.or_eq_true] at h1
        rcases h1 with h1 | h1
        · exact .inl (valueB_sound (fun k v h => ih h) h1)
        · split at h1
          next k s hi => exact .inr ⟨k, s, hi, rfl, assignedB_sound hD h1⟩
          · cases h1
      · rcases h2 with h2 | h2
        · rw [hs] at h2; cases h2
        · exact h2
      · rcases h3 with h3 | ⟨⟨h3, h4⟩, h5⟩
        · exact absurd hvs h3
        · refine ⟨h3, fun hr => ?_, h5⟩
          rcases h4 with h4 | h4
          · exact absurd hr h4
          · exact h4
    next => cases h

/-- `signal.setLength(ARNumerical().setValue(i))` -/
def lengthDoc (F : Type) (i : Int) : MObj F := oneElement (signalWith (.num .numerical none none none ⟨.num (.int i), none⟩))

/-- the hypotheses of `C66_saved_partial` and `C66_value_partial` hold for it, in both modes -/
theorem lengthDoc_made (py : Py) (repr : py.F → Str) (strict : Bool) (i : Int) :
    Made repr strict readers invariants 4 k!"load" (lengthDoc py.F i) ∧ Clean lossy strict (back repr (lengthDoc py.F i)) := by
  cases strict
  · exact ⟨madeB_sound (D := fun _ => false) (by simp) (by rfl), cleanB_sound _ (by rfl)⟩
  · exact ⟨madeB_sound (D := fun _ => false) (by simp) (by rfl), cleanB_sound _ (by rfl)⟩

/-- **C66 fails** for integers that need more than 53 bits: a signal is given the length 9007199254740993 = 2⁵³+1.  It is saved with this
length, and the length is another number when the file is loaded. -/
theorem C66_large_broken (py : Py) (repr : py.F → Str) (strict : Bool) :
    ∃ y d' v t m, save py repr strict (lengthDoc py.F 9007199254740993) = .ok y ∧ load py strict y = .ok d' ∧
      findIn ["P".toList, "e".toList] d' = some v ∧ v.get k!"length" = [.scal (.num .numerical none none none ⟨.num m, t⟩)] ∧
      m.toRat py ≠ some 9007199254740993 := by
  obtain ⟨hm, hc⟩ := lengthDoc_made py repr strict 9007199254740993
  obtain ⟨y, d', h1, h2, h3⟩ := C66_value_partial py repr strict 4 _ hm hc
  obtain ⟨v, hv, _, hl⟩ := h3 ["P".toList, "e".toList] (signalWith (.num .numerical none none none ⟨.num (.int 9007199254740993), none⟩)) k!"length" _ (by decide) rfl rfl
  refine ⟨y, d', v, _, _, h1, h2 y (reload_refl y), hv, hl, fun h => ?_⟩
  exact not_double (py.double _ _ h)

/-- a signal whose length is less than 2⁵³ keeps it -/
example (py : Py) (repr : py.F → Str) (strict : Bool) : ∃ y d' v m, save py repr strict (lengthDoc py.F (-16)) = .ok y ∧ load py strict y = .ok d' ∧
    findIn ["P".toList, "e".toList] d' = some v ∧ v.get k!"length" = [.scal (.num .numerical none none none ⟨.num m, some "-16".toList⟩)] ∧
    m.toRat py = some (-16) := by
  obtain ⟨hm, hc⟩ := lengthDoc_made py repr strict (-16)
  obtain ⟨y, d', h1, h2, h3⟩ := C66_value_partial py repr strict 4 _ hm hc
  obtain ⟨v, hv, _, hl⟩ := h3 ["P".toList, "e".toList] (signalWith (.num .numerical none none none ⟨.num (.int (-16)), none⟩)) k!"length" _ (by decide) rfl rfl
  obtain ⟨m, hb, hr⟩ := (C66_same_number py repr none none none).2.2 .numerical (-16) (by decide)
  rw [hb, show strInt (-16) = "-16".toList from by decide +kernel] at hl
  exact ⟨y, d', v, m, h1, h2 y (reload_refl y), hv, hl, by simpa using hr⟩

/-- `0.5` is the decimal number one half -/
theorem half_decimal : Decimal Py.demo (fun _ => "0.5".toList) (1 / 2 : Rat) := by
  refine ⟨⟨.none, "0".toList, true, "5".toList, none⟩, [0], [5], [], ⟨?_, ?_, fun h => (by cases h), .inl (by simp), rfl⟩, rfl, ?_⟩
  · exact digits_ascii Py.demo "0".toList (by decide)
  · exact digits_ascii Py.demo "5".toList (by decide)
  · have hv : (Dec.value ⟨.none, "0".toList, true, "5".toList, none⟩ [0] [5] [] : Rat) = 1 / 2 := by
      norm_num [Dec.value, Sign.apply, number]
      decide
    rw [hv]
    exact if_pos ⟨1, 1, by decide, .inr (by norm_num)⟩

/-- is it one half -/
def isHalf (q : Rat) : Bool := decide (q = 1 / 2)

/-- a unit with an assigned factor, a signal with an assigned length, a system signal with an assigned truth value and a base type with an
assigned size -/
def assignedDoc : MObj Py.demo.F := withFields k!"load" [(k!"arPackages", [withFields k!"readARPackages_ARPackage"
  [(k!"short_name", [.scal (.str "P".toList)]), (k!"elements", [unitWith (.num .float none none none ⟨.num (.flt (1 / 2 : Rat)), none⟩),
    withFields k!"readARPackageElements_ISignal" [(k!"short_name", [.scal (.str "s".toList)]),
      (k!"length", [.scal (.num .numerical none none none ⟨.num (.int 16), none⟩)])],
    withFields k!"readARPackageElements_SystemSignal" [(k!"short_name", [.scal (.str "y".toList)]), (k!"dynamicLength", [.scal (.bool none none ⟨some true, none⟩)])],
    withFields k!"readARPackageElements_SwBaseType" [(k!"short_name", [.scal (.str "b".toList)]),
      (k!"baseTypeDefinition.baseTypeSize", [.scal (.num .positive none none none ⟨.num (.int 8), none⟩)])]])]])]

/-- the hypotheses of `C66_saved_partial` hold for it, in both modes -/
example (strict : Bool) : Made (fun _ => "0.5".toList) strict readers invariants 4 k!"load" assignedDoc ∧
    Clean lossy strict (back (fun _ => "0.5".toList) assignedDoc) := by
  have hD : ∀ f : Py.demo.F, isHalf f = true → Decimal Py.demo (fun _ => "0.5".toList) f := by
    intro f hf
    have hq : ∀ q : Rat, isHalf q = true → q = 1 / 2 := fun q h => of_decide_eq_true h
    rw [show f = (1 / 2 : Rat) from hq f hf]
    exact half_decimal
  cases strict
  · exact ⟨madeB_sound hD (by decide +kernel), cleanB_sound _ (by rfl)⟩
  · exact ⟨madeB_sound hD (by decide +kernel), cleanB_sound _ (by rfl)⟩

/-- the hypotheses of `C67_built_partial` hold for `builtDoc` and the port is found in what is loaded -/
example (py : Py) (repr : py.F → Str) (strict : Bool) : ∃ y d' v, save py repr strict (builtDoc py.F) = .ok y ∧ load py strict y = .ok d' ∧
    findIn ["P".toList, "C".toList, "p".toList] d' = some v ∧ v.cls = k!"PPortPrototype" := by
  have hd : Shaped strict readers invariants 4 k!"load" (builtDoc py.F) ∧ Clean lossy strict (builtDoc py.F) := by
    cases strict
    · exact ⟨fitsB_sound (by rfl), cleanB_sound _ (by rfl)⟩
    · exact ⟨fitsB_sound (by rfl), cleanB_sound _ (by rfl)⟩
  obtain ⟨y, d', h1, h2, h3⟩ := C67_built_partial py repr strict 4 _ hd.1 hd.2
  have h := h3 ["P".toList, "C".toList, "p".toList] (by decide)
  have hf : ∃ w, findIn ["P".toList, "C".toList, "p".toList] (builtDoc py.F) = some w ∧ w.cls = k!"PPortPrototype" := ⟨_, rfl, rfl⟩
  obtain ⟨w, hw, hc⟩ := hf
  rw [hw] at h
  generalize hr : findIn ["P".toList, "C".toList, "p".toList] d' = r at h
  cases h with
  | some _ u h => exact ⟨y, d', u, h1, h2 y (reload_refl y), hr, by rw [same_cls h, hc]⟩

end Verif.Props
