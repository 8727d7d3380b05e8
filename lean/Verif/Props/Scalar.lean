import Verif.Props.Prim
import Verif.Lemmas.Scalar
import Verif.Gen.ReadTable
/-!
# C27–C29: scalar accessors
-/
namespace Verif.Props
open Verif Verif.Model Verif.Spec Verif.Lemmas

theorem tagIs_self (y : Xml) : tagIs y.tag y = true := by simp [tagIs]

/-- what `find` gives for an element in a context -/
theorem walk_context {y p : Xml} (h : InContext y p) (hz : y.tag ≠ 0) : ∃ r, walk [y.tag] p = y :: r := by
  obtain ⟨pre, post, hp, hn⟩ := h.split
  have h1 : pre.filter (tagIs y.tag) = [] := by
    rw [List.filter_eq_nil_iff]
    intro z hz'
    simp [tagIs, hn z hz', hz]
  refine ⟨(post.filter (tagIs y.tag)).flatMap (walk []), ?_⟩
  simp only [walk, hp, List.filter_append, h1, List.nil_append, List.filter_cons_of_pos (tagIs_self y), List.flatMap_cons,
    List.singleton_append]

/-! ## C27 -/

/-- **C27** Writing a value that was read and reading it again, wherever the element is: for every pair of accessors of
the same kind the result is the same value (text and attributes). -/
theorem C27_loaded (py : Py) (repr : py.F → Str) (rk : RKind) (wk : WKind) (hf : rk.fits wk = true) (tag : Key) (ht : tag ≠ 0)
    (x : Xml) (s : Scalar py.F) (h : readKind py rk x = .ok (some s)) :
    ∃ y, setChild py repr wk tag (some s) = .ok [y] ∧ ∀ p, InContext y p → getChild py rk [tag] p = .ok (some s) := by
  obtain ⟨y, h1, h2, _, h4⟩ := kind_rt py repr rk wk hf tag x s h
  refine ⟨y, by simp [setChild, h1], fun p hp => ?_⟩
  obtain ⟨r, hr⟩ := walk_context hp (h2 ▸ ht)
  rw [h2] at hr
  simp only [getChild, hr, h4]

example (py : Py) (repr : py.F → Str) : ∃ y, setChild py repr .lit k!"CATEGORY" (some (.lit (some "t".toList) none "C".toList)) = .ok [y]
    ∧ ∀ p, InContext y p → getChild py .lit [k!"CATEGORY"] p = .ok (some (.lit (some "t".toList) none "C".toList)) :=
  C27_loaded py repr .lit .lit rfl _ (by decide) (.leaf k!"X" [(k!"T", "t".toList)] "C".toList) _ rfl

example : InContext (.leaf k!"B" [] "1".toList) (.node k!"P" [] [] [.leaf k!"A" [] [], .leaf k!"B" [] "1".toList, .leaf k!"B" [] []]) :=
  ⟨⟨[.leaf k!"A" [] []], [.leaf k!"B" [] []], rfl, by simp [Xml.leaf, Xml.tag]⟩⟩

/-- **C27** Literals (also identifiers, verbatim strings, dates, enumerations) with any text and any attributes. -/
theorem C27_literal (py : Py) (repr : py.F → Str) (tag : Key) (ht : tag ≠ 0) (t u : Option Str) (v : Str) :
    ∃ y, setChild py repr .lit tag (some (.lit t u v)) = .ok [y] ∧
      ∀ p, InContext y p → getChild py .lit [tag] p = .ok (some (.lit t u v)) :=
  C27_loaded py repr .lit .lit rfl tag ht (.leaf tag (metaAttrs t u) v) _ (by simp only [readKind, attr_T', attr_UUID', leaf_text])

/-- **C27, C25** References with any base, destination and path. -/
theorem C27_reference (py : Py) (repr : py.F → Str) (tag : Key) (ht : tag ≠ 0) (base dest : Option Str) (v : Str) :
    ∃ y, setChild py repr .ref tag (some (.ref base dest v)) = .ok [y] ∧
      ∀ p, InContext y p → getChild py .ref [tag] p = .ok (some (.ref base dest v)) := by
  refine C27_loaded py repr .ref .ref rfl tag ht (.leaf tag (optAttr k!"BASE" base ++ optAttr k!"DEST" dest) v) _ ?_
  cases base <;> cases dest <;> simp [readKind, Xml.attr, Xml.leaf, Xml.attrs, Xml.text, optAttr, List.lookup_cons]

/-- **C27** Limits with any interval type and text. -/
theorem C27_limit (py : Py) (repr : py.F → Str) (tag : Key) (ht : tag ≠ 0) (t u iv : Option Str) (v : Str) :
    ∃ y, setChild py repr .limit tag (some (.limit t u iv v)) = .ok [y] ∧
      ∀ p, InContext y p → getChild py .limit [tag] p = .ok (some (.limit t u iv v)) := by
  refine C27_loaded py repr .limit .limit rfl tag ht (.leaf tag (metaAttrs t u ++ optAttr k!"INTERVAL-TYPE" iv) v) _ ?_
  simp only [readKind, leaf_text]
  rw [attr_T_sl _ _ _ _ _ _ (by decide), attr_UUID_sl _ _ _ _ _ _ (by decide), attr_sl _ _ _ _ _ _ (by decide) (by decide)]

theorem parseNum_ok (py : Py) (c : PObj.Cls) (s : Str) (n : Num py.F) (h : convert py s = .ok n) :
    parseNum py c s = .ok ⟨.num n, some s⟩ := by
  simp [parseNum, PObj.setValue, PObj.assign, h]

/-- **C27** Numbers, however their value was assigned: if the text the writer produces denotes a number, reading gives
a number with that text and the same attributes. -/
theorem C27_number (py : Py) (repr : py.F → Str) (tag : Key) (ht : tag ≠ 0) (c : PObj.Cls) (t u sl : Option Str) (o : PObj py.F)
    (w : Str) (hw : o.writtenNumerical repr = some w) (hw0 : w ≠ []) (n : Num py.F) (hn : convert py w = .ok n) :
    ∃ y, setChild py repr .numerical tag (some (.num c t u sl o)) = .ok [y] ∧ ∀ p, InContext y p →
      ∃ o', o'.text = some w ∧ getChild py .numerical [tag] p = .ok (some (.num .numerical t u sl o')) := by
  refine ⟨.leaf tag (metaAttrs t u ++ optAttr k!"SHORT-LABEL" sl) w, by simp [setChild, writeKind, hw, optText], fun p hp => ?_⟩
  obtain ⟨r, hr⟩ := walk_context hp ht
  refine ⟨⟨.num n, some w⟩, rfl, ?_⟩
  have hr' : walk [tag] p = _ := hr
  simp only [getChild, hr', readKind, leaf_text, parseNum?, hw0, if_false, parseNum_ok py _ w n hn]
  rw [attr_T_sl _ _ _ _ _ _ (by decide), attr_UUID_sl _ _ _ _ _ _ (by decide), attr_sl _ _ _ _ _ _ (by decide) (by decide)]

example (py : Py) (repr : py.F → Str) : ∃ n, convert py "12".toList = .ok n ∧
    ({ value := .num (.int 12), text := none } : PObj py.F).writtenNumerical repr = some "12".toList := by
  refine ⟨_, convert_plain py "12".toList (by decide) (by decide), ?_⟩
  simp only [PObj.writtenNumerical, strVal, strInt]
  decide

/-- **C27 fails** for the `UUID` attribute of a boolean: it is written, but not read. -/
theorem C27_boolean_uuid_broken (py : Py) (repr : py.F → Str) (tag : Key) (ht : tag ≠ 0) (u : Str) (o : PBool.BObj) :
    ∃ y, setChild py repr .lit tag (some (.bool none (some u) o)) = .ok [y] ∧ y.attr k!"UUID" = some u ∧
      ∀ p, InContext y p → getChild py .boolean [tag] p ≠ .ok (some (.bool none (some u) o)) := by
  refine ⟨_, rfl, by rw [attr_UUID'], fun p hp h => ?_⟩
  obtain ⟨r, hr⟩ := walk_context hp ht
  have hr' : walk [tag] p = _ := hr
  simp only [getChild, hr', readKind] at h
  split at h
  · simp at h
  · split at h <;> simp at h

/-- **C27 fails** for the attributes `T` and `UUID` of a time value. -/
theorem C27_time_attributes_broken (py : Py) (repr : py.F → Str) (tag : Key) (ht : tag ≠ 0) (t : Str) (o : PObj py.F) :
    ∃ y, setChild py repr .lit tag (some (.num .float (some t) none none o)) = .ok [y] ∧ y.attr k!"T" = some t ∧
      ∀ p, InContext y p → getChild py .time [tag] p ≠ .ok (some (.num .float (some t) none none o)) := by
  refine ⟨_, rfl, by rw [attr_T'], fun p hp h => ?_⟩
  obtain ⟨r, hr⟩ := walk_context hp ht
  have hr' : walk [tag] p = _ := hr
  simp only [getChild, hr', readKind] at h
  split at h
  · simp at h
  · split at h <;> simp at h

theorem not_accepted_None (py : Py) : ¬ Accepted py "None".toList := by
  intro h
  generalize hs : "None".toList = s at h
  cases h with
  | doc h =>
    cases h with
    | tru => revert hs; decide
    | fls => revert hs; decide
    | hex => revert hs; intro hs; cases hs
    | bin => revert hs; intro hs; cases hs
    | dec hw =>
      rcases dec_chars py hw 'N' (by rw [← hs]; decide) with h | h
      · rw [digit_ascii_none (by decide) (by decide)] at h; cases h
      · revert h; decide
  | hexJunk => cases hs
  | binJunk => cases hs
  | @newline d _ _ _ hw =>
    have : 'N' ∈ d.text ++ ['\n'] := by rw [← hs]; decide
    rcases List.mem_append.mp this with h | h
    · rcases dec_chars py hw 'N' h with h | h
      · rw [digit_ascii_none (by decide) (by decide)] at h; cases h
      · revert h; decide
    · revert h; decide
  | loose h => exact loose_not py h 'N' (by decide) (by decide) (by decide) (by decide) (by rw [← hs]; decide)

/-- **C27 fails** for a float object without value: the file that is written cannot be loaded. -/
theorem C27_float_unset_broken (py : Py) (repr : py.F → Str) (tag : Key) (ht : tag ≠ 0) (t u : Option Str) :
    ∃ y, setChild py repr .lit tag (some (.num .float t u none PObj.new)) = .ok [y] ∧
      ∀ p, InContext y p → getChild py .float [tag] p = .error .valueError := by
  refine ⟨.leaf tag (metaAttrs t u) "None".toList, rfl, fun p hp => ?_⟩
  obtain ⟨r, hr⟩ := walk_context hp ht
  have hr' : walk [tag] p = _ := hr
  have hc : parseNum py .float "None".toList = .error .valueError := by
    simp only [parseNum, PObj.setValue, PObj.assign, C21_rejected_partial py _ (not_accepted_None py)]
  have h0 : ("None".toList = []) = False := by simp
  simp only [getChild, hr', readKind, leaf_text, h0, if_false, hc]

/-! ## C28 -/

/-- **C28** Nothing is written for an unset attribute. -/
theorem C28_written (py : Py) (repr : py.F → Str) (strict : Bool) (wr : Key → MObj py.F → Except PyErr Out) (o : MObj py.F) (tag f : Key)
    (k : WKind) (h : o.get f = []) : writeB py repr strict wr o (.prim tag k f .nil) = .ok {} := by
  simp [writeB, h, mapE, seqE, Out.app, Except.map]

/-- **C28** Nothing is read if the first tag of the path is missing. -/
theorem C28_read (py : Py) (rk : RKind) (t : Key) (ts : List Key) (x : Xml) (h : ∀ y ∈ x.kids, tagIs t y = false) :
    getChild py rk (t :: ts) x = .ok none := by
  have : x.kids.filter (tagIs t) = [] := by
    rw [List.filter_eq_nil_iff]; intro y hy; simp [h y hy]
  simp only [getChild, walk, this, List.flatMap_nil]

/-- **C28** Writing an unset scalar and reading it, next to any other children, gives `None`. -/
theorem C28_absent (py : Py) (repr : py.F → Str) (rk : RKind) (wk : WKind) (tag : Key) (ht : tag ≠ 0) (p : Xml)
    (hp : ∀ y ∈ p.kids, y.tag ≠ tag) (a : List Xml) (ha : setChild py repr wk tag none = .ok a) :
    getChild py rk [tag] (.node p.tag p.attrs p.text (p.kids ++ a)) = .ok none := by
  cases ha
  refine C28_read py rk tag [] _ fun y hy => ?_
  simp only [Xml.kids, List.append_nil] at hy
  simp [tagIs, hp y hy, ht]

example : ∀ y ∈ (Xml.node k!"P" [] [] [.leaf k!"A" [] []]).kids, y.tag ≠ k!"B" := by simp [Xml.kids, Xml.leaf, Xml.tag]

/-! ## C29 -/

/-- **C29** Inserting (or deleting) a child the reader method does not ask for, at any position, changes nothing. -/
theorem C29_foreign (py : Py) (strict : Bool) (rd : Key → Xml → Except RErr (MObj py.F)) (b : RBody)
    (hb : ∀ s ∈ b.slots, deep s.item = true → moves s.path = true) (t : Key) (a : List (Key × Str)) (s : Str) (pre post : List Xml) (z : Xml)
    (hz : ForeignTo b z) :
    readBody py strict rd b (.node t a s (pre ++ z :: post)) = readBody py strict rd b (.node t a s (pre ++ post)) := by
  have h : mapE (readSlot py strict rd (.node t a s (pre ++ z :: post))) b.slots
      = mapE (readSlot py strict rd (.node t a s (pre ++ post))) b.slots := by
    refine mapE_congr fun sl hsl => ?_
    refine readSlot_congr py strict rd sl _ _ rfl rfl rfl (hb sl hsl) fun t ht => ?_
    exact filter_insert_neg (hz sl hsl t ht) pre post
  simp only [readBody, h]

/-- every object of the reader is made from an element below the one its owner is read from -/
theorem readTable_moves : Gen.readTable.all (fun _ b => b.slots.all fun s => !deep s.item || moves s.path) = true := by
  decide +kernel

/-- **C29** For every object the reader makes: a foreign child at any position changes nothing, at any recursion depth. -/
theorem C29_reader (py : Py) (strict : Bool) (n : Nat) (k : Key) (b : RBody) (hb : Gen.readTable.find? k = some b) (t : Key)
    (a : List (Key × Str)) (s : Str) (pre post : List Xml) (z : Xml) (hz : ForeignTo b z) :
    readObj py strict Gen.readTable.find? n k (.node t a s (pre ++ z :: post))
      = readObj py strict Gen.readTable.find? n k (.node t a s (pre ++ post)) := by
  cases n with
  | zero => rfl
  | succ n =>
    simp only [readObj, hb]
    refine C29_foreign py strict _ b (fun sl hs hd => ?_) t a s pre post z hz
    have := (Bst.all_toList _ _).1 readTable_moves _ (Bst.find?_mem hb)
    rw [List.all_eq_true] at this
    simpa [hd] using this sl hs

/-- an `AR-PACKAGE` inside a `UNIT` is foreign -/
example (b : RBody) (hb : Gen.readTable.find? k!"readARPackageElements_Unit" = some b) : ForeignTo b (.leaf k!"AR-PACKAGE" [] []) := by
  have h : (match Gen.readTable.find? k!"readARPackageElements_Unit" with
    | some b => b.slots.all fun s => (heads s.path).all fun t => !tagIs t (.leaf k!"AR-PACKAGE" [] [])
    | none => false) = true := by decide +kernel
  rw [hb] at h
  intro s hs t ht
  simp only [List.all_eq_true, Bool.not_eq_true'] at h
  exact h s hs t ht

example : (Gen.readTable.find? k!"readARPackageElements_Unit").isSome = true := by decide +kernel

/-- **C29** The same for one attribute: only the children asked for by its own path matter. -/
theorem C29_attribute (py : Py) (strict : Bool) (rd : Key → Xml → Except RErr (MObj py.F)) (sl : RSlot)
    (hb : deep sl.item = true → moves sl.path = true) (t : Key) (a : List (Key × Str)) (s : Str) (kids kids' : List Xml)
    (hk : ∀ u ∈ heads sl.path, kids.filter (tagIs u) = kids'.filter (tagIs u)) :
    readSlot py strict rd (.node t a s kids) sl = readSlot py strict rd (.node t a s kids') sl :=
  readSlot_congr py strict rd sl _ _ rfl rfl rfl hb hk

/-- **C29** Swapping two neighbours of which one is foreign changes nothing. -/
theorem C29_swap (py : Py) (strict : Bool) (rd : Key → Xml → Except RErr (MObj py.F)) (b : RBody)
    (hb : ∀ s ∈ b.slots, deep s.item = true → moves s.path = true) (t : Key) (a : List (Key × Str)) (s : Str) (pre post : List Xml) (z w : Xml)
    (hz : ForeignTo b z) :
    readBody py strict rd b (.node t a s (pre ++ z :: w :: post)) = readBody py strict rd b (.node t a s (pre ++ w :: z :: post)) := by
  rw [C29_foreign py strict rd b hb t a s pre (w :: post) z hz]
  have := C29_foreign py strict rd b hb t a s (pre ++ [w]) post z hz
  simpa using this.symm

/-- **C29** Of repeated children the first is used. -/
theorem C29_first (py : Py) (rk : RKind) (tag : Key) (ht : tag ≠ 0) (y p : Xml) (hy : y.tag = tag) (h : InContext y p) :
    getChild py rk [tag] p = readKind py rk y := by
  subst hy
  obtain ⟨r, hr⟩ := walk_context h ht
  simp only [getChild, hr]

/-! ## C24 and C26: loading -/

/-- **C24** A positive integer that is loaded is not negative; a negative text raises. -/
theorem C24_loaded (py : Py) (x : Xml) (s : Scalar py.F) (h : readKind py .positive x = .ok (some s)) :
    ∃ t u o, s = .num .positive t u none o ∧ negative py o.value = false := by
  simp only [readKind] at h
  split at h
  · simp at h
  split at h
  · rename_i o _
    split at h
    · cases h
    · rename_i hn
      simp only [Except.ok.injEq, Option.some.injEq] at h
      exact ⟨_, _, o, h.symm, by simpa using hn⟩
  · cases h

/-- **C24** The value read is the value the text denotes, so a negative number in the file raises. -/
theorem C24_loaded_negative (py : Py) (x : Xml) (hx : x.text ≠ []) (n : Num py.F) (hn : convert py x.text = .ok n)
    (hneg : negative py (.num n) = true) : readKind py .positive x = .error .valueError := by
  simp only [readKind, hx, if_false, parseNum_ok py _ _ n hn, hneg, if_true]

example (py : Py) : ∃ n, convert py "-5".toList = .ok n ∧ negative py (.num n) = true := by
  have h := C24_text_broken py PObj.new
  cases hc : convert py "-5".toList with
  | error e => simp only [PObj.setValue, PObj.assign, hc] at h; cases h.1
  | ok n =>
    refine ⟨n, rfl, ?_⟩
    have := h.2
    simp only [PObj.setValue, PObj.assign, hc, Negative] at this
    cases n <;> simpa [negative] using this

/-- **C26** Loading a revision label: accepted exactly if it starts with `major.minor.patch`, otherwise `ValueError`
(there is no warning mode for it). -/
theorem C26_loaded (py : Py) (x : Xml) (hx : x.text ≠ []) :
    (MajorMinorPatch x.text → readKind py .revision x = .ok (some (.lit (x.attr k!"T") (x.attr k!"UUID") x.text))) ∧
    (¬ MajorMinorPatch x.text → readKind py .revision x = .error .valueError) := by
  constructor
  · intro h
    simp only [readKind, hx, if_false, (C26_revision _).mpr h, if_true]
  · intro h
    have : ¬ Re.test reRevision x.text = true := fun h' => h ((C26_revision _).mp h')
    simp only [readKind, hx, if_false, this, Bool.false_eq_true]

end Verif.Props
