import Verif.Model.Chars
import Verif.Lemmas.UuidSound
import Verif.Lemmas.UuidLower
import Verif.Lemmas.UuidDoc
import Verif.Props.ListTool
import Verif.Props.Registry
/-!
# C60: what `uuid-checker` reports, in terms of the files
-/
namespace Verif.Props
open Verif Verif.Model Verif.Gen Verif.Spec Verif.Lemmas

/-! ## the registry of the calls -/

theorem since_clear {ops : List Registry.Op} (h : ∀ o ∈ ops, o ≠ .clear) : since ops = ops := by
  induction ops with
  | nil => rfl
  | cons o r ih =>
    have h1 : ¬ (r.any fun o => match o with | .clear => true | _ => false) = true := by
      intro hc
      obtain ⟨p, hp, hc⟩ := List.any_eq_true.1 hc
      have := h p (by simp [hp])
      split at hc
      · exact absurd rfl this
      · cases hc
    rw [since]
    · split
      · rename_i hc; exact absurd hc h1
      · rfl
    · exact fun e => absurd e (h o (by simp))

theorem calls_since (cs : List DocCall) : since (cs.zipIdx.map fun e => e.1.op e.2) = cs.zipIdx.map fun e => e.1.op e.2 := by
  refine since_clear fun o ho => ?_
  obtain ⟨e, _, rfl⟩ := List.mem_map.1 ho
  cases e.1 with
  | behavior c ns r => cases r <;> simp [DocCall.op]
  | _ => simp [DocCall.op]

theorem objects_regs {u : Str} (cs : List DocCall) (n : Nat) :
    ((objectsOf ((cs.zipIdx n).map fun e => e.1.op e.2)).filter fun o => o.uuid = some (String.ofList u)).length = regs u cs := by
  induction cs generalizing n with
  | nil => rfl
  | cons c cs ih =>
    have ih := ih (n + 1)
    have e1 : ((c :: cs).zipIdx n).map (fun e => e.1.op e.2) = c.op n :: (cs.zipIdx (n + 1)).map fun e => e.1.op e.2 := by
      simp only [List.zipIdx_cons, List.map_cons]
    rw [e1]
    generalize ((cs.zipIdx (n + 1)).map fun e => e.1.op e.2) = R at ih
    have e2 : regs u (c :: cs) = regs u cs + if isObject u c then 1 else 0 := List.countP_cons
    rw [e2]
    cases c with
    | object v c ns =>
      show ((⟨n, some (String.ofList v)⟩ :: objectsOf R).filter fun o => o.uuid = some (String.ofList u)).length = _
      rw [List.filter_cons]
      by_cases hv : v = u
      · subst hv
        have e3 : isObject v (.object v c ns) = true := by simp [isObject]
        simp only [decide_true, if_true, List.length_cons, ih, e3]
      · have hs : ¬ String.ofList v = String.ofList u := fun e => hv (String.ofList_injective e)
        have e3 : isObject u (.object v c ns) = false := by simp [isObject, hv]
        have e4 : decide (some (String.ofList v) = some (String.ofList u)) = false := by simp [hs]
        simp only [e4, Bool.false_eq_true, if_false, ih, e3, Nat.add_zero]
    | system => exact ih
    | composition => exact ih
    | behavior c ns r => cases r <;> exact ih
    | map => exact ih
    | root => exact ih

theorem objects_mem {s : String} {o : UObj} {cs : List DocCall} :
    o ∈ (objectsOf (cs.zipIdx.map fun e => e.1.op e.2)).filter (fun o => o.uuid = some s) ↔
      ∃ u c ns, cs[o.id]? = some (.object u c ns) ∧ o.uuid = some s ∧ s = String.ofList u := by
  simp only [List.mem_filter, objectsOf, List.mem_filterMap, List.mem_map]
  constructor
  · rintro ⟨⟨op, ⟨e, he, rfl⟩, h⟩, hu⟩
    obtain ⟨c, i⟩ := e
    have he := List.mem_zipIdx_iff_getElem?.1 he
    cases c with
    | object v c ns =>
      simp only [DocCall.op, Option.some.injEq] at h
      subst h
      simp only [decide_eq_true_eq, Option.some.injEq] at hu
      exact ⟨v, c, ns, he, by rw [hu], hu.symm⟩
    | system => simp [DocCall.op] at h
    | composition => simp [DocCall.op] at h
    | behavior c ns r => cases r <;> simp [DocCall.op] at h
    | map => simp [DocCall.op] at h
    | root => simp [DocCall.op] at h
  · rintro ⟨u, c, ns, h1, h2, rfl⟩
    refine ⟨⟨_, ⟨(.object u c ns, o.id), List.mem_zipIdx_iff_getElem?.2 h1, rfl⟩, ?_⟩, by simp [h2]⟩
    obtain ⟨i, v⟩ := o
    simp only at h2
    simp [DocCall.op, h2]

/-- what the report says about the calls -/
theorem report_calls {cs : List DocCall} {rep : List (String × List (List Str × Key))} (h : uuidReport cs = some rep) :
    (rep.map Prod.fst).Nodup ∧ (∀ e ∈ rep, ∃ u, e.1 = String.ofList u ∧ 2 ≤ regs u cs) ∧
      (∀ u, 2 ≤ regs u cs → ∃ l, (String.ofList u, l) ∈ rep) ∧
      (∀ e ∈ rep, ∀ ns c, (ns, c) ∈ e.2 → armodel.sub c k!"Referrable" = true) ∧
      ∀ e ∈ rep, ∀ ns c, (ns, c) ∈ e.2 ↔ ∃ u, e.1 = String.ofList u ∧ DocCall.object u c ns ∈ cs := by
  obtain ⟨hn, hr⟩ := C14_cli_report (cs.zipIdx.map fun e => e.1.op e.2)
  have ho := fun u => C14_objects (cs.zipIdx.map fun e => e.1.op e.2) u
  rw [calls_since] at hr
  simp only [calls_since] at ho
  simp only [uuidReport, registryOf] at h
  have hf := mapM_some h
  have hfst : rep.map Prod.fst = UUIDMgr.cliReport (Registry.run (cs.zipIdx.map fun e => e.1.op e.2)).uuid_mgr := by
    generalize UUIDMgr.cliReport (Registry.run (cs.zipIdx.map fun e => e.1.op e.2)).uuid_mgr = l at hf
    clear h hn hr ho
    induction hf with
    | nil => rfl
    | cons h1 _ ih =>
      obtain ⟨_, _, rfl⟩ := Option.map_eq_some_iff.1 h1
      simp [ih]
  have back : ∀ e ∈ rep, ∃ u, e.1 = String.ofList u ∧ 2 ≤ regs u cs := by
    intro e he
    have h1 : e.1 ∈ UUIDMgr.cliReport (Registry.run (cs.zipIdx.map fun e => e.1.op e.2)).uuid_mgr := by
      rw [← hfst]; exact List.mem_map.2 ⟨e, he, rfl⟩
    have h2 := (hr e.1).1 h1
    refine ⟨e.1.toList, String.ofList_toList.symm, ?_⟩
    rw [← objects_regs cs 0, String.ofList_toList]
    exact h2
  have lines : ∀ e ∈ rep, List.Forall₂ (fun o l => uuidLine cs o = some l)
      ((objectsOf (cs.zipIdx.map fun e => e.1.op e.2)).filter (fun o => o.uuid = some e.1)) e.2 := by
    intro e he
    obtain ⟨s, l⟩ := e
    have : ((UUIDMgr.getObjects (Registry.run (cs.zipIdx.map fun e => e.1.op e.2)).uuid_mgr s).mapM (uuidLine cs)) = some l := by
      generalize UUIDMgr.cliReport (Registry.run (cs.zipIdx.map fun e => e.1.op e.2)).uuid_mgr = l' at hf
      clear h hn hr ho hfst back
      induction hf with
      | nil => cases he
      | cons h1 _ ih =>
        rcases List.mem_cons.1 he with rfl | he
        · obtain ⟨l'', h2, h3⟩ := Option.map_eq_some_iff.1 h1
          cases h3
          exact h2
        · exact ih he
    rw [ho] at this
    exact mapM_some this
  have line : ∀ e ∈ rep, ∀ ns c, (ns, c) ∈ e.2 → ∃ o ∈ (objectsOf (cs.zipIdx.map fun e => e.1.op e.2)).filter (fun o => o.uuid = some e.1),
      uuidLine cs o = some (ns, c) := by
    intro e he ns c hm
    have hf := lines e he
    generalize (objectsOf (cs.zipIdx.map fun e => e.1.op e.2)).filter (fun o => o.uuid = some e.1) = l' at hf
    generalize e.2 = l at hf hm
    clear he
    induction hf with
    | nil => cases hm
    | cons h1 _ ih =>
      rcases List.mem_cons.1 hm with rfl | hm
      · exact ⟨_, by simp, h1⟩
      · obtain ⟨o, h2, h3⟩ := ih hm
        exact ⟨o, by simp [h2], h3⟩
  refine ⟨by rw [hfst]; exact hn, back, ?_, ?_, ?_⟩
  · intro u hu
    have : String.ofList u ∈ rep.map Prod.fst := by
      rw [hfst, hr, objects_regs]; exact hu
    obtain ⟨e, he, e1⟩ := List.mem_map.1 this
    exact ⟨e.2, by rw [← e1]; exact he⟩
  · intro e he ns c hm
    obtain ⟨o, hom, hl⟩ := line e he ns c hm
    obtain ⟨u, c', ns', h1, _, _⟩ := objects_mem.1 hom
    rw [uuidLine, h1] at hl
    simp only at hl
    split at hl
    · rename_i hs; cases hl; exact hs
    · cases hl
  · intro e he ns c
    constructor
    · intro hm
      obtain ⟨o, hom, hl⟩ := line e he ns c hm
      obtain ⟨u, c', ns', h1, h2, h3⟩ := objects_mem.1 hom
      rw [uuidLine, h1] at hl
      simp only at hl
      split at hl
      · cases hl
        exact ⟨u, h3, List.mem_of_getElem? h1⟩
      · cases hl
    · rintro ⟨u, h1, h2⟩
      obtain ⟨i, hi⟩ := List.mem_iff_getElem?.1 h2
      have hom : (⟨i, some e.1⟩ : UObj) ∈ (objectsOf (cs.zipIdx.map fun e => e.1.op e.2)).filter (fun o => o.uuid = some e.1) :=
        objects_mem.2 ⟨u, c, ns, hi, rfl, h1⟩
      have hf := lines e he
      generalize (objectsOf (cs.zipIdx.map fun e => e.1.op e.2)).filter (fun o => o.uuid = some e.1) = l' at hf hom
      generalize e.2 = l at hf
      clear he
      induction hf with
      | nil => cases hom
      | @cons a b l r h3 _ ih =>
        rcases List.mem_cons.1 hom with rfl | hom
        · rw [uuidLine, hi] at h3
          simp only at h3
          split at h3
          · cases h3; simp
          · cases h3
        · exact List.mem_cons_of_mem _ (ih hom)

theorem mapM_none {α β : Type} {f : α → Option β} {l : List α} (h : l.mapM f = none) : ∃ a ∈ l, f a = none := by
  induction l with
  | nil => simp at h
  | cons a l ih =>
    cases ha : f a with
    | none => exact ⟨a, by simp, ha⟩
    | some b =>
      cases hl : l.mapM f with
      | none =>
        obtain ⟨c, h1, h2⟩ := ih hl
        exact ⟨c, by simp [h1], h2⟩
      | some r => simp [List.mapM_cons, ha, hl] at h

/-- when there is no report -/
theorem report_none {cs : List DocCall} (h : uuidReport cs = none) :
    ∃ u c ns, 2 ≤ regs u cs ∧ DocCall.object u c ns ∈ cs ∧ armodel.sub c k!"Referrable" = false := by
  simp only [uuidReport, registryOf] at h
  obtain ⟨s, hs, h⟩ := mapM_none h
  rw [Option.map_eq_none_iff] at h
  obtain ⟨o, ho, hl⟩ := mapM_none h
  rw [C14_objects, calls_since] at ho
  obtain ⟨u, c, ns, h1, h2, rfl⟩ := objects_mem.1 ho
  have h3 := ((C14_cli_report (cs.zipIdx.map fun e => e.1.op e.2)).2 _).1 hs
  rw [calls_since, objects_regs] at h3
  refine ⟨u, c, ns, h3, List.mem_of_getElem? h1, ?_⟩
  rw [uuidLine, h1] at hl
  simp only at hl
  split at hl
  · cases hl
  · rename_i hc; simpa using hc

theorem no_uuid_in {u : Str} {x : Xml} (h : ∀ p y, elemAt p x = some y → y.attr k!"UUID" ≠ some u) : uuids u x = 0 := by
  by_cases h0 : 1 ≤ uuids u x
  · obtain ⟨p, y, hp, hy⟩ := uuids_pos (Nat.le_refl _) h0
    exact absurd hy (h p y hp)
  · omega

/-- **C60** What `uuid-checker` reports, in terms of the files.
* A UUID is reported once.
* Two packages, or elements of packages, with the same UUID, at two places in the files, are reported, both by their names.
* What is reported occurs at two places in the files — unless it is on or in an element that the reader reads twice
  (`C60_twice_broken`).
(Missing: UUIDs deeper in an element, and on one kind of element, `C60_unread_broken`.) -/
theorem C60_report_partial (py : Py) (nc : NameChars) (sc : RKind → Xml → Bool) (fs : Fs) (warning : Bool) (input : Str)
    (rep : List (String × List (List Str × Key))) (h : uuidCheck py nc sc fs warning input = some rep) :
    ∃ names xs, cliParse py fs [] [input] = .ok names ∧ List.Forall₂ (fun f x => (fs.text f).bind (parseFile nc) = some x) names xs ∧
      (rep.map Prod.fst).Nodup ∧
      (∀ u a b ns ms, a ≠ b → HeldAt xs u a ns → HeldAt xs u b ms →
        ∃ l, (String.ofList u, l) ∈ rep ∧ (∃ c, (ns, c) ∈ l) ∧ ∃ c, (ms, c) ∈ l) ∧
      ∀ s l, (s, l) ∈ rep → ∃ u, s = String.ofList u ∧
        ((∀ x ∈ xs, ∀ p y, elemAt p x = some y → y.tag ∈ readTwice → ∀ q z, elemAt q y = some z → z.attr k!"UUID" ≠ some u) →
          ∃ a b, a ≠ b ∧ Carries xs u a ∧ Carries xs u b) := by
  unfold uuidCheck at h
  split at h
  · cases h
  rename_i names hn
  split at h
  · cases h
  rename_i xs hxs
  split at h
  · cases h
  obtain ⟨h1, h2, h3, _, h4⟩ := report_calls h
  refine ⟨names, xs, hn, mapM_some hxs, h1, ?_, ?_⟩
  · intro u a b ns ms hab ha hb
    obtain ⟨l, hl⟩ := h3 u (files_two (sc := sc) hab ha hb)
    obtain ⟨c, hc⟩ := files_note (sc := sc) ha
    obtain ⟨c', hc'⟩ := files_note (sc := sc) hb
    exact ⟨l, hl, ⟨c, (h4 _ hl ns c).2 ⟨u, rfl, hc⟩⟩, c', (h4 _ hl ms c').2 ⟨u, rfl, hc'⟩⟩
  · intro s l hl
    obtain ⟨u, hu, h5⟩ := h2 _ hl
    refine ⟨u, hu, fun hx => places_two (Nat.le_trans h5 (files_le fun x hm p y hp hy => ?_))⟩
    exact no_uuid_in fun q z hq => hx x hm p y hp hy q z hq

/-- **C60** In terms of the document that is loaded: two objects in it, anywhere, with the same UUID are reported. -/
theorem C60_document (py : Py) (nc : NameChars) (sc : RKind → Xml → Bool) (fs : Fs) (warning : Bool) (input : Str)
    (rep : List (String × List (List Str × Key))) (h : uuidCheck py nc sc fs warning input = some rep) :
    ∃ names xs d, cliParse py fs [] [input] = .ok names ∧ List.Forall₂ (fun f x => (fs.text f).bind (parseFile nc) = some x) names xs ∧
      loadAll py (!warning) (newDoc py) xs = .ok d ∧ ∀ u, 2 ≤ uuidsOf u d → ∃ l, (String.ofList u, l) ∈ rep := by
  unfold uuidCheck at h
  split at h
  · cases h
  rename_i names hn
  split at h
  · cases h
  rename_i xs hxs
  split at h
  · cases h
  rename_i d hd
  obtain ⟨_, _, h3, _, _⟩ := report_calls h
  refine ⟨names, xs, d, hn, mapM_some hxs, hd, fun u hu => h3 u ?_⟩
  have h4 := doc_adds (sc := sc) (u := u) hd
  have h5 : uuidsOf u (newDoc py) = 0 := uuidsOf_blank
  omega

/-- **C60 fails** for packages: if a package has the UUID of another package or of an element of a package, the tool raises
`NotImplementedError` and there is no report, since `ARPackage` is no `Referrable`. -/
theorem C60_package_broken (py : Py) (nc : NameChars) (sc : RKind → Xml → Bool) (fs : Fs) (warning : Bool) (input : Str)
    (names : List Str) (xs : List Xml) (hn : cliParse py fs [] [input] = .ok names) (hx : names.mapM (fun f => (fs.text f).bind (parseFile nc)) = some xs)
    (u : Str) (a b : Place) (ns ms : List Str) (hab : a ≠ b) (hb : HeldAt xs u b ms) (x y : Xml) (h1 : xs[a.1]? = some x) (h2 : Held x a.2 ns y)
    (h3 : y.attr k!"UUID" = some u) (h4 : y.tag = k!"AR-PACKAGE") : uuidCheck py nc sc fs warning input = none := by
  cases h : uuidCheck py nc sc fs warning input with
  | none => rfl
  | some rep =>
    exfalso
    unfold uuidCheck at h
    rw [hn] at h
    simp only [hx] at h
    split at h
    · cases h
    obtain ⟨_, _, g1, g2, g3⟩ := report_calls h
    obtain ⟨l, hl⟩ := g1 u (files_two (sc := sc) hab ⟨x, y, h1, h2, h3⟩ hb)
    have hm : DocCall.object u k!"ARPackage" ns ∈ filesCalls sc xs := object_keep.2 (List.mem_flatMap.2 ⟨x, List.mem_of_getElem? h1, doc_pkg h2 h4 h3⟩)
    have := g2 _ hl ns _ ((g3 _ hl ns _).2 ⟨u, rfl, hm⟩)
    have hf : armodel.sub k!"ARPackage" k!"Referrable" = false := by decide +kernel
    rw [hf] at this
    cases this

/-- There is a report if the files load and nothing is registered twice under the same UUID but objects with names. -/
theorem C60_reports (py : Py) (nc : NameChars) (sc : RKind → Xml → Bool) (fs : Fs) (warning : Bool) (input : Str)
    (names : List Str) (xs : List Xml) (d : MObj py.F) (hn : cliParse py fs [] [input] = .ok names)
    (hx : names.mapM (fun f => (fs.text f).bind (parseFile nc)) = some xs) (hd : loadAll py (!warning) (newDoc py) xs = .ok d)
    (h : ∀ u c ns, DocCall.object u c ns ∈ filesCalls sc xs → armodel.sub c k!"Referrable" = false → regs u (filesCalls sc xs) ≤ 1) :
    ∃ rep, uuidCheck py nc sc fs warning input = some rep := by
  unfold uuidCheck
  rw [hn]
  simp only [hx, hd]
  cases hu : uuidReport (filesCalls sc xs) with
  | some rep => exact ⟨rep, rfl⟩
  | none =>
    obtain ⟨u, c, ns, g1, g2, g3⟩ := report_none hu
    have := h u c ns g2 g3
    omega

/-! ### Cases -/

/-- a directory with two files: a component and a signal with the same UUID; a package with the UUID of a package in it -/
def uuidDir : Fs where
  isDir _ := false
  walk _ := []
  text f :=
    if f = "l.txt".toList then some "a.arxml\nb.arxml".toList
    else if f = "a.arxml".toList then some t!"<?xml version='1.0'?>\n<AUTOSAR xmlns=\"http://autosar.org/schema/r4.0\"><AR-PACKAGES><AR-PACKAGE UUID=\"2\"><SHORT-NAME>P</SHORT-NAME><ELEMENTS>
<APPLICATION-SW-COMPONENT-TYPE UUID=\"1\"><SHORT-NAME>b</SHORT-NAME></APPLICATION-SW-COMPONENT-TYPE><SYSTEM-SIGNAL UUID=\"1\"><SHORT-NAME>s</SHORT-NAME></SYSTEM-SIGNAL>
</ELEMENTS></AR-PACKAGE></AR-PACKAGES></AUTOSAR>\n"
    else if f = "b.arxml".toList then some t!"<?xml version='1.0'?>\n<AUTOSAR xmlns=\"http://autosar.org/schema/r4.0\"><AR-PACKAGES><AR-PACKAGE UUID=\"1\"><SHORT-NAME>P</SHORT-NAME><AR-PACKAGES><AR-PACKAGE UUID=\"1\"><SHORT-NAME>Q</SHORT-NAME></AR-PACKAGE></AR-PACKAGES></AR-PACKAGE></AR-PACKAGES></AUTOSAR>\n"
    else none

/-- the tool reports something -/
example : (match uuidCheck Py.demo .ascii (fun _ _ => true) uuidDir false "a.arxml".toList with
    | some [(u, l)] => u == "1" && l == [(["P".toList, "b".toList], k!"ApplicationSwComponentType"), (["P".toList, "s".toList], k!"SystemSignal")]
    | _ => false) = true ∧
  (uuidCheck Py.demo .ascii (fun _ _ => true) uuidDir false "b.arxml".toList).isNone = true := by decide +kernel

/-- two data elements of an interface with the same UUID -/
def deepFile : Xml := .node k!"AUTOSAR" [] [] [.node k!"AR-PACKAGES" [] [] [.node k!"AR-PACKAGE" [] []
  [.node k!"SHORT-NAME" [] "P".toList [], .node k!"ELEMENTS" [] [] [.node k!"SENDER-RECEIVER-INTERFACE" [] []
    [.node k!"SHORT-NAME" [] "i".toList [], .node k!"DATA-ELEMENTS" [] []
      [.node k!"VARIABLE-DATA-PROTOTYPE" [(k!"UUID", "1".toList)] [] [.node k!"SHORT-NAME" [] "a".toList []],
       .node k!"VARIABLE-DATA-PROTOTYPE" [(k!"UUID", "1".toList)] [] [.node k!"SHORT-NAME" [] "b".toList []]]]]]]]

/-- they are two objects in the document, and in the report -/
example : (match loadAll Py.demo true (newDoc Py.demo) [deepFile] with | .ok d => uuidsOf "1".toList d == 2 | _ => false) = true ∧
  (uuidReport (filesCalls (fun _ _ => true) [deepFile])).map (List.map Prod.fst) = some ["1"] := by decide +kernel

/-- an element, twice, with the same UUID -/
def uriSet (n : String) : Xml := .node k!"ECUC-DESTINATION-URI-DEF-SET" [(k!"UUID", "1".toList)] [] [.node k!"SHORT-NAME" [] n.toList []]
def uriFile : Xml := .node k!"AUTOSAR" [] [] [.node k!"AR-PACKAGES" [] [] [.node k!"AR-PACKAGE" [] []
  [.node k!"SHORT-NAME" [] "P".toList [], .node k!"ELEMENTS" [] [] [uriSet "a", uriSet "b"]]]]

/-- **C60 fails** for a kind of element whose attributes the reader does not read: the same UUID twice is not reported, even if every
accessor registers what it makes. -/
theorem C60_unread_broken : ∃ x : Xml, (∃ d, load Py.demo true x = .ok d) ∧
    (∃ a b, a ≠ b ∧ Carries [x] "1".toList a ∧ Carries [x] "1".toList b) ∧
    (uuidReport (filesCalls (fun _ _ => true) [x])).map List.length = some 0 := by
  refine ⟨uriFile, ?_, ⟨(0, [0, 0, 1, 0]), (0, [0, 0, 1, 1]), by decide, ⟨uriFile, uriSet "a", rfl, rfl, rfl⟩, ⟨uriFile, uriSet "b", rfl, rfl, rfl⟩⟩, ?_⟩
  · have h : (load Py.demo true uriFile).isOk = true := by decide +kernel
    cases e : load Py.demo true uriFile with
    | error => rw [e] at h; cases h
    | ok d => exact ⟨d, rfl⟩
  · decide +kernel

/-- a port of a component whose communication specification has a UUID -/
def specFile : Xml := .node k!"AUTOSAR" [] [] [.node k!"AR-PACKAGES" [] [] [.node k!"AR-PACKAGE" [] []
  [.node k!"SHORT-NAME" [] "P".toList [], .node k!"ELEMENTS" [] [] [.node k!"APPLICATION-SW-COMPONENT-TYPE" [] [] [.node k!"SHORT-NAME" [] "c".toList [],
    .node k!"PORTS" [] [] [.node k!"R-PORT-PROTOTYPE" [] [] [.node k!"SHORT-NAME" [] "r".toList [],
      .node k!"REQUIRED-COM-SPECS" [] [] [.node k!"QUEUED-RECEIVER-COM-SPEC" [(k!"UUID", "1".toList)] [] []]]]]]]]]

/-- **C60 fails** for elements whose attributes are read twice: the object is registered twice, so its UUID counts as a duplicate; as it
has no name, the tool raises `NotImplementedError` and there is no report. -/
theorem C60_twice_broken : ∃ x : Xml, (∃ d, load Py.demo true x = .ok d) ∧ (∀ a b, Carries [x] "1".toList a → Carries [x] "1".toList b → a = b) ∧
    UUIDMgr.cliReport (registryOf (filesCalls (fun _ _ => false) [x])).uuid_mgr = ["1"] ∧ (uuidReport (filesCalls (fun _ _ => false) [x])).isNone = true := by
  refine ⟨specFile, ?_, ?_, ?_, ?_⟩
  · have h : (load Py.demo true specFile).isOk = true := by decide +kernel
    cases e : load Py.demo true specFile with
    | error => rw [e] at h; cases h
    | ok d => exact ⟨d, rfl⟩
  · intro a b ha hb
    by_cases hab : a = b
    · exact hab
    · have h1 := places_only hab ha hb
      have h2 : sumOf (uuids "1".toList) [specFile] = 1 := by decide +kernel
      omega
  · decide +kernel
  · decide +kernel

end Verif.Props
