import Verif.Spec.DumpTool
import Verif.Model.DumpTool
import Verif.Lemmas.ListTool
import Verif.Lemmas.Fuel
/-!
# C69: `arxml-dump`
-/
namespace Verif.Props
open Verif Verif.Model Verif.Spec Verif.Lemmas

variable {F : Type}

theorem andThen_ok {a b : Printed} : (a.andThen b).err = none ↔ a.err = none ∧ b.err = none := by
  unfold Printed.andThen
  split
  · rename_i e he; simp [he]
  · rename_i he; simp [he]

theorem andThen_lines {a b : Printed} (h : a.err = none) : (a.andThen b).lines = a.lines ++ b.lines := by
  unfold Printed.andThen
  rw [h]

theorem all_ok {l : List Printed} : (Printed.all l).err = none ↔ ∀ a ∈ l, a.err = none := by
  induction l with
  | nil => simp [Printed.all]
  | cons a l ih => rw [Printed.all, andThen_ok, ih]; simp

theorem all_lines {l : List Printed} (h : (Printed.all l).err = none) (x : Str) : x ∈ (Printed.all l).lines ↔ ∃ a ∈ l, x ∈ a.lines := by
  induction l with
  | nil => simp [Printed.all]
  | cons a l ih =>
    rw [Printed.all, andThen_ok] at h
    rw [Printed.all, andThen_lines h.1, List.mem_append, ih h.2]
    simp

theorem raised_err (e : PyErr) : (raised e).err ≠ none := by simp [raised]

theorem interface_ok {n : Nat} {o : MObj F} : (showInterface n o).err = none ↔ o.get k!"operations" = [] := by
  unfold showInterface
  rw [andThen_ok, all_ok]
  constructor
  · rintro ⟨_, h⟩
    cases hl : o.get k!"operations" with
    | nil => rfl
    | cons op l =>
      have := h _ (List.mem_map_of_mem (hl ▸ List.mem_cons_self))
      exact absurd (andThen_ok.1 this).2 (raised_err _)
  · intro h
    rw [h]
    exact ⟨rfl, by simp⟩

theorem timing_fails (d : MObj F) (n : Nat) (e : MObj F) : (showTiming d n e).err ≠ none := by
  unfold showTiming
  rw [ne_eq, andThen_ok]
  rintro ⟨_, h⟩
  split at h
  · exact raised_err _ h
  have h := (andThen_ok.1 h).2
  split at h
  · exact raised_err _ h
  have h := (andThen_ok.1 h).2
  split at h
  · exact raised_err _ h
  have h := (andThen_ok.1 h).2
  split at h
  · exact raised_err _ h
  exact raised_err _ (andThen_ok.1 h).2

theorem behavior_ok {d : MObj F} {n : Nat} {b : MObj F} : (showBehavior d n b).err = none ↔ ∀ e, ¬ ElementOf b k!"BswTimingEvent" e := by
  unfold showBehavior
  rw [andThen_ok, andThen_ok, all_ok, all_ok]
  constructor
  · rintro ⟨_, _, h⟩ e ⟨he, hc⟩
    exact timing_fails d n e (h _ (List.mem_map_of_mem (List.mem_filter.2 ⟨he, hc⟩)))
  · intro h
    refine ⟨rfl, ?_, ?_⟩
    · intro a ha
      obtain ⟨e, _, rfl⟩ := List.mem_map.1 ha
      rfl
    · intro a ha
      obtain ⟨e, he, rfl⟩ := List.mem_map.1 ha
      exact absurd (List.mem_filter.1 he) (h e)

theorem module_ok {d : MObj F} {n : Nat} {m : MObj F} :
    (showModule d n m).err = none ↔ ∀ b e, b ∈ m.get k!"internalBehaviors" → ¬ ElementOf b k!"BswTimingEvent" e := by
  unfold showModule
  rw [andThen_ok, all_ok]
  constructor
  · rintro ⟨_, h⟩ b e hb
    exact behavior_ok.1 (h _ (List.mem_map_of_mem hb)) e
  · intro h
    refine ⟨rfl, fun a ha => ?_⟩
    obtain ⟨b, hb, rfl⟩ := List.mem_map.1 ha
    exact behavior_ok.2 fun e => h b e hb

/-- a package of a package, itself included -/
inductive Below : MObj F → Nat → MObj F → Prop
  | self {p} : Below p 0 p
  | sub {p n q r} : q ∈ p.get k!"arPackages" → Below q n r → Below p (n + 1) r

/-- nothing in this package makes the tool stop -/
def PkgQuiet (p : MObj F) : Prop := (∀ i, ElementOf p k!"ClientServerInterface" i → i.get k!"operations" = []) ∧
  (∀ m b e, ElementOf p k!"BswModuleDescription" m → b ∈ m.get k!"internalBehaviors" → ¬ ElementOf b k!"BswTimingEvent" e)

theorem package_ok {d : MObj F} {n : Nat} : ∀ {i : Nat} {p : MObj F}, p.depth ≤ n →
    ((showPackage d n i p).err = none ↔ ∀ m q, Below p m q → PkgQuiet q) := by
  induction n with
  | zero => intro i p h; exact absurd h (by have := mdepth_pos p; omega)
  | succ n ih =>
    intro i p hn
    have hsub : (∀ a ∈ (byName (p.get k!"arPackages")).map (showPackage d n (i + 2)), a.err = none) ↔
        ∀ q ∈ p.get k!"arPackages", ∀ m r, Below q m r → PkgQuiet r := by
      constructor
      · intro h q hq
        exact (ih (by have := depth_get hq; omega)).1 (h _ (List.mem_map_of_mem (mem_byName.2 hq)))
      · intro h a ha
        obtain ⟨q, hq, rfl⟩ := List.mem_map.1 ha
        have hq := mem_byName.1 hq
        exact (ih (by have := depth_get hq; omega)).2 (h q hq)
    rw [showPackage, andThen_ok, andThen_ok, andThen_ok, andThen_ok, all_ok, all_ok, all_ok, hsub]
    constructor
    · rintro ⟨_, h1, h2, _, h3⟩ m q hb
      cases hb with
      | self =>
        refine ⟨fun i hi => ?_, fun m b e hm hb => ?_⟩
        · exact interface_ok.1 (h2 _ (List.mem_map_of_mem (ofClass_mem.2 hi)))
        · exact module_ok.1 (h3 _ (List.mem_map_of_mem (ofClass_mem.2 hm))) b e hb
      | sub hq hb => exact h1 _ hq _ _ hb
    · intro h
      have hself := h 0 p .self
      refine ⟨rfl, fun q hq m r hb => h _ _ (.sub hq hb), fun a ha => ?_, fun q hq m r hb => h _ _ (.sub hq hb), fun a ha => ?_⟩
      · obtain ⟨j, hj, rfl⟩ := List.mem_map.1 ha
        exact interface_ok.2 (hself.1 j (ofClass_mem.1 hj))
      · obtain ⟨j, hj, rfl⟩ := List.mem_map.1 ha
        exact module_ok.2 fun b e => hself.2 j b e (ofClass_mem.1 hj)

theorem below_snoc {p q r : MObj F} {n : Nat} (h : Below p n q) (hr : r ∈ q.get k!"arPackages") : Below p (n + 1) r := by
  induction h with
  | self => exact .sub hr .self
  | sub hq _ ih => exact .sub hq (ih hr)

theorem pkgAt_iff {d q : MObj F} {n : Nat} : PkgAt d n q ↔ ∃ p ∈ d.get k!"arPackages", Below p n q := by
  constructor
  · intro h
    induction h with
    | top hp => exact ⟨_, hp, .self⟩
    | sub _ hq ih => obtain ⟨p, hp, hb⟩ := ih; exact ⟨p, hp, below_snoc hb hq⟩
  · rintro ⟨p, hp, hb⟩
    have key : ∀ {p q : MObj F} {n m : Nat}, Below p n q → PkgAt d m p → PkgAt d (m + n) q := by
      intro p q n m hb
      induction hb generalizing m with
      | self => exact id
      | @sub p n q r hq hb ih =>
        intro hp
        have := ih (m := m + 1) (.sub hp hq)
        rw [Nat.add_right_comm] at this
        exact this
    have := key hb (.top hp)
    rw [Nat.zero_add] at this
    exact this

/-- **C69** `arxml-dump` comes to its end exactly if no client-server interface has an operation and no BSW behavior has a timing event. -/
theorem C69_finishes (d : MObj F) : (showDoc d).err = none ↔ NothingInside d := by
  unfold showDoc
  rw [all_ok]
  constructor
  · intro h n q hq
    obtain ⟨p, hp, hb⟩ := pkgAt_iff.1 hq
    exact (package_ok (by have := depth_get hp; omega)).1 (h _ (List.mem_map_of_mem (mem_byName.2 hp))) n q hb
  · intro h a ha
    obtain ⟨p, hp, rfl⟩ := List.mem_map.1 ha
    have hp := mem_byName.1 hp
    exact (package_ok (by have := depth_get hp; omega)).2 fun m q hb => h m q (pkgAt_iff.2 ⟨p, hp, hb⟩)

/-- the lines of one package, without those of other packages -/
inductive OwnLine (i : Nat) (p : MObj F) : Str → Prop
  | package : OwnLine i p (indented i ("-".toList ++ p.name ++ " (Pkg)".toList))
  | interface {j} : ElementOf p k!"ClientServerInterface" j → OwnLine i p (indented (i + 2) j.name)
  | bsw {m} : ElementOf p k!"BswModuleDescription" m → OwnLine i p (indented (i + 2) ("-".toList ++ m.name))
  | behavior {m b} : ElementOf p k!"BswModuleDescription" m → b ∈ m.get k!"internalBehaviors" → OwnLine i p (indented (i + 4) ("-".toList ++ b.name))
  | modeSwitch {m b e} : ElementOf p k!"BswModuleDescription" m → b ∈ m.get k!"internalBehaviors" → ElementOf b k!"BswModeSwitchEvent" e →
      OwnLine i p (indented (i + 6) ("-".toList ++ e.name))

theorem spaced_mem {n : Nat} {s x : Str} : x ∈ (spaced n s).lines ↔ x = indented n s := by simp [spaced, indented]

theorem interface_lines {n : Nat} {o : MObj F} (h : (showInterface n o).err = none) (x : Str) : x ∈ (showInterface n o).lines ↔ x = indented n o.name := by
  have ho := interface_ok.1 h
  unfold showInterface
  rw [andThen_lines rfl, List.mem_append, spaced_mem, ho]
  simp [Printed.all]

theorem behavior_lines {d : MObj F} {n : Nat} {b : MObj F} (h : (showBehavior d n b).err = none) (x : Str) : x ∈ (showBehavior d n b).lines ↔
    x = indented n ('-' :: b.name) ∨ ∃ e, ElementOf b k!"BswModeSwitchEvent" e ∧ x = indented (n + 2) ('-' :: e.name) := by
  have hb := behavior_ok.1 h
  have hnil : (b.get k!"elements").filter (MObj.inst [k!"BswTimingEvent"]) = [] :=
    List.filter_eq_nil_iff.2 fun e he hc => hb e ⟨he, hc⟩
  have hok : (Printed.all (((b.get k!"elements").filter (MObj.inst [k!"BswModeSwitchEvent"])).map fun e => spaced (n + 2) ('-' :: e.name))).err = none :=
    all_ok.2 fun a ha => by obtain ⟨e, _, rfl⟩ := List.mem_map.1 ha; rfl
  unfold showBehavior
  rw [andThen_lines rfl, List.mem_append, spaced_mem, andThen_lines hok, List.mem_append, all_lines hok, hnil]
  simp only [List.map_nil, Printed.all, List.not_mem_nil, or_false]
  refine or_congr Iff.rfl ⟨?_, ?_⟩
  · rintro ⟨a, ha, hx⟩
    obtain ⟨e, he, rfl⟩ := List.mem_map.1 ha
    exact ⟨e, List.mem_filter.1 he, spaced_mem.1 hx⟩
  · rintro ⟨e, he, rfl⟩
    exact ⟨_, List.mem_map_of_mem (List.mem_filter.2 he), spaced_mem.2 rfl⟩

theorem module_lines {d : MObj F} {n : Nat} {m : MObj F} (h : (showModule d n m).err = none) (x : Str) : x ∈ (showModule d n m).lines ↔
    x = indented n ('-' :: m.name) ∨ ∃ b ∈ m.get k!"internalBehaviors", x = indented (n + 2) ('-' :: b.name) ∨
      ∃ e, ElementOf b k!"BswModeSwitchEvent" e ∧ x = indented (n + 4) ('-' :: e.name) := by
  unfold showModule at h ⊢
  have hall := (andThen_ok.1 h).2
  rw [andThen_lines rfl, List.mem_append, spaced_mem, all_lines hall]
  refine or_congr Iff.rfl ⟨?_, ?_⟩
  · rintro ⟨a, ha, hx⟩
    have hok := all_ok.1 hall a ha
    obtain ⟨b, hb, rfl⟩ := List.mem_map.1 ha
    exact ⟨b, hb, (behavior_lines hok x).1 hx⟩
  · rintro ⟨b, hb, hx⟩
    have hm := List.mem_map_of_mem (f := showBehavior d (n + 2)) hb
    exact ⟨_, hm, (behavior_lines (all_ok.1 hall _ hm) x).2 hx⟩

theorem package_lines {d : MObj F} {n : Nat} : ∀ {i : Nat} {p : MObj F}, p.depth ≤ n → (showPackage d n i p).err = none →
    ∀ x, x ∈ (showPackage d n i p).lines ↔ ∃ m q, Below p m q ∧ OwnLine (i + 2 * m) q x := by
  induction n with
  | zero => intro i p h; exact absurd h (by have := mdepth_pos p; omega)
  | succ n ih =>
    intro i p hn h x
    rw [showPackage] at h ⊢
    obtain ⟨_, h⟩ := andThen_ok.1 h
    obtain ⟨h1, h⟩ := andThen_ok.1 h
    obtain ⟨h2, h⟩ := andThen_ok.1 h
    obtain ⟨_, h3⟩ := andThen_ok.1 h
    have hsub : x ∈ (Printed.all ((byName (p.get k!"arPackages")).map (showPackage d n (i + 2)))).lines ↔
        ∃ m q, (∃ q' ∈ p.get k!"arPackages", Below q' m q) ∧ OwnLine (i + 2 * (m + 1)) q x := by
      rw [all_lines h1]
      constructor
      · rintro ⟨a, ha, hx⟩
        have hok := all_ok.1 h1 a ha
        obtain ⟨q', hq', rfl⟩ := List.mem_map.1 ha
        have hq := mem_byName.1 hq'
        obtain ⟨m, q, hb, ho⟩ := (ih (by have := depth_get hq; omega) hok x).1 hx
        exact ⟨m, q, ⟨q', hq, hb⟩, by rw [show i + 2 * (m + 1) = i + 2 + 2 * m by omega]; exact ho⟩
      · rintro ⟨m, q, ⟨q', hq, hb⟩, ho⟩
        have hm := List.mem_map_of_mem (f := showPackage d n (i + 2)) (mem_byName.2 hq)
        refine ⟨_, hm, (ih (by have := depth_get hq; omega) (all_ok.1 h1 _ hm) x).2 ⟨m, q, hb, ?_⟩⟩
        rw [show i + 2 + 2 * m = i + 2 * (m + 1) by omega]
        exact ho
    rw [andThen_lines rfl, List.mem_append, spaced_mem, andThen_lines h1, List.mem_append, hsub, andThen_lines h2, List.mem_append,
      andThen_lines h1, List.mem_append, hsub, all_lines h2, all_lines h3]
    constructor
    · rintro (hx | hx | hx | hx | hx)
      · exact ⟨0, p, .self, hx ▸ .package⟩
      · obtain ⟨m, q, ⟨q', hq, hb⟩, ho⟩ := hx
        exact ⟨m + 1, q, .sub hq hb, ho⟩
      · obtain ⟨a, ha, hx⟩ := hx
        have hok := all_ok.1 h2 a ha
        obtain ⟨j, hj, rfl⟩ := List.mem_map.1 ha
        rw [interface_lines hok] at hx
        exact ⟨0, p, .self, hx ▸ .interface (ofClass_mem.1 hj)⟩
      · obtain ⟨m, q, ⟨q', hq, hb⟩, ho⟩ := hx
        exact ⟨m + 1, q, .sub hq hb, ho⟩
      · obtain ⟨a, ha, hx⟩ := hx
        have hok := all_ok.1 h3 a ha
        obtain ⟨m, hm, rfl⟩ := List.mem_map.1 ha
        have hm := ofClass_mem.1 hm
        rcases (module_lines hok x).1 hx with rfl | ⟨b, hb, rfl | ⟨e, he, rfl⟩⟩
        · exact ⟨0, p, .self, .bsw hm⟩
        · exact ⟨0, p, .self, .behavior hm hb⟩
        · exact ⟨0, p, .self, .modeSwitch hm hb he⟩
    · rintro ⟨m, q, hb, ho⟩
      cases hb with
      | @sub _ m q' _ hq hb => exact .inr (.inl ⟨m, q, ⟨q', hq, hb⟩, ho⟩)
      | self =>
        cases ho with
        | package => exact .inl rfl
        | @interface j hj =>
          have hm := List.mem_map_of_mem (f := showInterface (i + 2)) (ofClass_mem (sorted := true).2 hj)
          exact .inr (.inr (.inl ⟨_, hm, (interface_lines (all_ok.1 h2 _ hm) _).2 rfl⟩))
        | @bsw j hj =>
          have hm := List.mem_map_of_mem (f := showModule d (i + 2)) (ofClass_mem (sorted := false).2 hj)
          exact .inr (.inr (.inr (.inr ⟨_, hm, (module_lines (all_ok.1 h3 _ hm) _).2 (.inl rfl)⟩)))
        | @behavior j b hj hb =>
          have hm := List.mem_map_of_mem (f := showModule d (i + 2)) (ofClass_mem (sorted := false).2 hj)
          exact .inr (.inr (.inr (.inr ⟨_, hm, (module_lines (all_ok.1 h3 _ hm) _).2 (.inr ⟨b, hb, .inl rfl⟩)⟩)))
        | @modeSwitch j b e hj hb he =>
          have hm := List.mem_map_of_mem (f := showModule d (i + 2)) (ofClass_mem (sorted := false).2 hj)
          exact .inr (.inr (.inr (.inr ⟨_, hm, (module_lines (all_ok.1 h3 _ hm) _).2 (.inr ⟨b, hb, .inr ⟨e, he, rfl⟩⟩)⟩)))

theorem ownLine_dump {d : MObj F} {x : Str} : DumpLine d x ↔ ∃ n q, PkgAt d n q ∧ OwnLine (2 * n) q x := by
  constructor
  · intro h
    cases h with
    | package h => exact ⟨_, _, h, .package⟩
    | interface h h1 => exact ⟨_, _, h, .interface h1⟩
    | bsw h h1 => exact ⟨_, _, h, .bsw h1⟩
    | behavior h h1 h2 => exact ⟨_, _, h, .behavior h1 h2⟩
    | modeSwitch h h1 h2 h3 => exact ⟨_, _, h, .modeSwitch h1 h2 h3⟩
  · rintro ⟨n, q, h, ho⟩
    cases ho with
    | package => exact .package h
    | interface h1 => exact .interface h h1
    | bsw h1 => exact .bsw h h1
    | behavior h1 h2 => exact .behavior h h1 h2
    | modeSwitch h1 h2 h3 => exact .modeSwitch h h1 h2 h3

/-- **C69 (partial)** If it comes to its end, it has printed exactly the lines it is made for.  Missing: the documents of which it only prints a part
(`C69_operation_broken`, `C69_timing_broken`). -/
theorem C69_lines_partial (d : MObj F) (h : NothingInside d) (x : Str) : x ∈ (showDoc d).lines ↔ DumpLine d x := by
  have hok := (C69_finishes d).2 h
  rw [ownLine_dump]
  unfold showDoc at hok ⊢
  rw [all_lines hok]
  constructor
  · rintro ⟨a, ha, hx⟩
    have hok' := all_ok.1 hok a ha
    obtain ⟨p, hp, rfl⟩ := List.mem_map.1 ha
    have hp := mem_byName.1 hp
    obtain ⟨m, q, hb, ho⟩ := (package_lines (by have := depth_get hp; omega) hok' x).1 hx
    rw [Nat.zero_add] at ho
    exact ⟨m, q, pkgAt_iff.2 ⟨p, hp, hb⟩, ho⟩
  · rintro ⟨m, q, hq, ho⟩
    obtain ⟨p, hp, hb⟩ := pkgAt_iff.1 hq
    have hm := List.mem_map_of_mem (f := showPackage d d.depth 0) (mem_byName.2 hp)
    exact ⟨_, hm, (package_lines (by have := depth_get hp; omega) (all_ok.1 hok _ hm) x).2 ⟨m, q, hb, by rw [Nat.zero_add]; exact ho⟩⟩

/-- **C69 (partial)** The same for files: what the tool prints for files that can be loaded. -/
theorem C69_files_partial (py : Py) (nc : NameChars) (fs : Fs) (files : List Str) (xs : List Xml) (d : MObj py.F)
    (hx : files.mapM (fun f => (fs.text f).bind (parseFile nc)) = some xs) (hl : loadAll py true (newDoc py) xs = .ok d) :
    ∃ r, arxmlDump py nc fs files = some r ∧ (r.err = none ↔ NothingInside d) ∧ (r.err = none → ∀ x, x ∈ r.lines ↔ DumpLine d x) := by
  refine ⟨showDoc d, ?_, C69_finishes d, fun h => C69_lines_partial d ((C69_finishes d).1 h)⟩
  unfold arxmlDump
  rw [hx]
  simp only [hl]

/-- a package in a package with an interface and a module -/
def shownFile : Str :=
  t!"<AUTOSAR><AR-PACKAGES><AR-PACKAGE><SHORT-NAME>P</SHORT-NAME><AR-PACKAGES><AR-PACKAGE><SHORT-NAME>Q</SHORT-NAME><ELEMENTS>" ++
  t!"<CLIENT-SERVER-INTERFACE><SHORT-NAME>I</SHORT-NAME></CLIENT-SERVER-INTERFACE><BSW-MODULE-DESCRIPTION><SHORT-NAME>M</SHORT-NAME>" ++
  t!"<INTERNAL-BEHAVIORS><BSW-INTERNAL-BEHAVIOR><SHORT-NAME>B</SHORT-NAME><EVENTS><BSW-MODE-SWITCH-EVENT><SHORT-NAME>E</SHORT-NAME>" ++
  t!"</BSW-MODE-SWITCH-EVENT></EVENTS></BSW-INTERNAL-BEHAVIOR></INTERNAL-BEHAVIORS></BSW-MODULE-DESCRIPTION></ELEMENTS></AR-PACKAGE>" ++
  t!"</AR-PACKAGES></AR-PACKAGE></AR-PACKAGES></AUTOSAR>"

/-- a package with two interfaces, one has an operation; another package -/
def operationFile : Str :=
  t!"<AUTOSAR><AR-PACKAGES><AR-PACKAGE><SHORT-NAME>P</SHORT-NAME><ELEMENTS><CLIENT-SERVER-INTERFACE><SHORT-NAME>I</SHORT-NAME><OPERATIONS>" ++
  t!"<CLIENT-SERVER-OPERATION><SHORT-NAME>O</SHORT-NAME></CLIENT-SERVER-OPERATION></OPERATIONS></CLIENT-SERVER-INTERFACE>" ++
  t!"<CLIENT-SERVER-INTERFACE><SHORT-NAME>J</SHORT-NAME></CLIENT-SERVER-INTERFACE></ELEMENTS></AR-PACKAGE><AR-PACKAGE><SHORT-NAME>R</SHORT-NAME>" ++
  t!"</AR-PACKAGE></AR-PACKAGES></AUTOSAR>"

/-- a module with a timing event -/
def timingFile : Str :=
  t!"<AUTOSAR><AR-PACKAGES><AR-PACKAGE><SHORT-NAME>P</SHORT-NAME><ELEMENTS><BSW-MODULE-ENTRY><SHORT-NAME>F</SHORT-NAME><SERVICE-ID>7</SERVICE-ID>" ++
  t!"</BSW-MODULE-ENTRY><BSW-MODULE-DESCRIPTION><SHORT-NAME>M</SHORT-NAME><INTERNAL-BEHAVIORS><BSW-INTERNAL-BEHAVIOR><SHORT-NAME>B</SHORT-NAME>" ++
  t!"<ENTITYS><BSW-SCHEDULABLE-ENTITY><SHORT-NAME>S</SHORT-NAME><IMPLEMENTED-ENTRY-REF DEST='BSW-MODULE-ENTRY'>/P/F</IMPLEMENTED-ENTRY-REF>" ++
  t!"</BSW-SCHEDULABLE-ENTITY></ENTITYS><EVENTS><BSW-TIMING-EVENT><SHORT-NAME>T</SHORT-NAME>" ++
  t!"<STARTS-ON-EVENT-REF DEST='BSW-SCHEDULABLE-ENTITY'>/P/M/B/S</STARTS-ON-EVENT-REF><PERIOD>0.01</PERIOD></BSW-TIMING-EVENT></EVENTS>" ++
  t!"</BSW-INTERNAL-BEHAVIOR></INTERNAL-BEHAVIORS></BSW-MODULE-DESCRIPTION></ELEMENTS></AR-PACKAGE></AR-PACKAGES></AUTOSAR>"

/-- a directory with the three files -/
def dumpDir : Fs where
  isDir _ := false
  walk _ := []
  text f := if f = "a".toList then some shownFile else if f = "b".toList then some operationFile else if f = "c".toList then some timingFile else none

/-- **C69 is refuted for interfaces with operations.**  The tool stops after the name of the first operation with an `AttributeError`; the interface J
and the package R are not shown. -/
theorem C69_operation_broken : (arxmlDump Py.demo .ascii dumpDir ["b".toList]).map (fun r => (r.lines, r.err.isSome)) =
    some (["-P (Pkg)".toList, "  I".toList, "    Operation:O".toList], true) := by decide +kernel

/-- **C69 is refuted for timing events.**  With everything the tool looks for in the file, it stops with a `TypeError` when it formats the service id. -/
theorem C69_timing_broken : (arxmlDump Py.demo .ascii dumpDir ["c".toList]).map (fun r => (r.lines, r.err.isSome)) =
    some (["-P (Pkg)".toList, "  -M".toList, "    -B".toList, "      -T".toList, "        -StartsOnEventRef: /P/M/B/S".toList,
      "        -StartsOnEvent: S".toList, "        -ImplementedEntryRef: /P/F".toList, "        -ImplementedEntry: F".toList], true) := by decide +kernel

/-- a file that is shown completely (with the inner package twice, see C54) -/
example : (arxmlDump Py.demo .ascii dumpDir ["a".toList]).map (fun r => (r.lines, r.err.isSome)) =
    some (["-P (Pkg)", "  -Q (Pkg)", "    I", "    -M", "      -B", "        -E", "  -Q (Pkg)", "    I", "    -M", "      -B", "        -E"].map
      String.toList, false) := by decide +kernel

end Verif.Props
