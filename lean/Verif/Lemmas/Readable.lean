import Verif.Lemmas.Document
import Verif.Lemmas.Ignore
import Verif.Lemmas.ListTool
import Verif.Props.Prim
import Verif.Spec.Readable
/-!
# Which files can be loaded: lemmas
-/
namespace Verif.Lemmas
open Verif Verif.Model Verif.Spec Re

section
variable {py : Py} {strict : Bool}

theorem parse_iff {c : PObj.Cls} {s : Str} : (∃ o, parseNum py c s = .ok o) ↔ Accepted py s := by
  rw [← Props.C21_accepted_iff]
  simp only [parseNum, PObj.setValue, PObj.assign]
  cases convert py s with
  | error e => simp
  | ok n => simp

theorem parse_num {c : PObj.Cls} {s : Str} {o : PObj py.F} (h : parseNum py c s = .ok o) : ∃ n, convert py s = .ok n ∧ o.value = .num n := by
  simp only [parseNum, PObj.setValue, PObj.assign] at h
  cases hc : convert py s with
  | error e => rw [hc] at h; cases h
  | ok n => rw [hc] at h; cases h; exact ⟨n, rfl, rfl⟩

theorem parse?_iff {c : PObj.Cls} {s : Str} : (∃ o, parseNum? py c s = .ok o) ↔ s = [] ∨ Accepted py s := by
  unfold parseNum?
  split
  next h => simp [h]
  next h => rw [parse_iff]; simp [h]

theorem bool_iff {s : Str} : (∃ o, PBool.setValue py PBool.new (.str s) = (o, none)) ↔
    ∃ pre w post b, s = pre ++ w ++ post ∧ (∀ c ∈ pre, py.space c = true) ∧ (∀ c ∈ post, py.space c = true) ∧ Trimmed py w ∧ BoolText py w b := by
  constructor
  · rintro ⟨o, h⟩
    obtain ⟨pre, post, e, h1, h2, h3⟩ := strip_spec py s
    by_contra hn
    have : ∀ b, PBool.convert py (py.strip s) ≠ .ok b := fun b hb => hn ⟨pre, _, post, b, e, h1, h2, h3, (Props.boolConvert_iff py _ b).mp hb⟩
    simp only [PBool.setValue, PBool.assign] at h
    cases hc : PBool.convert py (py.strip s) with
    | ok b => exact this b hc
    | error err => rw [hc] at h; cases h
  · rintro ⟨pre, w, post, b, rfl, h1, h2, ht, hb⟩
    have := (Props.C22_accepted py PBool.new pre w post b hb ht h1 h2).1
    exact ⟨_, Prod.ext rfl this⟩

theorem scalars_some {F : Type} {r : Except PyErr (Option (Scalar F))} : (∃ l, scalars r = .ok l) ↔ ∃ v, r = .ok v := by
  cases r with
  | error e => simp [scalars]
  | ok v => cases v <;> simp [scalars]

theorem text_iff {k : RKind} {z : Xml} : (∃ v, readKind py k z = .ok v) ↔ TextFine py k z := by
  have num : ∀ (c : PObj.Cls) (f : PObj py.F → Option (Scalar py.F)), (∃ v, (match parseNum? py c z.text with
      | .ok o => Except.ok (f o)
      | .error e => .error e) = .ok v) ↔ z.text = [] ∨ Accepted py z.text := fun c f => by
    rw [← parse?_iff (c := c)]
    cases parseNum? py c z.text <;> simp
  have num' : ∀ (c : PObj.Cls) (f : PObj py.F → Option (Scalar py.F)), (∃ v, (if z.text = [] then .ok none else match parseNum py c z.text with
      | .ok o => Except.ok (f o)
      | .error e => .error e) = .ok v) ↔ z.text = [] ∨ Accepted py z.text := fun c f => by
    rw [← parse_iff (c := c)]
    by_cases h : z.text = []
    · simp [h]
    · cases hp : parseNum py c z.text <;> simp [h]
  cases k with
  | float => exact num' _ _
  | time => exact num' _ _
  | floats => exact num _ _
  | numerical => exact num _ _
  | integer => exact num _ _
  | numericals => exact num _ _
  | positive =>
    show (∃ v, (if z.text = [] then _ else _) = _) ↔ (z.text = [] ∨ _)
    by_cases h : z.text = []
    · simp [h]
    · rw [← parse_iff (c := .positive)]
      simp only [h, if_false, false_or]
      cases hp : parseNum py .positive z.text with
      | error e => simp
      | ok o =>
        obtain ⟨n, h1, h2⟩ := parse_num hp
        simp only [h2, Except.ok.injEq, exists_eq', true_and]
        cases hn : negative py (.num n) with
        | true =>
          simp only [if_true]
          constructor
          · rintro ⟨v, h⟩; cases h
          · intro h; rw [h n h1] at hn; cases hn
        | false =>
          constructor
          · intro _ m hm
            rw [h1] at hm; cases hm; exact hn
          · exact fun _ => ⟨_, rfl⟩
  | boolean =>
    show (∃ v, (if z.text = [] then _ else _) = _) ↔ (z.text = [] ∨ _)
    by_cases h : z.text = []
    · simp [h]
    · rw [← bool_iff]
      simp only [h, if_false, false_or]
      rcases hp : PBool.setValue py PBool.new (.str z.text) with ⟨o, _ | e⟩ <;> simp
  | revision =>
    show (∃ v, (if z.text = [] then _ else _) = _) ↔ (z.text = [] ∨ _)
    by_cases h : z.text = []
    · simp [h]
    · rw [← Props.C26_revision]
      simp only [h, if_false, false_or]
      cases test reRevision z.text <;> simp
  | refTo d =>
    show (∃ v, (if z.attr k!"DEST" = some d then _ else _) = _) ↔ z.attr k!"DEST" = some d
    by_cases h : z.attr k!"DEST" = some d <;> simp [h]
  | lit => exact ⟨fun _ => trivial, fun _ => ⟨_, rfl⟩⟩
  | litPlain => exact ⟨fun _ => trivial, fun _ => ⟨_, rfl⟩⟩
  | limit => exact ⟨fun _ => trivial, fun _ => ⟨_, rfl⟩⟩
  | ref => exact ⟨fun _ => trivial, fun _ => ⟨_, rfl⟩⟩
  | refDest => exact ⟨fun _ => trivial, fun _ => ⟨_, rfl⟩⟩
  | litText => exact ⟨fun _ => trivial, fun _ => by simp only [readKind]; split <;> exact ⟨_, rfl⟩⟩
  | litNonblank => exact ⟨fun _ => trivial, fun _ => by simp only [readKind]; split <;> exact ⟨_, rfl⟩⟩
  | raw => exact ⟨fun _ => trivial, fun _ => by simp only [readKind]; split <;> exact ⟨_, rfl⟩⟩
  | rawNonblank => exact ⟨fun _ => trivial, fun _ => by simp only [readKind]; split <;> exact ⟨_, rfl⟩⟩

theorem find_map {m : AMap} {v : Str} : (∃ e, m.map.find? (fun e => e.2 == v) = some e) ↔ ∃ e ∈ m.map, e.2 = v := by
  rw [← Option.isSome_iff_exists, List.find?_isSome]
  simp

/-- reading an element succeeds if nothing is wrong with it and, if it is an object, this can be read -/
theorem item_iff {rd : Key → Xml → Except RErr (MObj py.F)} {i : Item} {z : Xml} : (∃ l, readItem py strict rd i z = .ok l) ↔
    ItemFine py strict i z ∧ ∀ alts k, i = .objs alts → altOf alts z.tag = some k → ∃ o, rd k z = .ok o := by
  cases i with
  | prim k =>
    show (∃ l, scalars (readKind py k z) = .ok l) ↔ _
    rw [scalars_some, text_iff]
    exact ⟨fun h => ⟨h, fun _ _ h => nomatch h⟩, fun h => h.1⟩
  | attr n k =>
    simp only [readItem]
    cases ha : z.attr n with
    | none => cases k <;> simp [ItemFine, ha]
    | some v =>
      simp only [scalars_some]
      cases k with
      | raw => simp [readAttr, ItemFine]
      | lit => simp [readAttr, ItemFine]
      | mapped m =>
        simp only [readAttr, ItemFine, ha, Option.some.injEq, forall_eq']
        rw [← find_map]
        cases hf : m.map.find? (fun e => e.2 == v) with
        | some e => simp
        | none => cases strict <;> simp
  | name => by_cases h : z.text = [] <;> simp [readItem, ItemFine, h]
  | objs alts =>
    constructor
    · rintro ⟨l, h⟩
      refine ⟨trivial, fun alts' k e hk => ?_⟩
      cases e
      simp only [readItem, hk] at h
      cases hr : rd k z with
      | error e => rw [hr] at h; cases h
      | ok o => exact ⟨o, rfl⟩
    · rintro ⟨-, h⟩
      simp only [readItem]
      cases ha : altOf alts z.tag with
      | none => exact ⟨_, rfl⟩
      | some k =>
        obtain ⟨o, ho⟩ := h alts k rfl ha
        exact ⟨[o], by simp only [ho]⟩
  | guard tags g =>
    by_cases h : z.tag ∈ tags
    · simp [readItem, ItemFine, h]
    · cases g <;> cases strict <;> simp [readItem, ItemFine, h]
  | want t e =>
    simp only [readItem, ItemFine]
    by_cases h : z.kids.any (tagIs t) = true
    · simp only [h, if_true]
      simpa using h
    · simp only [h, if_false]
      simpa using h
  | crash e => simp [readItem, ItemFine]

theorem scalars_nil {F : Type} {r : Except PyErr (Option (Scalar F))} {l : List (MObj F)} (h : scalars r = .ok l) : l ≠ [] ↔ ∃ s, r = .ok (some s) := by
  cases r with
  | error e => cases h
  | ok v => cases v <;> cases h <;> simp

theorem blank_false {s : Str} : blank py s = false ↔ ∃ c ∈ s, py.space c = false := by
  simp [blank]

/-- a value comes of the elements that are said to give one -/
theorem gives_iff {rd : Key → Xml → Except RErr (MObj py.F)} {i : Item} {z : Xml} {l : List (MObj py.F)} (h : readItem py strict rd i z = .ok l) :
    l ≠ [] ↔ Gives py i z := by
  cases i with
  | prim k =>
    simp only [readItem] at h
    rw [scalars_nil h]
    have hv : ∃ v, readKind py k z = .ok v := scalars_some.1 ⟨l, h⟩
    obtain ⟨v, hv⟩ := hv
    rw [hv]
    simp only [Except.ok.injEq, ← Option.isSome_iff_exists]
    cases k <;> simp only [readKind] at hv <;> simp only [Gives, ← blank_false] <;> (try split at hv) <;> (try split at hv) <;> (try split at hv) <;> cases hv <;> simp_all
  | attr n k =>
    simp only [readItem] at h
    cases ha : z.attr n with
    | none => rw [ha] at h; cases h; cases k <;> simp [Gives, ha]
    | some v =>
      rw [ha] at h
      simp only at h
      rw [scalars_nil h]
      cases k with
      | raw => simp [readAttr, Gives, ha]
      | lit => simp [readAttr, Gives, ha]
      | mapped m =>
        simp only [readAttr] at h ⊢
        have := find_map (m := m) (v := v)
        cases hf : m.map.find? (fun e => e.2 == v) with
        | some e =>
          obtain ⟨e', h1, h2⟩ := this.1 ⟨e, hf⟩
          simp only [Gives, ha, Except.ok.injEq, Option.some.injEq, exists_eq', true_iff]
          exact ⟨e', h1, h2.symm⟩
        | none =>
          have hn : ¬ Gives py (.attr n (.mapped m)) z := by
            rintro ⟨e', h1, h2⟩
            rw [ha] at h2
            obtain ⟨e, he⟩ := this.2 ⟨e', h1, (Option.some.inj h2).symm⟩
            rw [hf] at he; cases he
          simp only [hn, iff_false]
          cases strict <;> simp
  | name =>
    simp only [readItem] at h
    split at h
    · cases h
    · cases h; simpa [Gives]
  | objs alts =>
    simp only [readItem] at h
    cases ha : altOf alts z.tag with
    | none => rw [ha] at h; cases h; simp [Gives, ha]
    | some k =>
      rw [ha] at h
      simp only at h
      split at h <;> cases h
      simp [Gives, ha]
  | guard tags g =>
    simp only [readItem] at h
    split at h
    · cases h; simp [Gives]
    · cases g <;> cases strict <;> cases h <;> simp [Gives]
  | want t e =>
    simp only [readItem] at h
    split at h <;> cases h
    simp [Gives]
  | crash e => cases h

theorem mapE_oks {α β ε : Type} {f : α → Except ε β} {l : List α} : (∃ r, mapE f l = .ok r) ↔ ∀ a ∈ l, ∃ b, f a = .ok b := by
  constructor
  · rintro ⟨r, h⟩ a ha
    obtain ⟨b, hb, -⟩ := mapE_mem h ha
    exact ⟨b, hb⟩
  · intro h
    induction l with
    | nil => exact ⟨[], rfl⟩
    | cons a l ih =>
      obtain ⟨b, hb⟩ := h a (by simp)
      obtain ⟨bs, hbs⟩ := ih fun a' ha' => h a' (by simp [ha'])
      exact ⟨b :: bs, by simp only [mapE, hb, hbs]⟩

theorem mapE_back {α β ε : Type} {f : α → Except ε β} {l : List α} {r : List β} (h : mapE f l = .ok r) {b : β} (hb : b ∈ r) : ∃ a ∈ l, f a = .ok b := by
  induction l generalizing r with
  | nil => cases h; cases hb
  | cons a l ih =>
    simp only [mapE] at h
    split at h
    · cases h
    · rename_i b' hb'
      split at h
      · cases h
      · rename_i bs hbs
        cases h
        rcases List.mem_cons.1 hb with rfl | hb
        · exact ⟨a, by simp, hb'⟩
        · obtain ⟨a', h1, h2⟩ := ih hbs hb
          exact ⟨a', by simp [h1], h2⟩

theorem keepLast_nil {α : Type} {l : List α} : keepLast l = [] ↔ l = [] := by
  unfold keepLast
  cases h : l.getLast? with
  | none => simpa using h
  | some v => simp only [List.cons_ne_self, false_iff, reduceCtorEq]; rintro rfl; simp at h

/-- reading a slot succeeds if its elements can be read and what is needed is there -/
theorem slot_iff {rd : Key → Xml → Except RErr (MObj py.F)} {x : Xml} {s : RSlot} : (∃ l, readSlot py strict rd x s = .ok l) ↔
    (∀ z ∈ select s.path x, ∃ l, readItem py strict rd s.item z = .ok l) ∧
    (s.req = .always ∨ (s.req = .strict ∧ strict = true) → ∃ z ∈ select s.path x, Gives py s.item z) := by
  rw [← mapE_oks]
  simp only [readSlot]
  cases hm : mapE (readItem py strict rd s.item) (select s.path x) with
  | error e => simp
  | ok vs =>
    have hg : (if s.last then keepLast vs.flatten else vs.flatten) = [] ↔ ¬ ∃ z ∈ select s.path x, Gives py s.item z := by
      have : (if s.last then keepLast vs.flatten else vs.flatten) = [] ↔ vs.flatten = [] := by
        split
        · exact keepLast_nil
        · rfl
      rw [this, List.flatten_eq_nil_iff]
      constructor
      · rintro h ⟨z, hz, hgz⟩
        obtain ⟨l, hl, hlm⟩ := mapE_mem hm hz
        exact (gives_iff hl).2 hgz (h l hlm)
      · intro h l hl
        obtain ⟨z, hz, hr⟩ := mapE_back hm hl
        by_contra hn
        exact h ⟨z, hz, (gives_iff hr).1 hn⟩
    simp only [Except.ok.injEq, exists_eq', true_and]
    generalize (if s.last then keepLast vs.flatten else vs.flatten) = ws at hg
    cases ws with
    | nil =>
      have hn := hg.1 rfl
      cases hr : s.req <;> cases strict <;> simp [hn]
    | cons w ws =>
      have hn : ∃ z ∈ select s.path x, Gives py s.item z := by
        by_contra h; cases hg.2 h
      simp [hn]

/-- what an object is read from can be read -/
theorem readable_of_read {n : Nat} {k : Key} {x : Xml} {o : MObj py.F} (h : readObj py strict readers n k x = .ok o) {b : RBody}
    (hb : readers k = some b) : Readable py strict b x := by
  cases n with
  | zero => cases h
  | succ n =>
    simp only [readObj, hb, readBody] at h
    split at h
    · cases h
    · rename_i vs hvs
      have hs : ∀ s ∈ b.slots, ∃ l, readSlot py strict (readObj py strict readers n) x s = .ok l := mapE_oks.1 ⟨vs, hvs⟩
      exact ⟨fun s h z hz => (item_iff.1 ((slot_iff.1 (hs s h)).1 z hz)).1, fun s h => (slot_iff.1 (hs s h)).2⟩

theorem slot_closed {k : Key} {b : RBody} (hb : readers k = some b) {s : RSlot} (hs : s ∈ b.slots) {alts : List (Key × Key)} (hi : s.item = .objs alts)
    {t j : Key} (hj : altOf alts t = some j) : (readers j).isSome = true := by
  have hcl : (match s.item with
    | .objs alts => alts.all fun a => (readers a.2).isSome
    | _ => true) = true := by
    have hb' := hb
    unfold readers at hb'
    split at hb'
    · cases hb'
      exact List.all_eq_true.1 readers_closed.1 s hs
    · exact List.all_eq_true.1 ((Bst.all_toList _ _).1 readers_closed.2 _ (Bst.find?_mem hb')) s hs
  rw [hi] at hcl
  obtain ⟨t', ht'⟩ := altOf_mem' hj
  exact List.all_eq_true.1 hcl _ ht'

/-- If all elements that are read can be read, the object is read (as far as this is modelled). -/
theorem read_of_readable {n : Nat} {k : Key} {x : Xml} (hn : x.depth ≤ n) (hk : (readers k).isSome = true)
    (h : ∀ k' y b, Visits readers k x k' y → readers k' = some b → Readable py strict b y) :
    (∃ o, readObj py strict readers n k x = .ok o) ∨ readObj py strict readers n k x = .error .outside := by
  induction n generalizing k x with
  | zero => have := depth_pos x; omega
  | succ n ih =>
    obtain ⟨b, hb⟩ := Option.isSome_iff_exists.1 hk
    have hr := h k x b (.self k x) hb
    simp only [readObj, hb, readBody]
    cases hm : mapE (readSlot py strict (readObj py strict readers n) x) b.slots with
    | ok vs =>
      simp only
      split
      · exact .inl ⟨_, rfl⟩
      · exact .inr rfl
    | error e =>
      right
      obtain ⟨s, hs, hse⟩ := mapE_err hm
      have hnot : ¬ ∃ l, readSlot py strict (readObj py strict readers n) x s = .ok l := by rw [hse]; rintro ⟨l, hl⟩; cases hl
      rw [slot_iff] at hnot
      have hz : ¬ ∀ z ∈ select s.path x, ∃ l, readItem py strict (readObj py strict readers n) s.item z = .ok l := fun h' => hnot ⟨h', hr.there s hs⟩
      simp only [readSlot] at hse
      split at hse
      swap
      · rename_i vs hvs
        exact absurd (mapE_oks.1 ⟨vs, hvs⟩) hz
      · rename_i e' he'
        cases hse
        obtain ⟨z, hzs, hze⟩ := mapE_err he'
        have hf := hr.fine s hs z hzs
        have hno : ¬ ∃ l, readItem py strict (readObj py strict readers n) s.item z = .ok l := by rw [hze]; rintro ⟨l, hl⟩; cases hl
        rw [item_iff] at hno
        have hob : ¬ ∀ alts k', s.item = .objs alts → altOf alts z.tag = some k' → ∃ o, readObj py strict readers n k' z = .ok o := fun h' => hno ⟨hf, h'⟩
        push Not at hob
        obtain ⟨alts, k', hi, hk', hno'⟩ := hob
        have hd := (select_depth hzs).2 (moving k b hb s hs (by rw [hi]; rfl))
        rcases ih (k := k') (x := z) (by omega) (slot_closed hb hs hi hk') (fun k'' y b' hv => h k'' y b' (.step k x b s alts z k' k'' y hb hs hi hzs hk' hv)) with ⟨o, ho⟩ | ho
        · exact absurd ho (hno' o)
        · rw [hi] at hze
          simp only [readItem, hk', ho] at hze
          cases hze
          rfl

/-! ### Exceptions -/

/-- the exceptions of the model that loading ends with -/
def loadErr (strict : Bool) : RErr → Bool
  | .py .valueError => true
  | .py .attributeError => true
  | .py .notImplemented => strict
  | .unbound => !strict
  | .outside => true
  | _ => false

def crashOk (s : RSlot) : Bool := match s.item with
  | .want _ e => e == .attributeError || e == .valueError
  | .crash e => e == .attributeError || e == .valueError
  | _ => true

theorem crash_table : loadBody.slots.all crashOk = true ∧ Gen.readTable.all (fun _ b => b.slots.all crashOk) = true := by
  constructor <;> decide +kernel

theorem slot_crash {k : Key} {b : RBody} (hb : readers k = some b) {s : RSlot} (hs : s ∈ b.slots) : crashOk s = true := by
  unfold readers at hb
  split at hb
  · cases hb
    exact List.all_eq_true.1 crash_table.1 s hs
  · exact List.all_eq_true.1 ((Bst.all_toList _ _).1 crash_table.2 _ (Bst.find?_mem hb)) s hs

theorem convert_err {s : Str} {e : PyErr} (h : convert py s = .error e) : e = .valueError := by
  unfold convert at h
  split at h
  · cases h
  split at h
  · cases h
  split at h
  · split at h <;> cases h; rfl
  split at h
  · split at h <;> cases h; rfl
  split at h
  · split at h <;> cases h; rfl
  · split at h <;> cases h; rfl

theorem parse_err {c : PObj.Cls} {s : Str} {e : PyErr} (h : parseNum py c s = .error e) : e = .valueError := by
  simp only [parseNum, PObj.setValue, PObj.assign] at h
  cases hc : convert py s with
  | error e' =>
    rw [hc] at h
    have := convert_err hc
    cases c <;> simp_all
  | ok n =>
    rw [hc] at h
    cases c <;> simp_all

theorem parse?_err {c : PObj.Cls} {s : Str} {e : PyErr} (h : parseNum? py c s = .error e) : e = .valueError := by
  unfold parseNum? at h
  split at h
  · cases h
  · exact parse_err h

theorem bool_err {s : Str} {o : PBool.BObj} {e : PyErr} (h : PBool.setValue py PBool.new (.str s) = (o, some e)) : e = .valueError := by
  simp only [PBool.setValue, PBool.assign] at h
  cases hc : PBool.convert py (py.strip s) with
  | ok b => rw [hc] at h; cases h
  | error e' =>
    rw [hc] at h
    cases h
    unfold PBool.convert at hc
    simp only at hc
    split at hc
    · cases hc
    split at hc
    · cases hc
    split at hc <;> cases hc
    rfl

theorem kind_err {k : RKind} {z : Xml} {e : PyErr} (h : readKind py k z = .error e) : e = .valueError := by
  cases k <;> simp only [readKind] at h <;> (try split at h) <;> (try split at h) <;> (try split at h) <;>
    first
    | cases h; done
    | (cases h; first | rfl | exact parse_err ‹_› | exact parse?_err ‹_› | exact bool_err ‹_›)

theorem read_err {n : Nat} {k : Key} {x : Xml} (hn : x.depth ≤ n) (hk : (readers k).isSome = true) {e : RErr}
    (h : readObj py strict readers n k x = .error e) : loadErr strict e = true := by
  induction n generalizing k x with
  | zero => have := depth_pos x; omega
  | succ n ih =>
    obtain ⟨b, hb⟩ := Option.isSome_iff_exists.1 hk
    simp only [readObj, hb, readBody] at h
    split at h
    swap
    · split at h <;> cases h; rfl
    rename_i e' he'
    cases h
    obtain ⟨s, hs, hse⟩ := mapE_err he'
    have hcr := slot_crash hb hs
    simp only [readSlot] at hse
    split at hse
    swap
    · split at hse
      · cases hse; rfl
      · split at hse <;> cases hse; rfl
      · cases hse
    rename_i e' he'
    cases hse
    obtain ⟨y, hy, hye⟩ := mapE_err he'
    unfold crashOk at hcr
    cases hi : s.item with
    | objs alts =>
      rw [hi] at hye
      simp only [readItem] at hye
      split at hye
      · cases hye
      rename_i k' hk'
      split at hye
      · rename_i e' he'
        cases hye
        have hd := (select_depth hy).2 (moving k b hb s hs (by rw [hi]; rfl))
        exact ih (x := y) (by omega) (slot_closed hb hs hi hk') he'
      · cases hye
    | prim kk =>
      rw [hi] at hye
      simp only [readItem] at hye
      cases hr : readKind py kk y with
      | error e => rw [hr] at hye; cases hye; rw [kind_err hr]; rfl
      | ok r => rw [hr] at hye; cases r <;> cases hye
    | attr a kk =>
      rw [hi] at hye
      simp only [readItem] at hye
      split at hye
      · cases hye
      · rename_i v hv
        cases hr : readAttr py strict kk v with
        | error e =>
          rw [hr] at hye; cases hye
          cases kk <;> simp only [readAttr] at hr
          · cases hr
          · cases hr
          · split at hr
            · cases hr
            · split at hr <;> cases hr
              simp_all [loadErr]
        | ok r => rw [hr] at hye; cases r <;> cases hye
    | name =>
      rw [hi] at hye
      simp only [readItem] at hye
      split at hye <;> cases hye
      rfl
    | guard tags g =>
      rw [hi] at hye
      simp only [readItem] at hye
      split at hye
      · cases hye
      · cases g <;> cases strict <;> cases hye <;> rfl
    | want t e =>
      rw [hi] at hye hcr
      simp only [readItem] at hye
      split at hye <;> cases hye
      simp only [Bool.or_eq_true, beq_iff_eq] at hcr
      rcases hcr with rfl | rfl <;> rfl
    | crash e =>
      rw [hi] at hye hcr
      cases hye
      simp only [Bool.or_eq_true, beq_iff_eq] at hcr
      rcases hcr with rfl | rfl <;> rfl

/-! ### Names -/

theorem readObj_name {n : Nat} {k : Key} {x : Xml} {o : MObj py.F} (h : readObj py strict readers n k x = .ok o) {b : RBody} (hb : readers k = some b)
    (hn : nameOk b = true) : o.name = nameIn x := by
  rw [← elemName_nameIn]
  exact (intoObj_name hb hn (into_fresh (over := fun _ => []) slotsOk h)).1

/-- all slots for an attribute whose values have to have different names are filled by name -/
def namedTogether (b : RBody) : Bool := b.slots.all fun s =>
  (!s.named || b.slots.all fun s' => !hits (if s.elems then k!"elements" else s.field) s'.key || s'.named) &&
  (!s.one || b.slots.all fun s' => !hits s.field s'.key || s'.named)

theorem together_table : namedTogether loadBody = true ∧ Gen.readTable.all (fun _ b => namedTogether b) = true := by
  constructor <;> decide +kernel

theorem together {k : Key} {b : RBody} (hb : readers k = some b) : namedTogether b = true := by
  unfold readers at hb
  split at hb
  · cases hb
    exact together_table.1
  · exact (Bst.all_toList _ _).1 together_table.2 _ (Bst.find?_mem hb)

/-- the names of what is read by name are the names of the elements -/
theorem slot_called {n : Nat} {x : Xml} {s : RSlot} {vs : List (MObj py.F)} (hs : slotOk readers s = true) (hn : s.named = true)
    (h : readSlot py strict (readObj py strict readers n) x s = .ok vs) : vs.map MObj.name = ((select s.path x).filter (used s.item)).map nameIn := by
  obtain ⟨alts, hi, ha, hr, hl, -⟩ := slotOk_named hs hn
  simp only [readSlot, hr, hl, hi] at h
  split at h
  · cases h
  rename_i ls hls
  simp only [Bool.false_eq_true, if_false, Except.ok.injEq] at h
  subst h
  rw [hi]
  generalize select s.path x = zs at hls
  induction zs generalizing ls with
  | nil => cases hls; rfl
  | cons z zs ih =>
    simp only [mapE] at hls
    split at hls
    · cases hls
    rename_i l hl
    split at hls
    · cases hls
    rename_i ls' hls'
    cases hls
    simp only [List.flatten_cons, List.map_append, ih _ hls', List.filter_cons]
    simp only [readItem] at hl
    cases hk : altOf alts z.tag with
    | none => rw [hk] at hl; cases hl; simp [used, hk]
    | some k =>
      rw [hk] at hl
      simp only at hl
      split at hl
      · cases hl
      rename_i o ho
      cases hl
      obtain ⟨u, hu⟩ := altOf_mem' hk
      obtain ⟨b, hb, hnb⟩ := ha _ hu
      simp [used, hk, readObj_name ho hb hnb]

theorem names_get {n : Nat} {x : Xml} {f : Key} {slots : List RSlot} {vss : List (List (MObj py.F))} (c : Key)
    (hok : ∀ s ∈ slots, slotOk readers s = true) (hn : ∀ s ∈ slots, hits f s.key = true → s.named = true)
    (h : mapE (readSlot py strict (readObj py strict readers n) x) slots = .ok vss) :
    ((MObj.mk c ((slots.map RSlot.key).zip vss)).get f).map MObj.name = namesFor slots f x := by
  rw [get_mk]
  induction slots generalizing vss with
  | nil => cases h; rfl
  | cons s slots ih =>
    simp only [mapE] at h
    split at h
    · cases h
    rename_i vs hvs
    split at h
    · cases h
    rename_i vss' hvss
    cases h
    have := ih (fun s' h' => hok s' (by simp [h'])) (fun s' h' => hn s' (by simp [h'])) hvss
    rw [List.map_cons, List.zip_cons_cons, shown_cons, List.map_append, this]
    unfold namesFor
    rw [List.flatMap_cons]
    congr 1
    split
    · rename_i hh
      rw [slot_called (hok s (by simp)) (hn s (by simp) hh) hvs]
    · rfl

theorem names_shown {n : Nat} {k : Key} {x : Xml} {b : RBody} (hb : readers k = some b) {vss : List (List (MObj py.F))}
    (h : mapE (readSlot py strict (readObj py strict readers n) x) b.slots = .ok vss) {s : RSlot} (hs : s ∈ b.slots) :
    (s.named = true → ((MObj.mk b.cls ((b.slots.map RSlot.key).zip vss)).get (if s.elems then k!"elements" else s.field)).map MObj.name =
      namesFor b.slots (if s.elems then k!"elements" else s.field) x) ∧
    (s.one = true → ((MObj.mk b.cls ((b.slots.map RSlot.key).zip vss)).get s.field).map MObj.name = namesFor b.slots s.field x) := by
  have ht := List.all_eq_true.1 (together hb) s hs
  simp only [Bool.and_eq_true, Bool.or_eq_true, Bool.not_eq_true', List.all_eq_true] at ht
  have hor : ∀ f, (∀ s' ∈ b.slots, hits f s'.key = false ∨ s'.named = true) → ∀ s' ∈ b.slots, hits f s'.key = true → s'.named = true :=
    fun f hf s' h1 h2 => by
      rcases hf s' h1 with h3 | h3
      · rw [h2] at h3; cases h3
      · exact h3
  refine ⟨fun hn => ?_, fun ho => ?_⟩
  · rcases ht.1 with h1 | h1
    · rw [hn] at h1; cases h1
    · exact names_get b.cls (fun s hs => slotsOk k b hb s hs) (hor _ h1) h
  · rcases ht.2 with h1 | h1
    · rw [ho] at h1; cases h1
    · exact names_get b.cls (fun s hs => slotsOk k b hb s hs) (hor _ h1) h

/-- the names of what was read are as they have to be -/
theorem named_of_read {n : Nat} {k : Key} {x : Xml} {o : MObj py.F} (h : readObj py strict readers n k x = .ok o) {b : RBody}
    (hb : readers k = some b) : WellNamed b x := by
  have hr := readable_of_read h hb
  cases n with
  | zero => cases h
  | succ n =>
    simp only [readObj, hb, readBody] at h
    split at h
    · cases h
    rename_i vss hvss
    split at h
    swap
    · cases h
    rename_i hno
    unfold namesOk at hno
    rw [List.all_eq_true] at hno
    refine ⟨fun s hs hi z hz => ?_, fun s hs hn => ?_, fun s hs ho => ?_⟩
    · have := hr.fine s hs z hz
      rw [hi] at this; exact this
    · have := hno s hs
      rw [hn, (names_shown hb hvss hs).1 hn] at this
      simp only [Bool.not_true, Bool.false_or, Bool.and_eq_true, decide_eq_true_eq] at this
      exact this.1
    · have := hno s hs
      rw [ho] at this
      rw [← (names_shown hb hvss hs).2 ho, List.length_map]
      simp only [Bool.not_true, Bool.false_or, Bool.and_eq_true, Nat.ble_eq] at this
      exact this.2

/-- only names can make a file one that is not in the model -/
theorem outside_named {n : Nat} {k : Key} {x : Xml} (hn : x.depth ≤ n) (hk : (readers k).isSome = true)
    (h : ∀ k' y b, Visits readers k x k' y → readers k' = some b → WellNamed b y) : readObj py strict readers n k x ≠ .error .outside := by
  induction n generalizing k x with
  | zero => have := depth_pos x; omega
  | succ n ih =>
    intro he
    obtain ⟨b, hb⟩ := Option.isSome_iff_exists.1 hk
    have hnm := h k x b (.self k x) hb
    simp only [readObj, hb, readBody] at he
    split at he
    swap
    · rename_i vss hvss
      split at he
      · cases he
      rename_i hno
      apply hno
      unfold namesOk
      rw [List.all_eq_true]
      intro s hs
      simp only [Bool.and_eq_true, Bool.or_eq_true, Bool.not_eq_true']
      refine ⟨?_, ?_⟩
      · cases hsn : s.named with
        | false => exact .inl rfl
        | true =>
          right
          rw [(names_shown hb hvss hs).1 hsn]
          exact decide_eq_true (hnm.different s hs hsn)
      · cases hso : s.one with
        | false => exact .inl rfl
        | true =>
          right
          have := hnm.one s hs hso
          rw [← (names_shown hb hvss hs).2 hso, List.length_map] at this
          rw [Nat.ble_eq]; exact this
    rename_i e' he'
    cases he
    obtain ⟨s, hs, hse⟩ := mapE_err he'
    simp only [readSlot] at hse
    split at hse
    swap
    · split at hse
      · cases hse
      · split at hse <;> cases hse
      · cases hse
    rename_i e' he'
    cases hse
    obtain ⟨y, hy, hye⟩ := mapE_err he'
    cases hi : s.item with
    | objs alts =>
      rw [hi] at hye
      simp only [readItem] at hye
      split at hye
      · cases hye
      rename_i k' hk'
      split at hye
      · rename_i e' he'
        cases hye
        have hd := (select_depth hy).2 (moving k b hb s hs (by rw [hi]; rfl))
        exact ih (x := y) (by omega) (slot_closed hb hs hi hk') (fun k'' w b' hv => h k'' w b' (.step k x b s alts y k' k'' w hb hs hi hy hk' hv)) he'
      · cases hye
    | prim kk =>
      rw [hi] at hye
      simp only [readItem] at hye
      cases hr : readKind py kk y with
      | error e => rw [hr] at hye; cases hye
      | ok r => rw [hr] at hye; cases r <;> cases hye
    | attr a kk =>
      rw [hi] at hye
      simp only [readItem] at hye
      split at hye
      · cases hye
      · rename_i v hv
        cases hr : readAttr py strict kk v with
        | error e => rw [hr] at hye; cases hye
        | ok r => rw [hr] at hye; cases r <;> cases hye
    | name =>
      rw [hi] at hye
      simp only [readItem, hnm.text s hs hi y hy, if_false] at hye
      cases hye
    | guard tags g =>
      rw [hi] at hye
      simp only [readItem] at hye
      split at hye
      · cases hye
      · cases g <;> cases strict <;> cases hye
    | want t e =>
      rw [hi] at hye
      simp only [readItem] at hye
      split at hye <;> cases hye
    | crash e =>
      rw [hi] at hye
      cases hye

end
end Verif.Lemmas
