import Verif.Spec.Program
import Verif.Lemmas.BuiltFile
/-!
# Calls keep a document well typed
-/
namespace Verif.Lemmas
open Verif Verif.Model Verif.Spec

/-! ## Facts about the tables -/

/-- what is used of the attributes of a class -/
structure Tidy (T : Key → Option RBody) (b : RBody) : Prop where
  nameOnly : ∀ s ∈ b.slots, hits k!"short_name" s.key = true → s.item = .name
  apart : ∀ s ∈ b.slots, (s.named || s.one) = true → ∀ s' ∈ b.slots, s'.named = false →
    hits s.field s'.key = false ∧ hits (collection s.key) s'.key = false
  same : ∀ s ∈ b.slots, (s.named || s.one) = true → ∀ s' ∈ b.slots, s'.named = true → s.field = s'.field → s.elems = s'.elems ∧ s.one = s'.one
  oneField : ∀ s ∈ b.slots, s.one = true → s.field ≠ k!"elements"
  alts : ∀ s ∈ b.slots, ∀ al, s.item = .objs al → ∀ t t' k k' c c', altOf al t = some k → altOf al t' = some k' → T k = some c → T k' = some c' →
    c.cls = c'.cls → k = k'
  target : ∀ s ∈ b.slots, s.named = true → ∀ al, s.item = .objs al → ∀ t k c, altOf al t = some k → T k = some c →
    ∃ s', slotAt c (k!"short_name", false) = some s' ∧ s'.item = .name ∧ s'.named = false

def altsB (T : Key → Option RBody) (al : List (Key × Key)) : Bool :=
  let cs := al.map fun e => (e.2, (T e.2).map RBody.cls)
  cs.all fun x => cs.all fun y => x.1 == y.1 || x.2 != y.2

def tidyB (T : Key → Option RBody) (b : RBody) : Bool :=
  b.slots.all fun s =>
    (!hits k!"short_name" s.key || s.item == .name) &&
    (!(s.named || s.one) || b.slots.all fun s' => if s'.named then s.field != s'.field || (s.elems == s'.elems && s.one == s'.one)
      else !hits s.field s'.key && !hits (collection s.key) s'.key) &&
    (!s.one || s.field != k!"elements") &&
    (match s.item with
    | .objs al => altsB T al && (!s.named || al.all fun e => match T e.2 with
      | none => true
      | some c => match slotAt c (k!"short_name", false) with
        | none => false
        | some s' => s'.item == .name && !s'.named)
    | _ => true)

theorem altOf_elem {al : List (Key × Key)} {t k : Key} (h : altOf al t = some k) : (t, k) ∈ al := by
  induction al with
  | nil => cases h
  | cons e al ih =>
    obtain ⟨t', k'⟩ := e
    unfold altOf at h
    split at h
    next h' => cases h; subst h'; exact List.mem_cons_self
    next => exact List.mem_cons_of_mem _ (ih h)

theorem tidyB_sound {T : Key → Option RBody} {b : RBody} (h : tidyB T b = true) : Tidy T b := by
  have hs := fun s hs => List.all_eq_true.1 h s hs
  simp only [Bool.and_eq_true, Bool.or_eq_true, Bool.not_eq_true', beq_iff_eq, bne_iff_ne, ne_eq] at hs
  refine ⟨fun s m hh => ?_, fun s m hn s' m' hn' => ?_, fun s m hn s' m' hn' hf => ?_, fun s m ho => ?_, fun s m al hal t t' k k' c c' h1 h2 h3 h4 h5 => ?_,
    fun s m hn al hal t k c h1 h2 => ?_⟩
  · rcases (hs s m).1.1.1 with h | h
    · rw [hh] at h; cases h
    · exact h
  · rcases (hs s m).1.1.2 with h | h
    · rw [Bool.or_eq_true] at hn; simp_all
    · have := List.all_eq_true.1 h s' m'
      simp only [hn', Bool.false_eq_true, if_false, Bool.and_eq_true, Bool.not_eq_true'] at this
      exact this
  · rcases (hs s m).1.1.2 with h | h
    · rw [Bool.or_eq_true] at hn; simp_all
    · have := List.all_eq_true.1 h s' m'
      simp only [hn', if_true, Bool.or_eq_true, bne_iff_ne, ne_eq, Bool.and_eq_true, beq_iff_eq] at this
      rcases this with h | h
      · exact absurd hf h
      · exact h
  · rcases (hs s m).1.2 with h | h
    · rw [ho] at h; cases h
    · exact h
  · have := (hs s m).2
    rw [hal] at this
    simp only [Bool.and_eq_true] at this
    have := this.1
    unfold altsB at this
    have := List.all_eq_true.1 this (k, (T k).map RBody.cls) (List.mem_map.2 ⟨_, altOf_elem h1, rfl⟩)
    have := List.all_eq_true.1 this (k', (T k').map RBody.cls) (List.mem_map.2 ⟨_, altOf_elem h2, rfl⟩)
    simp only [Bool.or_eq_true, beq_iff_eq, bne_iff_ne, ne_eq, h3, h4, Option.map_some, h5, not_true_eq_false, or_false] at this
    exact this
  · have := (hs s m).2
    rw [hal] at this
    simp only [Bool.and_eq_true, hn, Bool.not_true, Bool.false_or] at this
    have := List.all_eq_true.1 this.2 (t, k) (altOf_elem h1)
    simp only [h2] at this
    split at this
    · cases this
    next s' hs' =>
      simp only [Bool.and_eq_true, beq_iff_eq, Bool.not_eq_true'] at this
      exact ⟨s', hs', this.1, this.2⟩

theorem readers_neatB : (Gen.readTable.all fun _ b => tidyB readers b) = true ∧ tidyB readers loadBody = true := by
  constructor <;> decide +kernel

theorem readers_neat {k : Key} {b : RBody} (h : readers k = some b) : Tidy readers b := by
  unfold readers at h
  split at h
  · cases h; exact tidyB_sound readers_neatB.2
  · exact tidyB_sound ((Bst.all_toList _ _).1 readers_neatB.1 _ (Bst.find?_mem h))

/-! ## Depth -/

theorem value_mono {py : Py} {M M' : Key → MObj py.F → Prop} (hM : ∀ k v, M k v → M' k v) {i : Item} {v : MObj py.F} (h : ValueOf M i v) : ValueOf M' i v := by
  cases i <;> first | exact h | skip
  obtain ⟨t, k, h1, h2⟩ := h
  exact ⟨t, k, h1, hM _ _ h2⟩

theorem typed_succ {py : Py} {T : Key → Option RBody} {n : Nat} {k : Key} {o : MObj py.F} (h : Typed T n k o) : Typed T (n + 1) k o := by
  induction n generalizing k o with
  | zero => cases h
  | succ n ih =>
    obtain ⟨b, vss, h1, h2, h3, h4⟩ := h
    exact ⟨b, vss, h1, h2, h3.imp fun _ _ h => ⟨fun v hv => value_mono (fun _ _ h => ih h) (h.kinds v hv), h.one⟩, h4⟩

theorem typed_mono {py : Py} {T : Key → Option RBody} {n m : Nat} (hm : n ≤ m) {k : Key} {o : MObj py.F} (h : Typed T n k o) : Typed T m k o := by
  induction hm with
  | refl => exact h
  | step _ ih => exact typed_succ ih

/-- finitely many values have a common depth -/
theorem values_depth {py : Py} {T : Key → Option RBody} {i : Item} (vs : List (MObj py.F)) (h : ∀ v ∈ vs, ValueOf (HasType T) i v) :
    ∃ n, ∀ v ∈ vs, ValueOf (Typed T n) i v := by
  induction vs with
  | nil => exact ⟨0, by simp⟩
  | cons v vs ih =>
    obtain ⟨n, hn⟩ := ih fun w hw => h w (List.mem_cons_of_mem _ hw)
    have hv := h v List.mem_cons_self
    have : ∃ m, ValueOf (Typed T m) i v := by
      cases i <;> first | exact ⟨0, hv⟩ | skip
      obtain ⟨t, k, h1, m, h2⟩ := hv
      exact ⟨m, t, k, h1, h2⟩
    obtain ⟨m, hm⟩ := this
    refine ⟨max n m, fun w hw => ?_⟩
    rcases List.mem_cons.1 hw with rfl | hw
    · exact value_mono (fun _ _ => typed_mono (Nat.le_max_right _ _)) hm
    · exact value_mono (fun _ _ => typed_mono (Nat.le_max_left _ _)) (hn w hw)

theorem slots_depth {py : Py} {T : Key → Option RBody} {ss : List RSlot} {vss : List (List (MObj py.F))}
    (h : List.Forall₂ (SlotTyped (HasType T)) ss vss) : ∃ n, List.Forall₂ (SlotTyped (Typed T n)) ss vss := by
  induction h with
  | nil => exact ⟨0, .nil⟩
  | cons h _ ih =>
    obtain ⟨n, hn⟩ := ih
    obtain ⟨m, hm⟩ := values_depth _ h.kinds
    refine ⟨max n m, .cons ⟨fun v hv => value_mono (fun _ _ => typed_mono (Nat.le_max_right _ _)) (hm v hv), h.one⟩ ?_⟩
    exact hn.imp fun _ _ h => ⟨fun v hv => value_mono (fun _ _ => typed_mono (Nat.le_max_left _ _)) (h.kinds v hv), h.one⟩

/-- `HasType` without the depth -/
theorem hasType_iff {py : Py} {T : Key → Option RBody} {k : Key} {o : MObj py.F} : HasType T k o ↔
    ∃ b vss, T k = some b ∧ o = .mk b.cls ((b.slots.map RSlot.key).zip vss) ∧ List.Forall₂ (SlotTyped (HasType T)) b.slots vss ∧
      namesOk b.slots o = true := by
  constructor
  · rintro ⟨n, h⟩
    cases n with
    | zero => cases h
    | succ n =>
      obtain ⟨b, vss, h1, h2, h3, h4⟩ := h
      exact ⟨b, vss, h1, h2, h3.imp fun _ _ h => ⟨fun v hv => value_mono (fun _ _ h => ⟨n, h⟩) (h.kinds v hv), h.one⟩, h4⟩
  · rintro ⟨b, vss, h1, h2, h3, h4⟩
    obtain ⟨n, hn⟩ := slots_depth h3
    exact ⟨n + 1, b, vss, h1, h2, hn, h4⟩

/-! ## Changing an attribute -/

theorem change_slots {py : Py} {R : RSlot → List (MObj py.F) → Prop} {a : Key × Bool} {g : List (MObj py.F) → List (MObj py.F)} {ss : List RSlot}
    {vss : List (List (MObj py.F))} (h : List.Forall₂ R ss vss)
    (hg : ∀ s, ss.find? (fun s => s.key == a) = some s → R s (valsAt a ((ss.map RSlot.key).zip vss)) → R s (g (valsAt a ((ss.map RSlot.key).zip vss)))) :
    ∃ vss', changeAt a g ((ss.map RSlot.key).zip vss) = (ss.map RSlot.key).zip vss' ∧ List.Forall₂ R ss vss' := by
  induction h with
  | nil => exact ⟨[], rfl, .nil⟩
  | @cons s vs ss vss hs hr ih =>
    simp only [List.map_cons, List.zip_cons_cons, changeAt, valsAt, List.find?_cons] at hg ⊢
    by_cases h : s.key = a
    · simp only [h, if_true, beq_self_eq_true, Option.some.injEq] at hg ⊢
      exact ⟨g vs :: vss, by rw [List.zip_cons_cons], .cons (hg s rfl hs) hr⟩
    · have hb : (s.key == a) = false := by simpa using h
      simp only [h, if_false, hb] at hg ⊢
      obtain ⟨vss', h1, h2⟩ := ih hg
      exact ⟨vs :: vss', by rw [h1, List.zip_cons_cons], .cons hs h2⟩

theorem vals_slot {py : Py} {R : RSlot → List (MObj py.F) → Prop} {a : Key × Bool} {ss : List RSlot} {vss : List (List (MObj py.F))}
    (h : List.Forall₂ R ss vss) {s : RSlot} (hs : ss.find? (fun s => s.key == a) = some s) : R s (valsAt a ((ss.map RSlot.key).zip vss)) := by
  induction h with
  | nil => cases hs
  | @cons s' vs ss vss h' hr ih =>
    simp only [List.map_cons, List.zip_cons_cons, valsAt, List.find?_cons] at hs ⊢
    by_cases h : s'.key = a
    · simp only [h, if_true, beq_self_eq_true, Option.some.injEq] at hs ⊢
      exact hs ▸ h'
    · have hb : (s'.key == a) = false := by simpa using h
      simp only [h, if_false, hb] at hs ⊢
      exact ih hs

section
variable {F : Type}

/-- the values seen under a name that does not show the attribute -/
theorem get_change_miss {a : Key × Bool} {g : List (MObj F) → List (MObj F)} {f : Key} (h : hits f a = false) (o : MObj F) :
    (o.change a g).get f = o.get f := by
  cases o with
  | scal s => rfl
  | mk c fs =>
    show (changeAt a g fs).flatMap _ = fs.flatMap _
    induction fs with
    | nil => rfl
    | cons e fs ih =>
      obtain ⟨k, vs⟩ := e
      unfold changeAt
      split
      next h' => subst h'; simp [List.flatMap_cons, h]
      next => simp only [List.flatMap_cons, ih]

/-- the values seen under a name after something was appended -/
theorem get_change_append {a : Key × Bool} {v : MObj F} {f : Key} (o : MObj F) (hf : hits f a = true) :
    (o.change a fun vs => vs ++ [v]).get f = o.get f ∨ ∃ l r, o.get f = l ++ r ∧ (o.change a fun vs => vs ++ [v]).get f = l ++ v :: r := by
  cases o with
  | scal s => exact .inl rfl
  | mk c fs =>
    show (changeAt a _ fs).flatMap _ = fs.flatMap _ ∨ ∃ l r, fs.flatMap _ = l ++ r ∧ (changeAt a _ fs).flatMap _ = l ++ v :: r
    induction fs with
    | nil => exact .inl rfl
    | cons e fs ih =>
      obtain ⟨k, vs⟩ := e
      unfold changeAt
      split
      next h' =>
        subst h'
        refine .inr ⟨vs, fs.flatMap fun e => if hits f e.1 then e.2 else [], ?_, ?_⟩
        · simp only [List.flatMap_cons, hf, if_true]
        · simp only [List.flatMap_cons, hf, if_true, List.append_assoc, List.singleton_append]
      next =>
        simp only [List.flatMap_cons]
        rcases ih with ih | ⟨l, r, h1, h2⟩
        · exact .inl (by rw [ih])
        · exact .inr ⟨_, r, by rw [h1, ← List.append_assoc], by rw [h2, ← List.append_assoc]⟩

/-- the values seen under a name after some were taken out -/
theorem get_change_sub {a : Key × Bool} {g : List (MObj F) → List (MObj F)} (hg : ∀ vs, List.Sublist (g vs) vs) {f : Key} (o : MObj F) :
    List.Sublist ((o.change a g).get f) (o.get f) := by
  cases o with
  | scal s => exact List.Sublist.refl _
  | mk c fs =>
    show List.Sublist ((changeAt a g fs).flatMap _) (fs.flatMap _)
    induction fs with
    | nil => exact List.Sublist.refl _
    | cons e fs ih =>
      obtain ⟨k, vs⟩ := e
      unfold changeAt
      split
      · simp only [List.flatMap_cons]
        refine List.Sublist.append ?_ (List.Sublist.refl _)
        split
        · exact hg vs
        · exact List.Sublist.refl _
      · simp only [List.flatMap_cons]
        exact List.Sublist.append (List.Sublist.refl _) ih

theorem dropNamed_sub (n : Str) (l : List (MObj F)) : List.Sublist (dropNamed n l) l := by
  induction l with
  | nil => exact List.Sublist.refl _
  | cons v l ih =>
    unfold dropNamed
    split
    · exact List.sublist_cons_self v l
    · exact ih.cons_cons v

theorem map_set_same {α β : Type} (q : α → β) {l : List α} {i : Nat} {v v' : α} (h : l[i]? = some v) (hq : q v' = q v) : (l.set i v').map q = l.map q := by
  induction l generalizing i with
  | nil => rfl
  | cons w l ih =>
    cases i with
    | zero =>
      simp only [List.getElem?_cons_zero, Option.some.injEq] at h
      subst h
      simp only [List.set_cons_zero, List.map_cons, hq]
    | succ i =>
      simp only [List.getElem?_cons_succ] at h
      simp only [List.set_cons_succ, List.map_cons, ih h]

/-- the values seen under a name after one was exchanged for one with the same name -/
theorem get_change_set {a : Key × Bool} {i : Nat} {v v' : MObj F} (o : MObj F) (hv : (o.vals a)[i]? = some v) {β : Type} (q : MObj F → β) (hq : q v' = q v)
    (f : Key) : ((o.change a fun vs => vs.set i v').get f).map q = (o.get f).map q := by
  cases o with
  | scal s => rfl
  | mk c fs =>
    replace hv : (valsAt a fs)[i]? = some v := hv
    show ((changeAt a _ fs).flatMap _).map q = (fs.flatMap _).map q
    induction fs with
    | nil => rfl
    | cons e fs ih =>
      obtain ⟨k, vs⟩ := e
      unfold changeAt
      unfold valsAt at hv
      split at hv
      next h' =>
        subst h'
        simp only [if_true, List.flatMap_cons, List.map_append]
        congr 1
        split
        · exact map_set_same q hv hq
        · rfl
      next h' =>
        simp only [h', if_false, List.flatMap_cons, List.map_append, ih hv]

theorem vals_nil {a : Key × Bool} {f : Key} (hf : hits f a = true) {o : MObj F} (h : o.get f = []) : o.vals a = [] := by
  cases o with
  | scal s => rfl
  | mk c fs =>
    replace h : fs.flatMap (fun e => if hits f e.1 then e.2 else []) = [] := h
    show valsAt a fs = []
    induction fs with
    | nil => rfl
    | cons e fs ih =>
      obtain ⟨k, vs⟩ := e
      rw [List.flatMap_cons, List.append_eq_nil_iff] at h
      unfold valsAt
      split
      next h' => subst h'; simpa [hf] using h.1
      next => exact ih h.2

theorem cls_change (a : Key × Bool) (g : List (MObj F) → List (MObj F)) (o : MObj F) : (o.change a g).cls = o.cls := by
  cases o <;> rfl

theorem name_change {a : Key × Bool} (h : hits k!"short_name" a = false) (g : List (MObj F) → List (MObj F)) (o : MObj F) : (o.change a g).name = o.name := by
  unfold MObj.name
  rw [get_change_miss h]

theorem namesOk_iff {ss : List RSlot} {o : MObj F} : namesOk ss o = true ↔ ∀ s ∈ ss,
    (s.named = true → ((o.get (collection s.key)).map MObj.name).Nodup) ∧ (s.one = true → (o.get s.field).length ≤ 1) := by
  unfold namesOk
  rw [List.all_eq_true]
  refine forall_congr' fun s => forall_congr' fun _ => ?_
  rw [Bool.and_eq_true, Bool.or_eq_true, Bool.or_eq_true, Bool.not_eq_true', Bool.not_eq_true', decide_eq_true_eq, Nat.ble_eq]
  constructor
  · rintro ⟨h1, h2⟩
    exact ⟨fun h => h1.resolve_left (by simp [h]), fun h => h2.resolve_left (by simp [h])⟩
  · rintro ⟨h1, h2⟩
    constructor
    · cases h : s.named
      · exact .inl rfl
      · exact .inr (h1 h)
    · cases h : s.one
      · exact .inl rfl
      · exact .inr (h2 h)

end

theorem slotAt_mem {b : RBody} {a : Key × Bool} {s : RSlot} (h : slotAt b a = some s) : s ∈ b.slots ∧ s.key = a :=
  ⟨List.mem_of_find?_eq_some h, by have := List.find?_some h; simpa using this⟩

section
variable {py : Py} {T : Key → Option RBody}

theorem hasType_change {k : Key} {b : RBody} {o : MObj py.F} (ho : HasType T k o) (hb : T k = some b) {a : Key × Bool} {g : List (MObj py.F) → List (MObj py.F)}
    (hg : ∀ s, slotAt b a = some s → SlotTyped (HasType T) s (o.vals a) → SlotTyped (HasType T) s (g (o.vals a)))
    (hn : namesOk b.slots (o.change a g) = true) : HasType T k (o.change a g) := by
  obtain ⟨b', vss, h1, rfl, h3, h4⟩ := hasType_iff.1 ho
  rw [hb] at h1
  cases h1
  obtain ⟨vss', h5, h6⟩ := change_slots h3 hg
  refine hasType_iff.2 ⟨b, vss', hb, ?_, h6, hn⟩
  show MObj.mk b.cls (changeAt a g _) = _
  rw [h5]

theorem hasType_names {k : Key} {b : RBody} {o : MObj py.F} (ho : HasType T k o) (hb : T k = some b) : namesOk b.slots o = true ∧ o.cls = b.cls := by
  obtain ⟨b', vss, h1, rfl, h3, h4⟩ := hasType_iff.1 ho
  rw [hb] at h1
  cases h1
  exact ⟨h4, rfl⟩

/-- an attribute whose values are not created by name does not matter for the names -/
theorem names_unnamed {b : RBody} (hb : Tidy T b) {o : MObj py.F} (hn : namesOk b.slots o = true) {a : Key × Bool} {s : RSlot} (hs : slotAt b a = some s)
    (hu : s.named = false) (g : List (MObj py.F) → List (MObj py.F)) : namesOk b.slots (o.change a g) = true := by
  obtain ⟨hm, rfl⟩ := slotAt_mem hs
  rw [namesOk_iff] at hn ⊢
  refine fun s' hs' => ⟨fun h => ?_, fun h => ?_⟩
  · rw [get_change_miss (hb.apart s' hs' (by simp [h]) s hm hu).2]
    exact (hn s' hs').1 h
  · rw [get_change_miss (hb.apart s' hs' (by simp [h]) s hm hu).1]
    exact (hn s' hs').2 h

theorem get_blank (b : RBody) (f : Key) : (blankOf py b).get f = [] := by
  show List.flatMap _ _ = []
  rw [List.flatMap_eq_nil_iff]
  intro e he
  obtain ⟨k, _, rfl⟩ := List.mem_map.1 he
  simp

theorem blank_typed {k : Key} {b : RBody} (hb : T k = some b) : HasType T k (blankOf py b) := by
  refine hasType_iff.2 ⟨b, b.slots.map fun _ => [], hb, ?_, ?_, ?_⟩
  · show MObj.mk _ _ = MObj.mk _ _
    congr 1
    induction b.slots with
    | nil => rfl
    | cons s l ih => simp only [List.map_cons, List.zip_cons_cons, ih]
  · induction b.slots with
    | nil => exact .nil
    | cons s l ih => exact .cons ⟨by simp, by simp⟩ ih
  · rw [namesOk_iff]
    refine fun s _ => ⟨fun _ => ?_, fun _ => ?_⟩ <;> simp [get_blank]

theorem valsAt_blank (a : Key × Bool) (l : List (Key × Bool)) : valsAt a (l.map fun k => (k, ([] : List (MObj py.F)))) = [] := by
  induction l with
  | nil => rfl
  | cons k l ih =>
    simp only [List.map_cons, valsAt, ih, ite_self]

theorem named_typed (hT : ∀ k b, T k = some b → Tidy T b) {k : Key} {b : RBody} (hb : T k = some b) {s' : RSlot}
    (hs : slotAt b (k!"short_name", false) = some s') (hi : s'.item = .name) (hu : s'.named = false) {n : Str} (hn : n ≠ []) :
    HasType T k (namedObj py b n) := by
  refine hasType_change (blank_typed hb) hb ?_ (names_unnamed (hT k b hb) (hasType_names (blank_typed hb) hb).1 hs hu _)
  intro s h _
  rw [hs] at h
  cases h
  refine ⟨fun v hv => ?_, fun _ => by simp⟩
  rw [hi]
  simp only [List.mem_singleton] at hv
  exact ⟨n, hn, hv⟩

theorem named_cls (b : RBody) (n : Str) : (namedObj py b n).cls = b.cls := cls_change _ _ _

theorem get_change_first {F : Type} {a : Key × Bool} {vs : List (MObj F)} {f : Key} (hf : hits f a = true) {c : Key} {l : List (Key × Bool)} (ha : a ∈ l) :
    ((MObj.mk c (l.map fun k => (k, []))).change a fun _ => vs).get f = vs := by
  show (changeAt a _ (l.map _)).flatMap _ = vs
  induction l with
  | nil => cases ha
  | cons k l ih =>
    simp only [List.map_cons, changeAt]
    split
    next h =>
      subst h
      have : (l.map fun k => (k, ([] : List (MObj F)))).flatMap (fun e => if hits f e.1 then e.2 else []) = [] := by
        rw [List.flatMap_eq_nil_iff]
        intro e he
        obtain ⟨k, _, rfl⟩ := List.mem_map.1 he
        simp
      simp only [List.flatMap_cons, hf, if_true, this, List.append_nil]
    next h =>
      simp only [List.flatMap_cons, ite_self, List.nil_append]
      exact ih ((List.mem_cons.1 ha).resolve_left fun h' => h h'.symm)

theorem named_name {b : RBody} {s' : RSlot} (hs : slotAt b (k!"short_name", false) = some s') (n : Str) : (namedObj py b n).name = n := by
  have h := slotAt_mem hs
  have : (namedObj py b n).get k!"short_name" = [.scal (.str n)] :=
    get_change_first (by decide) (h.2 ▸ List.mem_map_of_mem h.1)
  unfold MObj.name
  rw [this]
  rfl

theorem collection_eq {a a2 : Key × Bool} (hh : hits (collection a2) a = true) (h : a.2 = true → a2.2 = false → a2.1 = a.1 → False) :
    collection a2 = collection a := by
  obtain ⟨f, e⟩ := a
  obtain ⟨f2, e2⟩ := a2
  unfold hits collection at hh
  unfold collection
  simp only [Bool.or_eq_true, beq_iff_eq, Bool.and_eq_true] at hh
  cases e <;> cases e2 <;> simp only [Bool.false_eq_true, if_false, if_true, false_and, or_false, true_and, or_true] at hh ⊢
  · exact hh.symm
  · exact hh.symm
  · rcases hh with hh | hh
    · exact absurd (h rfl rfl hh.symm) not_false
    · exact hh

/-- **One call keeps a document well typed.** -/
theorem step_typed (hT : ∀ k b, T k = some b → Tidy T b) {k : Key} {o o' : MObj py.F} (h : Step T k o o') (ho : HasType T k o) :
    HasType T k o' ∧ o'.cls = o.cls ∧ o'.name = o.name := by
  induction h with
  | @here k b o c hb hc =>
    have ht := hT k b hb
    have hn := (hasType_names ho hb).1
    cases c with
    | set a v =>
      obtain ⟨s, hs, hu, hi, hl, hv⟩ := hc
      refine ⟨hasType_change ho hb ?_ (names_unnamed ht hn hs hu _), cls_change _ _ _, name_change ?_ _ _⟩
      · intro s' hs' _
        rw [hs] at hs'
        cases hs'
        exact ⟨fun w hw => by rw [List.mem_singleton] at hw; exact hw ▸ hv, fun _ => by simp⟩
      · obtain ⟨hm, rfl⟩ := slotAt_mem hs
        exact Bool.eq_false_iff.2 fun h => hi (ht.nameOnly s hm h)
    | add a v =>
      obtain ⟨s, hs, hu, hi, hl, hv⟩ := hc
      refine ⟨hasType_change ho hb ?_ (names_unnamed ht hn hs hu _), cls_change _ _ _, name_change ?_ _ _⟩
      · intro s' hs' h
        rw [hs] at hs'
        cases hs'
        refine ⟨fun w hw => ?_, fun h' => ?_⟩
        · rcases List.mem_append.1 hw with hw | hw
          · exact h.kinds w hw
          · rw [List.mem_singleton] at hw; exact hw ▸ hv
        · unfold RSlot.isList at hl
          rw [Bool.or_eq_true] at h'
          rcases h' with h' | h' <;> rw [h'] at hl <;> simp at hl
      · obtain ⟨hm, rfl⟩ := slotAt_mem hs
        exact Bool.eq_false_iff.2 fun h => hi (ht.nameOnly s hm h)
    | create a k' n =>
      obtain ⟨s, alts, t, b', hs, hnm, hi, hal, hb', hne, hcase⟩ := hc
      have hrun : (Deed.create a k' n).run py T o = if (o.get (collection a)).any (isIt b'.cls n) then o else o.change a fun vs => vs ++ [namedObj py b' n] := by
        show (match T k' with | none => o | some b => _) = _
        rw [hb']
      rw [hrun]
      split
      · exact ⟨ho, rfl, rfl⟩
      next hany =>
        have hcase := hcase.resolve_left fun h => hany (List.any_eq_true.2 h.2)
        obtain ⟨hm, rfl⟩ := slotAt_mem hs
        obtain ⟨s', hs', hsi, hsu⟩ := ht.target s hm hnm alts hi t k' b' hal hb'
        refine ⟨hasType_change ho hb ?_ ?_, cls_change _ _ _, name_change ?_ _ _⟩
        · intro s2 hs2 h
          rw [hs] at hs2
          cases hs2
          refine ⟨fun w hw => ?_, fun h' => ?_⟩
          · rcases List.mem_append.1 hw with hw | hw
            · exact h.kinds w hw
            · rw [List.mem_singleton] at hw
              rw [hw, hi]
              exact ⟨t, k', hal, named_typed hT hb' hs' hsi hsu hne⟩
          · have := hcase.2 (by rw [Bool.or_eq_true]; exact .inl h')
            have : o.vals s.key = [] := vals_nil (f := s.key.1) (by simp [hits]) this
            rw [this]
            simp
        · rw [namesOk_iff] at hn ⊢
          refine fun s2 hs2 => ⟨fun h2 => ?_, fun h2 => ?_⟩
          · cases hh : hits (collection s2.key) s.key
            · rw [get_change_miss hh]; exact (hn s2 hs2).1 h2
            · have hcol : collection s2.key = collection s.key := by
                exact collection_eq hh fun h5 h6 h7 => by
                  have := (ht.same s2 hs2 (by simp [h2]) s hm hnm h7).1
                  simp only [RSlot.key] at h5 h6
                  rw [h5, h6] at this
                  cases this
              rcases get_change_append (v := namedObj py b' n) o hh with h3 | ⟨l, r, h3, h4⟩
              · rw [h3]; exact (hn s2 hs2).1 h2
              · have hnd := (hn s2 hs2).1 h2
                rw [h4]
                rw [h3] at hnd
                rw [List.map_append] at hnd
                rw [List.map_append, List.map_cons, List.nodup_middle, List.nodup_cons, named_name hs']
                refine ⟨fun hmem => ?_, hnd⟩
                rw [← List.map_append, ← h3, hcol] at hmem
                obtain ⟨v, hv, hvn⟩ := List.mem_map.1 hmem
                exact hcase.1 v hv hvn
          · cases hh : hits s2.field s.key
            · rw [get_change_miss hh]; exact (hn s2 hs2).2 h2
            · have hf : s2.field = s.field := by
                unfold hits at hh
                rw [Bool.or_eq_true, Bool.and_eq_true, beq_iff_eq, beq_iff_eq] at hh
                rcases hh with hh | hh
                · exact hh.symm
                · exact absurd hh.2 (ht.oneField s2 hs2 h2)
              have h1 := (ht.same s2 hs2 (by simp [h2]) s hm hnm hf).2
              have := hcase.2 (by rw [← h1, h2]; simp)
              rcases get_change_append (v := namedObj py b' n) o hh with h3 | ⟨l, r, h3, h4⟩
              · rw [h3]; exact (hn s2 hs2).2 h2
              · rw [hf] at h3
                have h5 : l ++ r = [] := by rw [← h3]; exact this
                rw [h4]
                have h6 := congrArg List.length h5
                simp only [List.length_append, List.length_nil, List.length_cons] at h6 ⊢
                omega
        · exact Bool.eq_false_iff.2 fun h => by
            have := ht.nameOnly s hm h
            rw [hi] at this
            cases this
    | unset a =>
      obtain ⟨s, hs, hu, hi, hl⟩ := hc
      refine ⟨hasType_change ho hb ?_ (names_unnamed ht hn hs hu _), cls_change _ _ _, name_change ?_ _ _⟩
      · intro s' _ _
        exact ⟨fun w hw => absurd hw (by simp), fun _ => by simp⟩
      · obtain ⟨hm, rfl⟩ := slotAt_mem hs
        exact Bool.eq_false_iff.2 fun h => hi (ht.nameOnly s hm h)
    | remove a n =>
      obtain ⟨_, s, alts, hs, hu, hi, _, _⟩ := hc
      refine ⟨hasType_change ho hb ?_ ?_, cls_change _ _ _, name_change ?_ _ _⟩
      · intro s' _ h
        exact ⟨fun w hw => h.kinds w ((dropNamed_sub n _).subset hw), fun h' => le_trans (dropNamed_sub n _).length_le (h.one h')⟩
      · rw [namesOk_iff] at hn ⊢
        refine fun s2 hs2 => ⟨fun h2 => ?_, fun h2 => ?_⟩
        · exact ((get_change_sub (dropNamed_sub n) o).map _).nodup ((hn s2 hs2).1 h2)
        · exact le_trans (get_change_sub (dropNamed_sub n) o).length_le ((hn s2 hs2).2 h2)
      · obtain ⟨hm, rfl⟩ := slotAt_mem hs
        exact Bool.eq_false_iff.2 fun h => by
          have := ht.nameOnly s hm h
          rw [hi] at this
          cases this
  | @inside k b o v v' a s alts t k' b' i hb hs ha hal hb' hv hc _ ih =>
    have ht := hT k b hb
    have hn := (hasType_names ho hb).1
    obtain ⟨hm, rfl⟩ := slotAt_mem hs
    obtain ⟨b0, vss, h1, h2, h3, h4⟩ := hasType_iff.1 ho
    rw [hb] at h1
    cases h1
    have hslot : SlotTyped (HasType T) s (o.vals s.key) := by
      rw [h2]
      exact vals_slot h3 hs
    have hval := hslot.kinds v (List.mem_of_getElem? hv)
    rw [ha] at hval
    obtain ⟨t2, k2, hal2, hty⟩ := hval
    have hk : k2 = k' := by
      obtain ⟨b2, _, hb2, hv2, _⟩ := hasType_iff.1 hty
      refine ht.alts s hm alts ha t2 t k2 k' b2 b' hal2 hal hb2 hb' ?_
      rw [← hc, hv2]
      rfl
    subst hk
    obtain ⟨i1, i2, i3⟩ := ih hty
    refine ⟨hasType_change ho hb ?_ ?_, cls_change _ _ _, name_change ?_ _ _⟩
    · intro s2 hs2 h
      rw [hs] at hs2
      cases hs2
      refine ⟨fun w hw => ?_, fun h' => by simpa using h.one h'⟩
      rcases List.mem_or_eq_of_mem_set hw with hw | rfl
      · exact h.kinds w hw
      · rw [ha]; exact ⟨t, k2, hal, i1⟩
    · rw [namesOk_iff] at hn ⊢
      refine fun s2 hs2 => ⟨fun h2 => ?_, fun h2 => ?_⟩
      · rw [get_change_set o hv MObj.name i3]
        exact (hn s2 hs2).1 h2
      · have := congrArg List.length (get_change_set (v' := v') o hv (fun _ => ()) rfl s2.field)
        rw [List.length_map, List.length_map] at this
        rw [this]
        exact (hn s2 hs2).2 h2
    · exact Bool.eq_false_iff.2 fun h => by
        have := ht.nameOnly s hm h
        rw [ha] at this
        cases this

/-! ## What calls do -/

theorem valsAt_changeAt {F : Type} {a : Key × Bool} {g : List (MObj F) → List (MObj F)} {l : List ((Key × Bool) × List (MObj F))} (h : a ∈ l.map Prod.fst) :
    valsAt a (changeAt a g l) = g (valsAt a l) := by
  induction l with
  | nil => cases h
  | cons e l ih =>
    obtain ⟨k, vs⟩ := e
    unfold changeAt
    split
    next h' => subst h'; simp only [valsAt, if_true]
    next h' =>
      simp only [valsAt, h', if_false]
      exact ih ((List.mem_cons.1 h).resolve_left fun h2 => h' h2.symm)

theorem vals_get {F : Type} {a : Key × Bool} {f : Key} (hf : hits f a = true) {o : MObj F} {v : MObj F} (hv : v ∈ o.vals a) : v ∈ o.get f := by
  cases o with
  | scal s => cases hv
  | mk c fs =>
    replace hv : v ∈ valsAt a fs := hv
    show v ∈ fs.flatMap _
    induction fs with
    | nil => cases hv
    | cons e fs ih =>
      obtain ⟨k, vs⟩ := e
      unfold valsAt at hv
      rw [List.flatMap_cons, List.mem_append]
      split at hv
      next h' => subst h'; exact .inl (by simpa [hf] using hv)
      next => exact .inr (ih hv)

theorem vals_sub {F : Type} {a : Key × Bool} {f : Key} (hf : hits f a = true) (o : MObj F) : List.Sublist (o.vals a) (o.get f) := by
  cases o with
  | scal s => exact List.Sublist.refl _
  | mk c fs =>
    show List.Sublist (valsAt a fs) (fs.flatMap _)
    induction fs with
    | nil => exact List.Sublist.refl _
    | cons e fs ih =>
      obtain ⟨k, vs⟩ := e
      unfold valsAt
      rw [List.flatMap_cons]
      split
      next h' => subst h'; simp only [hf, if_true]; exact List.sublist_append_left _ _
      next => exact ih.trans (List.sublist_append_right _ _)

/-- a well typed object has the attribute -/
theorem vals_change {k : Key} {b : RBody} {o : MObj py.F} (ho : HasType T k o) (hb : T k = some b) {a : Key × Bool} {s : RSlot} (hs : slotAt b a = some s)
    (g : List (MObj py.F) → List (MObj py.F)) : (o.change a g).vals a = g (o.vals a) := by
  obtain ⟨b', vss, h1, rfl, h3, _⟩ := hasType_iff.1 ho
  rw [hb] at h1
  cases h1
  refine valsAt_changeAt ?_
  show a ∈ ((b.slots.map RSlot.key).zip vss).map Prod.fst
  rw [List.map_fst_zip (by rw [List.length_map, h3.length_eq])]
  have h := slotAt_mem hs
  exact h.2 ▸ List.mem_map_of_mem h.1

theorem hits_collection (a : Key × Bool) : hits (collection a) a = true := by
  obtain ⟨f, e⟩ := a
  cases e <;> simp [hits, collection]

/-! ## Complete documents -/

theorem shaped_of {strict : Bool} {I : Key → List Need} {n : Nat} {k : Key} {o : MObj py.F} (h : Typed T n k o) (hc : CompleteTo T strict I n k o) :
    Shaped strict T I n k o := by
  induction n generalizing k o with
  | zero => cases h
  | succ n ih =>
    obtain ⟨b, vss, h1, rfl, h3, h4⟩ := h
    obtain ⟨c1, c2⟩ := hc b h1
    refine ⟨b, vss, h1, rfl, ?_, h4, c1⟩
    have hl : (b.slots.map RSlot.key).length = vss.length := by rw [List.length_map]; exact h3.length_eq
    have hf : (((b.slots.map RSlot.key).zip vss).map Prod.snd) = vss := List.map_snd_zip (by rw [hl])
    change ∀ e ∈ b.slots.zip (((b.slots.map RSlot.key).zip vss).map Prod.snd), _ at c2
    rw [hf] at c2
    rw [List.forall₂_iff_zip] at h3 ⊢
    refine ⟨h3.1, fun {s vs} hsv => ?_⟩
    have h5 := h3.2 hsv
    obtain ⟨c3, c4⟩ := c2 _ hsv
    refine ⟨fun v hv => ?_, h5.one, c3⟩
    have h6 := h5.kinds v hv
    cases hi : s.item <;> rw [hi] at h6 <;> first | exact h6 | skip
    next alts =>
    obtain ⟨t, k', h7, h8⟩ := h6
    refine ⟨t, k', h7, ih h8 ?_⟩
    cases n with
    | zero => cases h8
    | succ n =>
      obtain ⟨b', _, h9, h10, _⟩ := h8
      exact c4 v hv alts t k' b' hi h7 h9 (by rw [h10]; rfl)

theorem typed_of {strict : Bool} {I : Key → List Need} {n : Nat} {k : Key} {o : MObj py.F} (h : Shaped strict T I n k o) : Typed T n k o := by
  induction n generalizing k o with
  | zero => cases h
  | succ n ih =>
    obtain ⟨b, vss, h1, h2, h3, h4, _⟩ := h
    exact ⟨b, vss, h1, h2, h3.imp fun _ _ h => ⟨fun v hv => value_mono (fun _ _ h => ih h) (h.kinds v hv), h.one⟩, h4⟩

theorem complete_of (hT : ∀ k b, T k = some b → Tidy T b) {strict : Bool} {I : Key → List Need} {n : Nat} {k : Key} {o : MObj py.F}
    (h : Shaped strict T I n k o) : Complete T strict I k o := by
  intro m
  induction m generalizing n k o with
  | zero => trivial
  | succ m ih =>
    cases n with
    | zero => cases h
    | succ n =>
    obtain ⟨b, vss, h1, rfl, h3, h4, h5⟩ := h
    intro b0 hb0
    rw [h1] at hb0
    cases hb0
    refine ⟨h5, fun e he => ?_⟩
    have hl : (b.slots.map RSlot.key).length = vss.length := by rw [List.length_map]; exact h3.length_eq
    have hf : (((b.slots.map RSlot.key).zip vss).map Prod.snd) = vss := List.map_snd_zip (by rw [hl])
    change e ∈ b.slots.zip (((b.slots.map RSlot.key).zip vss).map Prod.snd) at he
    rw [hf] at he
    rw [List.forall₂_iff_zip] at h3
    have h6 := h3.2 he
    refine ⟨h6.set, fun v hv alts t k' b' hi ht hb' hc => ?_⟩
    have h7 := h6.kinds v hv
    rw [hi] at h7
    obtain ⟨t2, k2, h8, h9⟩ := h7
    have : k2 = k' := by
      have h9' := typed_of h9
      obtain ⟨b2, _, hb2, hv2, _⟩ := hasType_iff.1 ⟨_, h9'⟩
      refine (hT _ _ h1).alts e.1 (List.of_mem_zip he).1 alts hi t2 t k2 k' b2 b' h8 ht hb2 hb' ?_
      rw [← hc, hv2]
      rfl
    exact this ▸ ih h9

theorem clear_typed {k : Key} {o : MObj py.F} {b : RBody} (hb : T k = some b) (h : HasType T k o) : clearDoc py o = blankOf py b := by
  obtain ⟨b', vss, h1, rfl, h3, _⟩ := hasType_iff.1 h
  rw [hb] at h1
  cases h1
  show MObj.mk _ _ = MObj.mk _ _
  congr 1
  show List.map _ ((b.slots.map RSlot.key).zip vss) = _
  have hl : (b.slots.map RSlot.key).length = vss.length := by rw [List.length_map]; exact h3.length_eq
  conv_rhs => rw [← List.map_fst_zip (l₁ := b.slots.map RSlot.key) (l₂ := vss) (by rw [hl]), List.map_map]
  rfl

/-- **Merging.**  A well-typed object still is after more was read into it, whether it was complete or not. -/
theorem into_typed {strict : Bool} {n N : Nat} (hN : n ≤ N) {k : Key} {o : Option (MObj py.F)} {x : Xml} {r : MObj py.F}
    (h : intoObj py strict readers overs n k o x = .ok r) (ho : ∀ v, o = some v → Typed readers N k v) : Typed readers N k r := by
  induction n generalizing N k o x r with
  | zero => cases h
  | succ n ih =>
    obtain ⟨m, b, hm, hb, h⟩ := intoObj_succ h
    cases hm
    obtain ⟨N, rfl⟩ : ∃ N', N = N' + 1 := ⟨N - 1, by omega⟩
    obtain ⟨olds, vss, hod, hlen, hz, rfl, hnames⟩ := intoBody_ok h
    have hold : List.Forall₂ (OldFits (Typed readers N)) b.slots olds := by
      cases o with
      | none =>
        have : olds = b.slots.map fun _ => [] := by
          simp only [Option.getD_none, blankOf, MObj.mk.injEq, true_and, List.map_map] at hod
          have := congrArg (List.map Prod.snd) hod
          rw [List.map_snd_zip (by simp [hlen])] at this
          rw [← this, List.map_map]
          rfl
        subst this
        clear hod hlen hz hnames
        induction b.slots with
        | nil => exact .nil
        | cons s l ih => exact .cons ⟨by simp, by simp⟩ ih
      | some v =>
        obtain ⟨b', vs', hb', rfl, hs, _⟩ := ho v rfl
        rw [hb] at hb'
        cases hb'
        simp only [Option.getD_some, MObj.mk.injEq, true_and] at hod
        obtain rfl := zip_right hod (by simp [hs.length_eq]) (by simp [hlen])
        exact hs.imp fun _ _ h => ⟨h.kinds, h.one⟩
    refine ⟨b, vss, hb, rfl, (zip_fits (apart k b hb) (fun k v hv => ?_) ?_ ?_ hold hz).imp fun _ _ h => ⟨h.kinds, h.one⟩, hnames⟩
    · obtain ⟨b2, _, hb2, hv2, _⟩ := hasType_iff.1 ⟨_, hv⟩
      rw [hb2, hv2]
      rfl
    · intro k y u hu
      exact ih (by omega) hu (fun v hv => by cases hv)
    · intro k b y v u hkb hn hv hu
      exact ih (by omega) hu (fun w hw => by cases hw; exact hv)

theorem loadInto_typed {strict : Bool} {d d' : MObj py.F} {x : Xml} (h : loadInto py strict d x = .ok d')
    (hd : HasType readers k!"load" d) : HasType readers k!"load" d' := by
  obtain ⟨N, hd⟩ := hd
  exact ⟨max x.depth N, into_typed (Nat.le_max_left _ _) (loadInto_eq h) fun v hv => by cases hv; exact typed_mono (Nat.le_max_right _ _) hd⟩

/-- what a program makes is well typed -/
theorem history_typed {d : MObj py.F} (h : History py d) : HasType readers k!"load" d := by
  induction h with
  | new => exact blank_typed readers_load
  | call _ hs ih => exact (step_typed (fun _ _ => readers_neat) hs ih).1
  | load _ hl ih => exact loadInto_typed hl ih
  | clear _ ih =>
    rw [clear_typed readers_load ih]
    exact blank_typed readers_load

end
end Verif.Lemmas
