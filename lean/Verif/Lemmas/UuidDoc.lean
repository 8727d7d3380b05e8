import Verif.Lemmas.UuidUpper
import Verif.Lemmas.ListTool
/-!
# Every object of a loaded document is registered
-/
namespace Verif.Lemmas
open Verif Verif.Model Verif.Gen Verif.Spec

/-! ## the tables -/

/-- an attribute for a UUID is read from the attribute `UUID` -/
def uuidSlotOk (s : RSlot) : Bool := !isUuidField s.field || (isUuid s && s.path.single)

theorem table_uuid : Gen.readTable.all (fun _ b => b.slots.all uuidSlotOk) = true := by decide +kernel

theorem load_uuid : loadBody.slots.all uuidSlotOk = true := by decide +kernel

theorem twice_sub : twice.all (fun e => (readers e.1).any fun b => b.slots.isSublist e.2) = true := by decide +kernel

/-- the methods, and the methods statement by statement -/
theorem readers_all {k : Key} {b : RBody} (h : readers k = some b) : b.slots.all uuidSlotOk = true ∧
    ∃ b', allReaders k = some b' ∧ b'.cls = b.cls ∧ b.slots.Sublist b'.slots := by
  constructor
  · rw [readers] at h
    split at h
    · cases h; exact load_uuid
    · exact (Bst.all_toList _ _).1 table_uuid _ (Bst.find?_mem h)
  · rw [allReaders, h]
    cases ht : twice.lookup k with
    | none => exact ⟨b, rfl, rfl, List.Sublist.refl _⟩
    | some l =>
      refine ⟨⟨b.cls, l⟩, rfl, rfl, ?_⟩
      have hm : (k, l) ∈ twice := by
        generalize twice = t at ht
        induction t with
        | nil => cases ht
        | cons e r ih =>
          obtain ⟨a, c⟩ := e
          by_cases hn : k = a
          · subst hn; simp at ht; subst ht; exact List.mem_cons_self ..
          · simp only [List.lookup_cons, beq_eq_false_iff_ne.mpr hn] at ht; exact List.mem_cons_of_mem _ (ih ht)
      have := List.all_eq_true.1 twice_sub _ hm
      simp only [h, Option.any_some] at this
      exact List.isSublist_iff_sublist.1 this

/-! ## counting -/

section
variable {u : Str}

theorem uuidsOfL_append {F : Type} {a b : List (MObj F)} : uuidsOfL u (a ++ b) = uuidsOfL u a + uuidsOfL u b := by
  induction a with
  | nil => simp [uuidsOfL]
  | cons v a ih => simp only [List.cons_append, uuidsOfL, ih]; omega

theorem uuidsOfL_flatten {F : Type} {l : List (List (MObj F))} : uuidsOfL u l.flatten = sumOf (uuidsOfL u) l := by
  induction l with
  | nil => rfl
  | cons a l ih => rw [List.flatten_cons, uuidsOfL_append, ih]; rfl

/-- an attribute -/
def uuidsIn {F : Type} (u : Str) (s : RSlot) (vs : List (MObj F)) : Nat := (if isUuidField s.field && isText u vs then 1 else 0) + uuidsOfL u vs

/-- the attributes together -/
def uuidsAll {F : Type} (u : Str) : List RSlot → List (List (MObj F)) → Nat
  | s :: ss, vs :: vss => uuidsIn u s vs + uuidsAll u ss vss
  | _, _ => 0

theorem uuidsOf_zip {F : Type} {c : Key} {slots : List RSlot} {vss : List (List (MObj F))} :
    uuidsOf u (MObj.mk c ((slots.map RSlot.key).zip vss)) = uuidsAll u slots vss := by
  rw [uuidsOf]
  induction slots generalizing vss with
  | nil => rfl
  | cons s ss ih =>
    cases vss with
    | nil => rfl
    | cons vs vss =>
      simp only [List.map_cons, List.zip_cons_cons, uuidsOfF, uuidsAll, ih, uuidsIn, RSlot.key]

theorem uuidsOf_fields {F : Type} {c : Key} {slots : List RSlot} {fs : List ((Key × Bool) × List (MObj F))} (h : fs.map Prod.fst = slots.map RSlot.key) :
    uuidsOf u (MObj.mk c fs) = uuidsAll u slots (fs.map Prod.snd) := by
  rw [uuidsOf]
  induction slots generalizing fs with
  | nil =>
    cases fs with
    | nil => rfl
    | cons => cases h
  | cons s ss ih =>
    cases fs with
    | nil => cases h
    | cons f fs =>
      simp only [List.map_cons, List.cons.injEq] at h
      obtain ⟨k, vs⟩ := f
      simp only [uuidsOfF, uuidsAll, List.map_cons, ih h.2, uuidsIn]
      have : k = s.key := h.1
      rw [this]; rfl

theorem uuidsOf_blank {py : Py} {b : RBody} : uuidsOf u (blankOf py b) = 0 := by
  rw [blankOf, uuidsOf]
  generalize b.slots.map RSlot.key = l
  induction l with
  | nil => rfl
  | cons k l ih =>
    simp only [List.map_cons, uuidsOfF, ih, isText, uuidsOfL, Bool.and_false, Bool.false_eq_true, if_false]

/-! ## one attribute -/

section
variable {py : Py} {strict : Bool} {sc : RKind → Xml → Bool} {n : Nat}

/-- reading an object adds at most what is registered -/
def Adds (py : Py) (strict : Bool) (sc : RKind → Xml → Bool) (u : Str) (n : Nat) : Prop :=
  ∀ k old x o ns, intoObj py strict readers overs n k old x = .ok o →
    uuidsOf u o ≤ (old.elim 0 (uuidsOf u)) + regs u (objCalls sc n k ns x)

theorem replaceE_adds {p : MObj py.F → Bool} {f : MObj py.F → Except RErr (MObj py.F)} {r : Nat} (hf : ∀ v w, f v = .ok w → uuidsOf u w ≤ uuidsOf u v + r)
    {l l' : List (MObj py.F)} (h : replaceE p f l = .ok l') : uuidsOfL u l' ≤ uuidsOfL u l + r := by
  induction l generalizing l' with
  | nil => cases h; exact Nat.le_add_right ..
  | cons v l ih =>
    rw [replaceE] at h
    split at h
    · split at h
      · cases h
      · rename_i w hw
        cases h
        have := hf v w hw
        simp only [uuidsOfL]; omega
    · split at h
      · cases h
      · rename_i l'' hl
        cases h
        have := ih hl
        simp only [uuidsOfL]; omega

theorem put_adds (ih : Adds py strict sc u n) {s : RSlot} {alts : List (Key × Key)} (hi : s.item = .objs alts) {c : Key} {ns : List Str} {old vs : List (MObj py.F)} {y : Xml}
    (h : putNamed py readers (intoObj py strict readers overs n) s alts old y = .ok vs) :
    uuidsOfL u vs ≤ uuidsOfL u old + regs u (slotCalls sc (objCalls sc n) c ns s y) := by
  rw [putNamed] at h
  rw [slotCalls, hi]
  simp only
  split at h
  · cases h; exact Nat.le_add_right ..
  · rename_i k hk
    rw [hk]
    simp only
    split at h
    · cases h
    · split at h
      · split at h
        · cases h
        · exact replaceE_adds (fun v w hw => ih k (some v) y w ns hw) h
      · split at h
        · cases h
        · rename_i o ho
          cases h
          have := ih k none y o ns ho
          simp only [Option.elim] at this
          rw [uuidsOfL_append]
          simp only [uuidsOfL]; omega

theorem fold_adds (ih : Adds py strict sc u n) {s : RSlot} {alts : List (Key × Key)} (hi : s.item = .objs alts) {c : Key} {ns : List Str} {old vs : List (MObj py.F)} {ys : List Xml}
    (h : foldE (putNamed py readers (intoObj py strict readers overs n) s alts) old ys = .ok vs) :
    uuidsOfL u vs ≤ uuidsOfL u old + sumOf (fun y => regs u (slotCalls sc (objCalls sc n) c ns s y)) ys := by
  induction ys generalizing old with
  | nil => cases h; exact Nat.le_add_right ..
  | cons y ys ih' =>
    rw [foldE] at h
    split at h
    · cases h
    · rename_i b hb
      have h1 := put_adds (c := c) (ns := ns) ih hi hb
      have h2 := ih' h
      simp only [sumOf]; omega

theorem scalars_adds {e : Except PyErr (Option (Scalar py.F))} {l : List (MObj py.F)} (h : scalars e = .ok l) : uuidsOfL u l = 0 := by
  unfold scalars at h
  split at h
  · cases h
  · cases h; rfl
  · cases h; rfl

/-- the objects in what is made of one element -/
theorem item_adds (ih : Adds py strict sc u n) {s : RSlot} {c : Key} {ns : List Str} {y : Xml} {l : List (MObj py.F)}
    (h : readItem py strict (fun k y => intoObj py strict readers overs n k none y) s.item y = .ok l) :
    uuidsOfL u l ≤ regs u (slotCalls sc (objCalls sc n) c ns s y) := by
  unfold readItem at h
  split at h
  · rw [scalars_adds h]; exact Nat.zero_le _
  · split at h
    · cases h; exact Nat.zero_le _
    · rw [scalars_adds h]; exact Nat.zero_le _
  · split at h
    · cases h
    · cases h; exact Nat.zero_le _
  · rename_i alts hi
    rw [slotCalls, hi]
    simp only
    split at h
    · cases h; exact Nat.zero_le _
    · rename_i k hk
      rw [hk]
      split at h
      · cases h
      · rename_i o ho
        cases h
        have := ih k none y o ns ho
        simp only [Option.elim] at this
        simp only [uuidsOfL]; omega
  · repeat' split at h
    all_goals first | (cases h; exact Nat.zero_le _) | cases h
  · split at h
    · cases h; exact Nat.zero_le _
    · cases h
  · cases h

theorem mapE_adds {f : Xml → Except RErr (List (MObj py.F))} {g : Xml → Nat} {ys : List Xml} {ls : List (List (MObj py.F))}
    (hf : ∀ y ∈ ys, ∀ l, f y = .ok l → uuidsOfL u l ≤ g y) (h : mapE f ys = .ok ls) : uuidsOfL u ls.flatten ≤ sumOf g ys := by
  induction ys generalizing ls with
  | nil => cases h; exact Nat.le_refl _
  | cons y ys ih =>
    rw [mapE] at h
    split at h
    · cases h
    · rename_i l hl
      split at h
      · cases h
      · rename_i r hr
        cases h
        have h1 := hf y (by simp) l hl
        have h2 := ih (fun y hy => hf y (by simp [hy])) hr
        rw [List.flatten_cons, uuidsOfL_append]
        simp only [sumOf]; omega

theorem keepLast_le {l : List (MObj py.F)} : uuidsOfL u (keepLast l) ≤ uuidsOfL u l := by
  rw [keepLast]
  split
  · exact Nat.zero_le _
  · rename_i v hv
    replace hv := List.mem_of_getLast? hv
    simp only [uuidsOfL, Nat.add_zero]
    induction l with
    | nil => cases hv
    | cons w l ih =>
      simp only [uuidsOfL]
      rcases List.mem_cons.1 hv with rfl | hv
      · omega
      · have := ih hv; omega

theorem readSlot_vs {rd : Key → Xml → Except RErr (MObj py.F)} {x : Xml} {s : RSlot} {vs : List (MObj py.F)} (h : readSlot py strict rd x s = .ok vs) :
    ∃ ls, mapE (readItem py strict rd s.item) (select s.path x) = .ok ls ∧ vs = if s.last then keepLast ls.flatten else ls.flatten := by
  rw [readSlot] at h
  split at h
  · cases h
  · rename_i ls hls
    refine ⟨ls, hls, ?_⟩
    simp only at h
    split at h
    · cases h
    · rename_i he
      split at h
      · cases h
      · cases h; exact he.symm
    · cases h; rfl

theorem readSlot_adds (ih : Adds py strict sc u n) {s : RSlot} {c : Key} {ns : List Str} {x : Xml} {vs : List (MObj py.F)}
    (h : readSlot py strict (fun k y => intoObj py strict readers overs n k none y) x s = .ok vs) :
    uuidsOfL u vs ≤ sumOf (fun y => regs u (slotCalls sc (objCalls sc n) c ns s y)) (select s.path x) := by
  obtain ⟨ls, h1, rfl⟩ := readSlot_vs h
  have h2 := mapE_adds (u := u) (g := fun y => regs u (slotCalls sc (objCalls sc n) c ns s y)) (fun y _ l hl => item_adds (c := c) (ns := ns) ih hl) h1
  split
  · exact Nat.le_trans keepLast_le h2
  · exact h2

/-- the UUID of the object itself -/
theorem text_adds {rd : Key → Xml → Except RErr (MObj py.F)} {s : RSlot} {c : Key} {ns : List Str} {x : Xml} {vs : List (MObj py.F)} (hu : isUuid s = true)
    (h : readSlot py strict rd x s = .ok vs) (ht : isText u vs = true) :
    1 ≤ sumOf (fun y => regs u (slotCalls sc (objCalls sc n) c ns s y)) (select s.path x) := by
  obtain ⟨ls, h1, rfl⟩ := readSlot_vs h
  have hm : MObj.scal (.str u) ∈ ls.flatten := by
    have : MObj.scal (.str u) ∈ (if s.last then keepLast ls.flatten else ls.flatten) := by
      revert ht
      generalize (if s.last then keepLast ls.flatten else ls.flatten) = vs
      unfold isText
      split
      · rename_i t
        intro ht
        rw [beq_iff_eq.1 ht]; simp
      · intro ht; cases ht
    split at this
    · rw [keepLast] at this
      split at this
      · cases this
      · rename_i v hv
        rw [List.mem_singleton.1 this]
        exact List.mem_of_getLast? hv
    · exact this
  obtain ⟨l, hl, hm⟩ := List.mem_flatten.1 hm
  obtain ⟨y, hy, he⟩ := (mapE_both h1).1 l hl
  refine Nat.le_trans ?_ (sumOf_mem (g := fun y => regs u (slotCalls sc (objCalls sc n) c ns s y)) hy)
  have hu' := hu
  simp only [isUuid] at hu'
  split at hu'
  · rename_i a hi
    have ha : a = k!"UUID" := beq_iff_eq.1 hu'
    subst ha
    rw [slotCalls, hi]
    simp only [hu, if_true]
    rw [hi] at he; unfold readItem at he
    simp only at he
    rw [noteUuid]
    split at he
    · cases he; cases hm
    · rename_i v hv
      rw [hv]
      have e : scalars (readAttr py strict .raw v) = .ok [MObj.scal (.str v)] := rfl
      rw [e] at he
      cases he
      have := List.mem_singleton.1 hm
      cases this
      simp [regs, isObject]
  · cases hu'

theorem slot_adds (ih : Adds py strict sc u n) {over : List Key} {s : RSlot} (hs : uuidSlotOk s = true) {c : Key} {ns : List Str} {x : Xml} {old vs : List (MObj py.F)}
    (h : intoSlot py strict readers (intoObj py strict readers overs n) over x s old = .ok vs) :
    uuidsIn u s vs ≤ uuidsIn u s old + sumOf (fun y => regs u (slotCalls sc (objCalls sc n) c ns s y)) (select s.path x) := by
  rw [intoSlot] at h
  simp only [uuidSlotOk, Bool.or_eq_true, Bool.not_eq_true', Bool.and_eq_true] at hs
  split at h
  · rename_i alts _ hi
    have hf : isUuidField s.field = false := by
      rcases hs with hs | hs
      · exact hs
      · have := hs.1; rw [isUuid, hi] at this; cases this
    split at h
    · cases h
    · rename_i vs' hv
      split at h
      · cases h
      · cases h
        have := fold_adds (c := c) (ns := ns) ih hi hv
        simp only [uuidsIn, hf, Bool.false_and, Bool.false_eq_true, if_false]; omega
  · split at h
    · cases h
    · rename_i ws hw
      have h1 := readSlot_adds (c := c) (ns := ns) ih hw
      by_cases hf : isUuidField s.field = true
      · have hs := hs.resolve_left (by simp [hf])
        have hl : s.isList = false := by simp [RSlot.isList, hs.2]
        rw [hl] at h
        simp only [Bool.false_eq_true, if_false] at h
        split at h
        · cases h; exact Nat.le_add_right ..
        · cases h
          have h0 : uuidsOfL u vs = 0 := by
            obtain ⟨ls, g1, rfl⟩ := readSlot_vs hw
            have hz : uuidsOfL u ls.flatten = 0 := by
              have := mapE_adds (u := u) (g := fun _ => 0) (fun y _ l hl => ?_) g1
              · have hz : ∀ l : List Xml, sumOf (fun _ => 0) l = 0 := by
                  intro l; induction l with
                  | nil => rfl
                  | cons a l ih => simp [sumOf, ih]
                rw [hz] at this; omega
              · have hu := hs.1
                rw [isUuid] at hu
                split at hu
                · rename_i a hi
                  rw [hi] at hl; unfold readItem at hl
                  simp only at hl
                  split at hl
                  · cases hl; exact Nat.le_refl _
                  · rw [scalars_adds hl]
                · cases hu
            split
            · have := keepLast_le (u := u) (l := ls.flatten); omega
            · exact hz
          simp only [uuidsIn, h0, hf, Bool.true_and, Nat.add_zero]
          by_cases ht : isText u vs = true
          · have := text_adds (n := n) (sc := sc) (c := c) (ns := ns) hs.1 hw ht
            simp only [ht, if_true]; omega
          · simp only [ht, Bool.false_eq_true, if_false]; omega
      · simp only [Bool.not_eq_true] at hf
        simp only [uuidsIn, hf, Bool.false_and, Bool.false_eq_true, if_false]
        split at h
        · cases h; rw [uuidsOfL_append]; omega
        · split at h
          · cases h; omega
          · cases h; omega

theorem zip_adds (ih : Adds py strict sc u n) {over : List Key} {slots : List RSlot} (hs : slots.all uuidSlotOk = true) {c : Key} {ns : List Str} {x : Xml} {olds vss : List (List (MObj py.F))}
    (h : zipE (intoSlot py strict readers (intoObj py strict readers overs n) over x) slots olds = .ok vss) :
    uuidsAll u slots vss ≤ uuidsAll u slots olds + sumOf (fun s => regs u ((select s.path x).flatMap (slotCalls sc (objCalls sc n) c ns s))) slots := by
  induction slots generalizing olds vss with
  | nil => cases h; exact Nat.zero_le _
  | cons s ss ih' =>
    cases olds with
    | nil => cases h; exact Nat.zero_le _
    | cons old olds =>
      rw [zipE] at h
      split at h
      · cases h
      · rename_i vs hv
        split at h
        · cases h
        · rename_i r hr
          cases h
          simp only [List.all_cons, Bool.and_eq_true] at hs
          have h1 := slot_adds (c := c) (ns := ns) ih hs.1 hv
          have h2 := ih' hs.2 hr
          simp only [uuidsAll, sumOf, regs_flatMap] at h1 h2 ⊢
          omega

theorem sumOf_sublist {α : Type} {g : α → Nat} {l r : List α} (h : l.Sublist r) : sumOf g l ≤ sumOf g r := by
  induction h with
  | slnil => exact Nat.le_refl _
  | cons a _ ih => simp only [sumOf]; omega
  | cons_cons a _ ih => simp only [sumOf]; omega

theorem obj_adds : ∀ n, Adds py strict sc u n := by
  intro n
  induction n with
  | zero => intro k old x o ns h; cases h
  | succ n ih =>
    intro k old x o ns h
    rw [intoObj] at h
    split at h
    · cases h
    · rename_i b hb
      obtain ⟨h1, b', h2, h3, h4⟩ := readers_all hb
      unfold intoBody at h
      split at h
      · cases h
      · rename_i c fs he
        split at h
        · rename_i hc
          split at h
          · cases h
          · rename_i vs hv
            simp only at h
            split at h
            · cases h
              rw [uuidsOf_zip]
              have g1 := zip_adds (c := b'.cls) (ns := ownNames b' ns x) ih h1 hv
              rw [← uuidsOf_fields (c := c) hc.2, ← he] at g1
              have g2 : uuidsOf u (old.getD (blankOf py b)) = old.elim 0 (uuidsOf u) := by
                cases old with
                | none => exact uuidsOf_blank
                | some v => rfl
              have g3 : sumOf (fun s => regs u ((select s.path x).flatMap (slotCalls sc (objCalls sc n) b'.cls (ownNames b' ns x) s))) b.slots ≤ regs u (objCalls sc (n + 1) k ns x) := by
                rw [objCalls, h2]
                simp only
                rw [bodyCalls, regs_append, regs_flatMap]
                exact Nat.le_trans (sumOf_sublist h4) (Nat.le_add_right ..)
              omega
            · cases h
        · cases h

/-- the objects with a UUID in a document that was loaded -/
theorem doc_adds {xs : List Xml} {d d' : MObj py.F} (h : loadAll py strict d xs = .ok d') :
    uuidsOf u d' ≤ uuidsOf u d + regs u (filesCalls sc xs) := by
  rw [filesCalls, regs_keep, regs_flatMap]
  rw [loadAll] at h
  induction xs generalizing d with
  | nil => cases h; exact Nat.le_add_right ..
  | cons x xs ih =>
    rw [foldE] at h
    split at h
    · cases h
    · rename_i e he
      have h1 := ih h
      rw [loadInto] at he
      split at he
      · cases he
      · have h2 : uuidsOf u e ≤ uuidsOf u d + regs u (fileCalls sc x) := obj_adds (sc := sc) (u := u) _ _ _ _ _ [] he
        simp only [sumOf]
        omega

end
end

end Verif.Lemmas
