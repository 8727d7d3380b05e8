import Verif.Lemmas.Load
import Verif.Spec.Define
/-!
# The definitions of an element
-/
namespace Verif.Lemmas
open Verif Verif.Model Verif.Spec

/-! ## fuel -/

theorem foldE_same {α β ε : Type} {f g : β → α → Except ε β} {l : List α} (h : ∀ v, ∀ a ∈ l, f v a = g v a) (v : β) : foldE f v l = foldE g v l := by
  induction l generalizing v with
  | nil => rfl
  | cons a l ih =>
    rw [foldE, foldE, h v a (by simp)]
    split
    · rfl
    · exact ih (fun v a ha => h v a (by simp [ha])) _

theorem foldE_append {α β ε : Type} {f : β → α → Except ε β} {l r : List α} {v w : β} (h : foldE f v l = .ok w) :
    foldE f v (l ++ r) = foldE f w r := by
  induction l generalizing v with
  | nil => cases h; rfl
  | cons a l ih =>
    rw [foldE] at h
    rw [List.cons_append, foldE]
    split at h
    · cases h
    · exact ih h

section
variable {py : Py} {strict : Bool}

private theorem zipE_congr {α β γ ε : Type} {f g : α → β → Except ε γ} {l : List α} (h : ∀ a ∈ l, ∀ v, f a v = g a v) (r : List β) : zipE f l r = zipE g l r := by
  induction l generalizing r with
  | nil => rfl
  | cons a l ih =>
    cases r with
    | nil => rfl
    | cons v r => rw [zipE, zipE, h a (by simp), ih fun a ha => h a (by simp [ha])]

/-- more fuel than the depth of the element changes nothing -/
theorem intoObj_stable {T : Key → Option RBody} (hT : Moving T) {over : Key → List Key} {n m : Nat} {k : Key} {o : Option (MObj py.F)} {x : Xml}
    (hn : x.depth ≤ n) (hm : x.depth ≤ m) : intoObj py strict T over n k o x = intoObj py strict T over m k o x := by
  induction n generalizing m k o x with
  | zero => have := depth_pos x; omega
  | succ n ih =>
    cases m with
    | zero => have := depth_pos x; omega
    | succ m =>
      rw [intoObj, intoObj]
      cases hb : T k with
      | none => rfl
      | some b =>
        simp only
        unfold intoBody
        split
        · rfl
        have : ∀ s ∈ b.slots, ∀ v, intoSlot py strict T (intoObj py strict T over n) (over k) x s v =
            intoSlot py strict T (intoObj py strict T over m) (over k) x s v := by
          intro s hs v
          have hd : deep s.item = true → ∀ y ∈ select s.path x, ∀ k o, intoObj py strict T over n k o y = intoObj py strict T over m k o y := by
            intro hd y hy k' o'
            have := (select_depth hy).2 (hT k b hb s hs hd)
            exact ih (by omega) (by omega)
          unfold intoSlot
          split
          · rename_i alts hnm hi
            rw [foldE_same (g := putNamed py T (intoObj py strict T over m) s alts)]
            intro v y hy
            unfold putNamed
            have := hd (by rw [hi]; rfl) y hy
            simp only [this]
          · rw [readSlot_eq (rd' := fun k y => intoObj py strict T over m k none y) fun h y hy k => hd h y hy k none]
        rw [zipE_congr this]

/-! ## one list -/

/-- reading a definition with a method for reading -/
def stepIn (into : Key → Option (MObj py.F) → Xml → Except RErr (MObj py.F)) (o : Option (MObj py.F)) (d : Key × Xml) :
    Except RErr (Option (MObj py.F)) := (into d.1 o d.2).map some

/-- the definitions among the elements of a slot -/
def defsOf (alts : List (Key × Key)) (n : Str) (ys : List Xml) : List (Key × Xml) :=
  ys.filterMap fun y => if elemName y = n then (altOf alts y.tag).map fun k => (k, y) else none

/-- the object with a name -/
def named {F : Type} (n : Str) (l : List (MObj F)) : Option (MObj F) := l.find? fun v => v.name == n

theorem named_none {F : Type} {n : Str} {l : List (MObj F)} : named n l = none ↔ n ∉ l.map MObj.name := by
  simp [named, List.find?_eq_none]

theorem named_append {F : Type} {n : Str} {l r : List (MObj F)} : named n (l ++ r) = (named n l).or (named n r) := by
  simp [named, List.find?_append]

theorem named_mem {F : Type} {n : Str} {l : List (MObj F)} {v : MObj F} (h : named n l = some v) : v ∈ l ∧ v.name = n :=
  ⟨List.mem_of_find?_eq_some h, by simpa using List.find?_some h⟩

variable {T : Key → Option RBody}

theorem put_names {into : Key → Option (MObj py.F) → Xml → Except RErr (MObj py.F)} {s : RSlot} {alts : List (Key × Key)} (ha : AltsOk T alts)
    (hname : ∀ k b y v o, T k = some b → nameOk b = true → into k v y = .ok o → o.name = elemName y ∧ o.cls = b.cls)
    {y : Xml} {old r : List (MObj py.F)} (h : putNamed py T into s alts old y = .ok r) : ∃ l, r.map MObj.name = old.map MObj.name ++ l := by
  unfold putNamed at h
  split at h
  · cases h; exact ⟨[], by simp⟩
  rename_i k hk
  split at h
  · cases h
  rename_i b hb
  obtain ⟨t', ht'⟩ := altOf_mem' hk
  obtain ⟨b', hb', hnb⟩ := ha _ ht'
  rw [hb] at hb'; cases hb'
  split at h
  · rename_i hany
    split at h
    · cases h
    obtain ⟨a, v0, u0, c, rfl, rfl, hp, hu0⟩ := replaceE_ok hany h
    refine ⟨[], ?_⟩
    rw [isIt_iff] at hp
    simp [hp.2, (hname k b y _ _ hb hnb hu0).1]
  · split at h
    · cases h
    cases h
    exact ⟨_, by rw [List.map_append]⟩

theorem fold_names {into : Key → Option (MObj py.F) → Xml → Except RErr (MObj py.F)} {s : RSlot} {alts : List (Key × Key)} (ha : AltsOk T alts)
    (hname : ∀ k b y v o, T k = some b → nameOk b = true → into k v y = .ok o → o.name = elemName y ∧ o.cls = b.cls)
    {ys : List Xml} {old r : List (MObj py.F)} (h : foldE (putNamed py T into s alts) old ys = .ok r) : ∃ l, r.map MObj.name = old.map MObj.name ++ l := by
  induction ys generalizing old with
  | nil => cases h; exact ⟨[], by simp⟩
  | cons y ys ih =>
    rw [foldE] at h
    split at h
    · cases h
    rename_i old1 h1
    obtain ⟨l1, e1⟩ := put_names ha hname h1
    obtain ⟨l2, e2⟩ := ih h
    exact ⟨l1 ++ l2, by rw [e2, e1, List.append_assoc]⟩

/-- what a slot has under a name afterwards: the old object with the definitions read into it -/
theorem fold_named {into : Key → Option (MObj py.F) → Xml → Except RErr (MObj py.F)} {s : RSlot} {alts : List (Key × Key)} (ha : AltsOk T alts)
    (hname : ∀ k b y v o, T k = some b → nameOk b = true → into k v y = .ok o → o.name = elemName y ∧ o.cls = b.cls)
    {ys : List Xml} {old r : List (MObj py.F)} (h : foldE (putNamed py T into s alts) old ys = .ok r) (hn : (r.map MObj.name).Nodup) (n : Str) :
    foldE (stepIn into) (named n old) (defsOf alts n ys) = .ok (named n r) := by
  induction ys generalizing old with
  | nil => cases h; rfl
  | cons y ys ih =>
    rw [foldE] at h
    split at h
    · cases h
    rename_i old1 h1
    have hih := ih h
    obtain ⟨l, hl⟩ := fold_names ha hname h
    have hn1 : (old1.map MObj.name).Nodup := by
      rw [hl] at hn
      exact (List.nodup_append.1 hn).1
    obtain ⟨l', hl'⟩ := put_names ha hname h1
    have hn0 : (old.map MObj.name).Nodup := by
      rw [hl'] at hn1
      exact (List.nodup_append.1 hn1).1
    unfold putNamed at h1
    simp only [defsOf, List.filterMap_cons] at hih ⊢
    split at h1
    · rename_i hk
      cases h1
      rw [hk]
      simpa using hih
    rename_i k hk
    split at h1
    · cases h1
    rename_i b hb
    obtain ⟨t', ht'⟩ := altOf_mem' hk
    obtain ⟨b', hb', hnb⟩ := ha _ ht'
    rw [hb] at hb'; cases hb'
    split at h1
    · rename_i hany
      split at h1
      · cases h1
      obtain ⟨a, v0, u0, c, rfl, rfl, hp, hu0⟩ := replaceE_ok hany h1
      rw [isIt_iff] at hp
      have hu := (hname k b y _ _ hb hnb hu0).1
      by_cases hy : elemName y = n
      · rw [if_pos hy, hk]
        simp only [Option.map_some]
        have hna : named n a = none := by
          rw [named_none]
          intro hm
          simp only [List.map_append, List.map_cons] at hn0
          exact (List.nodup_append.1 hn0).2.2 n hm v0.name (by simp) (by rw [hp.2, hy])
        have e0 : named n (a ++ v0 :: c) = some v0 := by
          rw [named_append, hna]
          simp [named, hp.2, hy]
        have e1 : named n (a ++ u0 :: c) = some u0 := by
          rw [named_append, hna]
          simp [named, hu, hy]
        rw [e0, foldE]
        simp only [stepIn, hu0, Except.map]
        rw [e1] at hih
        exact hih
      · rw [if_neg hy]
        have : named n (a ++ v0 :: c) = named n (a ++ u0 :: c) := by
          have h0 : (v0.name == n) = false := by simpa [hp.2] using hy
          have h2 : (u0.name == n) = false := by simpa [hu] using hy
          rw [named_append, named_append]
          simp [named, h0, h2]
        rw [this]
        exact hih
    · rename_i hany
      split at h1
      · cases h1
      rename_i u hu0
      cases h1
      have hu := (hname k b y _ _ hb hnb hu0).1
      by_cases hy : elemName y = n
      · rw [if_pos hy, hk]
        simp only [Option.map_some]
        have hna : named n old = none := by
          rw [named_none]
          intro hm
          simp only [List.map_append, List.map_cons, List.map_nil] at hn1
          exact (List.nodup_append.1 hn1).2.2 n hm u.name (by simp) (by rw [hu, hy])
        rw [hna, foldE]
        simp only [stepIn, hu0, Except.map]
        have e1 : named n (old ++ [u]) = some u := by
          rw [named_append, hna]
          simp [named, hu, hy]
        rw [e1] at hih
        exact hih
      · rw [if_neg hy]
        have : named n (old ++ [u]) = named n old := by
          have h2 : (u.name == n) = false := by simpa [hu] using hy
          rw [named_append]
          simp [named, h2]
        rw [this] at hih
        exact hih

/-! ## all slots -/

theorem step_none {into : Key → Option (MObj py.F) → Xml → Except RErr (MObj py.F)} {o : Option (MObj py.F)} {ds : List (Key × Xml)}
    (h : foldE (stepIn into) o ds = .ok none) : o = none ∧ ds = [] := by
  induction ds generalizing o with
  | nil => cases h; exact ⟨rfl, rfl⟩
  | cons d ds ih =>
    rw [foldE] at h
    split at h
    · cases h
    rename_i v hv
    have := (ih h).1
    subst this
    unfold stepIn at hv
    cases hi : into d.1 o d.2 with
    | error e => rw [hi] at hv; cases hv
    | ok r => rw [hi] at hv; cases hv

/-- the definitions in one slot -/
def slotDefs (g : Key) (n : Str) (x : Xml) (s : RSlot) : List (Key × Xml) :=
  if hits g s.key then match s.item with
    | .objs alts => defsOf alts n (select s.path x)
    | _ => []
  else []

theorem zip_named {into : Key → Option (MObj py.F) → Xml → Except RErr (MObj py.F)} {over : List Key} {x : Xml}
    (hname : ∀ k b y v o, T k = some b → nameOk b = true → into k v y = .ok o → o.name = elemName y ∧ o.cls = b.cls)
    {slots : List RSlot} {olds rs : List (List (MObj py.F))} (hok : ∀ s ∈ slots, slotOk T s = true) (hl : olds.length = slots.length)
    (hz : zipE (intoSlot py strict T into over x) slots olds = .ok rs) {g : Key} (hg : g = k!"arPackages" ∨ g = k!"elements")
    (hn : ((shown g ((slots.map RSlot.key).zip rs)).map MObj.name).Nodup) (n : Str) :
    foldE (stepIn into) (named n (shown g ((slots.map RSlot.key).zip olds))) (slots.flatMap (slotDefs g n x)) =
      .ok (named n (shown g ((slots.map RSlot.key).zip rs))) := by
  induction slots generalizing olds rs with
  | nil => rfl
  | cons s slots ih =>
    obtain ⟨old, olds', r, rs', rfl, rfl, hc, hr, hb⟩ := zipE_cons hl hz
    simp only [List.map_cons, List.zip_cons_cons, shown_cons, List.flatMap_cons] at hn ⊢
    rw [List.map_append] at hn
    obtain ⟨hn1, hn2, hn3⟩ := List.nodup_append.1 hn
    have hih := ih (fun a ha => hok a (by simp [ha])) hb hr hn2
    rw [slotDefs]
    cases hh : hits g s.key with
    | false =>
      simp only [Bool.false_eq_true, if_false, List.nil_append]
      exact hih
    | true =>
      simp only [hh, if_true] at hn1 hn3 ⊢
      cases hnm : s.named with
      | false => rw [slotOk_other (hok s (by simp)) hnm hg] at hh; cases hh
      | true =>
        obtain ⟨alts, hi, halts, _⟩ := slotOk_named (hok s (by simp)) hnm
        unfold intoSlot at hc
        rw [hnm, hi] at hc
        simp only at hc
        split at hc
        · cases hc
        rename_i us hus
        split at hc
        · cases hc
        cases hc
        have h1 := fold_named halts hname hus hn1 n
        rw [hi]
        simp only
        rw [named_append, named_append]
        cases hw : named n r with
        | none =>
          rw [hw] at h1
          obtain ⟨e1, e2⟩ := step_none h1
          rw [e1, e2]
          simpa using hih
        | some w =>
          rw [hw] at h1
          obtain ⟨hwm, hwn⟩ := named_mem hw
          have hno : named n (shown g ((slots.map RSlot.key).zip rs')) = none := by
            rw [named_none]
            intro hm
            exact hn3 n (by rw [← hwn]; exact List.mem_map_of_mem hwm) n hm rfl
          rw [hno] at hih ⊢
          obtain ⟨e1, e2⟩ := step_none hih
          rw [e1, e2]
          simpa using h1

/-! ## one object -/

theorem held_attr {F : Type} (o : MObj F) (g : Role) : held o g = o.get g.attr := by cases g <;> rfl

theorem held_blank (b : RBody) (g : Role) : held (blankOf py b) g = [] := by
  rw [held_attr]
  simp [blankOf, MObj.get, MObj.fields, List.flatMap_map]

theorem into_named {n : Nat} {k : Key} {o : Option (MObj py.F)} {r : MObj py.F} {x : Xml}
    (h : intoObj py strict readers overs (n + 1) k o x = .ok r) (g : Role) (m : Str) :
    foldE (stepIn (intoObj py strict readers overs n)) (o.bind fun v => named m (held v g)) (defsIn k x g m) = .ok (named m (held r g)) := by
  obtain ⟨n', b, hn', hb, h⟩ := intoObj_succ h
  cases hn'
  obtain ⟨olds, rs, ho, hlen, hz, hr, hnm⟩ := intoBody_ok h
  have hd : defsIn k x g m = b.slots.flatMap (slotDefs g.attr m x) := by
    unfold defsIn
    rw [hb]
    rfl
  have ho' : (o.bind fun v => named m (held v g)) = named m (held (o.getD (blankOf py b)) g) := by
    cases o with
    | none => rw [Option.getD_none, held_blank]; rfl
    | some v => rfl
  rw [ho', hd, ho]
  have hnod := nodup_held (slotsOk k b hb) hr hnm g
  rw [hr] at hnod ⊢
  rw [held_attr, get_mk] at hnod ⊢
  rw [held_attr, get_mk]
  refine zip_named (fun k b y v o hb hn h => intoObj_name hb hn h) (slotsOk k b hb) hlen hz ?_ hnod m
  cases g
  · exact .inl rfl
  · exact .inr rfl

theorem defs_depth {k : Key} {x : Xml} {g : Role} {n : Str} {d : Key × Xml} (h : d ∈ defsIn k x g n) : d.2.depth < x.depth := by
  unfold defsIn at h
  split at h
  · cases h
  rename_i b hb
  obtain ⟨s, hs, h⟩ := List.mem_flatMap.1 h
  split at h
  swap
  · cases h
  split at h
  swap
  · cases h
  rename_i alts hi
  obtain ⟨y, hy, h⟩ := List.mem_filterMap.1 h
  split at h
  swap
  · cases h
  obtain ⟨k', _, rfl⟩ := Option.map_eq_some_iff.1 h
  exact (select_depth hy).2 (moving k b hb s hs (by rw [hi]; rfl))

/-- reading the definitions of one name, then following the path -/
theorem steps_at {n : Nat} (p : List (Role × Str))
    (ih : ∀ k (o : Option (MObj py.F)) r x, x.depth ≤ n → intoObj py strict readers overs n k o x = .ok r →
      readAll py strict (o.bind fun v => objectAt v p) (definitions k x p) = .ok (objectAt r p))
    {ds : List (Key × Xml)} (hd : ∀ d ∈ ds, d.2.depth ≤ n) {o w : Option (MObj py.F)}
    (h : foldE (stepIn (intoObj py strict readers overs n)) o ds = .ok w) :
    readAll py strict (o.bind fun v => objectAt v p) (ds.flatMap fun d => definitions d.1 d.2 p) = .ok (w.bind fun v => objectAt v p) := by
  induction ds generalizing o with
  | nil => cases h; rfl
  | cons d ds ihd =>
    rw [foldE] at h
    split at h
    · cases h
    rename_i v hv
    unfold stepIn at hv
    cases hi : intoObj py strict readers overs n d.1 o d.2 with
    | error e => rw [hi] at hv; cases hv
    | ok r =>
      rw [hi] at hv
      cases hv
      have h1 := ih d.1 o r d.2 (hd d (by simp)) hi
      rw [List.flatMap_cons]
      unfold readAll at h1 ⊢
      rw [foldE_append h1]
      exact ihd (fun d hm => hd d (by simp [hm])) h

/-- what a path leads to afterwards -/
theorem into_at (n : Nat) : ∀ (p : List (Role × Str)) (k : Key) (o : Option (MObj py.F)) (r : MObj py.F) (x : Xml), x.depth ≤ n →
    intoObj py strict readers overs n k o x = .ok r →
    readAll py strict (o.bind fun v => objectAt v p) (definitions k x p) = .ok (objectAt r p) := by
  induction n with
  | zero => intro p k o r x hx; have := depth_pos x; omega
  | succ n ih =>
    intro p k o r x hx h
    cases p with
    | nil =>
      have hb : (o.bind fun v => objectAt v []) = o := by cases o <;> rfl
      rw [hb, definitions, readAll, foldE, readIn]
      simp only
      rw [intoObj_stable moving (Nat.le_refl _) hx, h]
      rfl
    | cons st p =>
      obtain ⟨g, m⟩ := st
      have h1 := into_named h g m
      have h2 := steps_at p (fun k o r x hx h => ih p k o r x hx h) (fun d hd => by have := defs_depth hd; omega) h1
      have e : (o.bind fun v => objectAt v ((g, m) :: p)) = (o.bind fun v => named m (held v g)).bind fun v => objectAt v p := by
        cases o <;> rfl
      rw [e]
      exact h2

theorem load_at {d d' : MObj py.F} {x : Xml} (h : loadInto py strict d x = .ok d') (p : List (Role × Str)) :
    readAll py strict (objectAt d p) (definitions k!"load" x p) = .ok (objectAt d' p) :=
  into_at x.depth p k!"load" (some d) d' x (Nat.le_refl _) (loadInto_eq h)

theorem loads_at {xs : List Xml} {d d' : MObj py.F} (h : loadAll py strict d xs = .ok d') (p : List (Role × Str)) :
    readAll py strict (objectAt d p) (xs.flatMap fun x => definitions k!"load" x p) = .ok (objectAt d' p) := by
  induction xs generalizing d with
  | nil => cases h; rfl
  | cons x xs ih =>
    unfold loadAll at h
    rw [foldE] at h
    split at h
    · cases h
    rename_i d1 h1
    have := load_at h1 p
    rw [List.flatMap_cons]
    unfold readAll at this ⊢
    rw [foldE_append this]
    exact ih h

theorem readAll_some {o w : Option (MObj py.F)} {ds : List (Key × Xml)} (h : readAll py strict o ds = .ok w) :
    w.isSome = true ↔ o.isSome = true ∨ ds ≠ [] := by
  induction ds generalizing o with
  | nil => cases h; simp
  | cons d ds ih =>
    unfold readAll at h
    rw [foldE] at h
    split at h
    · cases h
    rename_i v hv
    have := ih h
    unfold readIn at hv
    cases hi : intoObj py strict readers overs d.2.depth d.1 o d.2 with
    | error e => rw [hi] at hv; cases hv
    | ok r => rw [hi] at hv; cases hv; simpa using this

theorem into_cls {n : Nat} {k : Key} {o : Option (MObj py.F)} {x : Xml} {r : MObj py.F} (h : intoObj py strict readers overs n k o x = .ok r) :
    ∃ b, readers k = some b ∧ r.cls = b.cls ∧ ∀ v, o = some v → v.cls = b.cls := by
  obtain ⟨m, b, rfl, hb, h⟩ := intoObj_succ h
  obtain ⟨olds, rs, ho, _, _, rfl, _⟩ := intoBody_ok h
  refine ⟨b, hb, rfl, ?_⟩
  rintro v rfl
  rw [Option.getD_some] at ho
  rw [ho]
  rfl

/-- all definitions of an object are of its class -/
theorem readAll_cls {o : Option (MObj py.F)} {w : MObj py.F} {ds : List (Key × Xml)} (h : readAll py strict o ds = .ok (some w)) :
    (∀ v, o = some v → v.cls = w.cls) ∧ ∀ d ∈ ds, ∃ b, readers d.1 = some b ∧ b.cls = w.cls := by
  induction ds generalizing o with
  | nil => cases h; simp
  | cons d ds ih =>
    unfold readAll at h
    rw [foldE] at h
    split at h
    · cases h
    rename_i v hv
    obtain ⟨h1, h2⟩ := ih h
    unfold readIn at hv
    cases hi : intoObj py strict readers overs d.2.depth d.1 o d.2 with
    | error e => rw [hi] at hv; cases hv
    | ok r =>
      rw [hi] at hv
      cases hv
      obtain ⟨b, hb, hc, ho⟩ := into_cls hi
      have := h1 r rfl
      refine ⟨fun v hv => by rw [ho v hv, ← hc, this], ?_⟩
      intro e he
      rcases List.mem_cons.1 he with rfl | he
      · exact ⟨b, hb, by rw [← hc, this]⟩
      · exact h2 e he

/-! ## paths in documents whose names are unique -/

theorem objectAt_reaches {F : Type} {o w : MObj F} {p : List (Role × Str)} (h : objectAt o p = some w) : Reaches o p w := by
  induction p generalizing o with
  | nil => cases h; exact .here _
  | cons s p ih =>
    obtain ⟨g, n⟩ := s
    rw [objectAt] at h
    obtain ⟨v, hv, h⟩ := Option.bind_eq_some_iff.1 h
    obtain ⟨hm, hn⟩ := named_mem hv
    exact .via hm hn (ih h)

theorem reaches_objectAt {F : Type} {o w : MObj F} {p : List (Role × Str)} (hu : Uniq o) (h : Reaches o p w) : objectAt o p = some w := by
  induction h with
  | here => rfl
  | step o v w g p hv _ ih =>
    rw [objectAt, find?_name (hu [] o (.here _) g) hv]
    exact ih (hu.kid hv)

theorem loads_holds {xs : List Xml} {d : MObj py.F} (h : loadAll py strict (newDoc py) xs = .ok d) {p : List (Role × Str)} (hp : p ≠ []) (c : Key) :
    Holds d p c ↔ ∃ x ∈ xs, Defines x p c := by
  have hu : Uniq d := loadAll_uniq h (uniq_blank _)
  have hr := loads_at h p
  have h0 : objectAt (newDoc py) p = none := by
    cases ho : objectAt (newDoc py) p with
    | none => rfl
    | some w => exact absurd (newDoc_reaches (objectAt_reaches ho)) hp
  rw [h0] at hr
  constructor
  · rintro ⟨w, hw, rfl⟩
    have hw := reaches_objectAt hu hw
    rw [hw] at hr
    obtain ⟨_, h2⟩ := readAll_cls hr
    have hne := (readAll_some hr).1 rfl
    rcases hne with hne | hne
    · cases hne
    · obtain ⟨e, he⟩ := List.exists_mem_of_ne_nil _ hne
      obtain ⟨x, hx, hex⟩ := List.mem_flatMap.1 he
      exact ⟨x, hx, e, hex, h2 e he⟩
  · rintro ⟨x, hx, e, he, b, hb, rfl⟩
    have hm : e ∈ xs.flatMap fun x => definitions k!"load" x p := List.mem_flatMap.2 ⟨x, hx, he⟩
    have hs := (readAll_some hr).2 (.inr fun hn => by rw [hn] at hm; cases hm)
    obtain ⟨w, hw⟩ := Option.isSome_iff_exists.1 hs
    rw [hw] at hr
    obtain ⟨b', hb', hc⟩ := (readAll_cls hr).2 e hm
    rw [hb] at hb'; cases hb'
    exact ⟨w, objectAt_reaches hw, hc.symm⟩

end

end Verif.Lemmas
