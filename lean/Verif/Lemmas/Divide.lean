import Verif.Lemmas.Define
import Verif.Spec.Divide
/-!
# Dividing files and packages
-/
namespace Verif.Lemmas
open Verif Verif.Model Verif.Spec

/-! ## lists -/

theorem foldE_app {α β ε : Type} {f : β → α → Except ε β} {l r : List α} {v w : β} :
    foldE f v (l ++ r) = .ok w ↔ ∃ u, foldE f v l = .ok u ∧ foldE f u r = .ok w := by
  induction l generalizing v with
  | nil => simp [foldE]
  | cons a l ih =>
    rw [List.cons_append, foldE, foldE]
    split
    · simp
    · exact ih

theorem mapE_app {α β ε : Type} {f : α → Except ε β} {l r : List α} {w : List β} :
    mapE f (l ++ r) = .ok w ↔ ∃ u v, mapE f l = .ok u ∧ mapE f r = .ok v ∧ w = u ++ v := by
  induction l generalizing w with
  | nil => simp [mapE]
  | cons a l ih =>
    rw [List.cons_append, mapE, mapE]
    cases f a with
    | error e => simp
    | ok b =>
      simp only
      constructor
      · intro h
        split at h
        · cases h
        · rename_i w' hw
          cases h
          obtain ⟨u, v, hu, hv, rfl⟩ := ih.1 hw
          rw [hu]
          exact ⟨b :: u, v, rfl, hv, rfl⟩
      · rintro ⟨u, v, hu, hv, rfl⟩
        split at hu
        · cases hu
        · rename_i u' hu'
          cases hu
          rw [ih.2 ⟨u', v, hu', hv, rfl⟩]
          rfl

theorem zip_same {α β γ ε : Type} {f g : α → β → Except ε γ} {l : List α} (h : ∀ a ∈ l, ∀ v, f a v = g a v) (r : List β) : zipE f l r = zipE g l r := by
  induction l generalizing r with
  | nil => rfl
  | cons a l ih =>
    cases r with
    | nil => rfl
    | cons v r => rw [zipE, zipE, h a (by simp), ih fun a ha => h a (by simp [ha])]

/-- results in step -/
theorem zip_iff {α β γ ε : Type} {f g : α → β → Except ε γ} {l : List α} (h : ∀ a ∈ l, ∀ v w, f a v = .ok w ↔ g a v = .ok w) {r : List β} {ws : List γ} :
    zipE f l r = .ok ws ↔ zipE g l r = .ok ws := by
  induction l generalizing r ws with
  | nil => simp [zipE]
  | cons a l ih =>
    cases r with
    | nil => simp [zipE]
    | cons v r =>
      have ih' := fun {ws} => ih (fun a ha => h a (by simp [ha])) (r := r) (ws := ws)
      have h0 := h a (by simp) v
      have key : ∀ {f : α → β → Except ε γ}, zipE f (a :: l) (v :: r) = .ok ws ↔ ∃ z zs, f a v = .ok z ∧ zipE f l r = .ok zs ∧ ws = z :: zs := by
        intro f
        rw [zipE]
        cases f a v with
        | error e => simp
        | ok z =>
          cases zipE f l r with
          | error e => simp
          | ok zs => simp [eq_comm]
      rw [key, key]
      simp only [h0, ih']

theorem zipE_len {α β γ ε : Type} {f : α → β → Except ε γ} {l : List α} {r : List β} {ws : List γ} (h : zipE f l r = .ok ws) (hl : r.length = l.length) :
    ws.length = l.length := by
  induction l generalizing r ws with
  | nil => cases r <;> cases h <;> rfl
  | cons a l ih =>
    cases r with
    | nil => simp at hl
    | cons v r =>
      rw [zipE] at h
      split at h
      · cases h
      split at h
      · cases h
      rename_i zs hzs
      cases h
      simp [ih hzs (by simpa using hl)]

/-- two steps for each of several things are two steps for all of them -/
theorem zip_steps {α β ε : Type} {f g h : α → β → Except ε β} {l : List α}
    (hs : ∀ a ∈ l, ∀ o w, h a o = .ok w ↔ ∃ v, f a o = .ok v ∧ g a v = .ok w) {os ws : List β} (hl : os.length = l.length) :
    zipE h l os = .ok ws ↔ ∃ vs, zipE f l os = .ok vs ∧ zipE g l vs = .ok ws := by
  induction l generalizing os ws with
  | nil =>
    cases os with
    | nil => simp [zipE]
    | cons o os => simp at hl
  | cons a l ih =>
    cases os with
    | nil => simp at hl
    | cons o os =>
      have ih' := fun {ws} => ih (fun a ha => hs a (by simp [ha])) (os := os) (ws := ws) (by simpa using hl)
      have h0 := hs a (by simp) o
      have key : ∀ {f : α → β → Except ε β} {o : β} {os ws : List β}, zipE f (a :: l) (o :: os) = .ok ws ↔ ∃ z zs, f a o = .ok z ∧ zipE f l os = .ok zs ∧ ws = z :: zs := by
        intro f o os ws
        rw [zipE]
        cases f a o with
        | error e => simp
        | ok z =>
          cases zipE f l os with
          | error e => simp
          | ok zs => simp [eq_comm]
      rw [key]
      constructor
      · rintro ⟨z, zs, hz, hzs, rfl⟩
        obtain ⟨v, h1, h2⟩ := (h0 _).1 hz
        obtain ⟨vs, h3, h4⟩ := ih'.1 hzs
        exact ⟨v :: vs, key.2 ⟨v, vs, h1, h3, rfl⟩, key.2 ⟨z, zs, h2, h4, rfl⟩⟩
      · rintro ⟨vs, h1, h2⟩
        obtain ⟨v, vs', h3, h4, rfl⟩ := key.1 h1
        obtain ⟨z, zs, h5, h6, rfl⟩ := key.1 h2
        exact ⟨z, zs, (h0 _).2 ⟨v, h3, h5⟩, ih'.2 ⟨vs', h4, h6⟩, rfl⟩

theorem zip_rel {α β ε : Type} {f g : α → β → Except ε β} {R : β → β → Prop} {l : List α}
    (hR : ∀ a ∈ l, ∀ o v w, f a o = .ok v → g a v = .ok w → R v w) {os vs ws : List β} (h1 : zipE f l os = .ok vs) (h2 : zipE g l vs = .ok ws) :
    List.Forall₂ R vs ws := by
  induction l generalizing os vs ws with
  | nil => cases h1; cases h2; exact .nil
  | cons a l ih =>
    cases os with
    | nil => cases h1; cases h2; exact .nil
    | cons o os =>
      rw [zipE] at h1
      split at h1
      · cases h1
      rename_i v hv
      split at h1
      · cases h1
      rename_i vs' hvs
      cases h1
      rw [zipE] at h2
      split at h2
      · cases h2
      rename_i w hw
      split at h2
      · cases h2
      rename_i ws' hws
      cases h2
      exact .cons (hR a (by simp) _ _ _ hv hw) (ih (fun a ha => hR a (by simp [ha])) hvs hws)

/-! ## replacing -/

/-- replacing two different things, in either order -/
theorem replace_comm {α ε : Type} {p q : α → Bool} {f g : α → Except ε α} (hpq : ∀ v, p v = true → q v = false)
    (hf : ∀ v u, f v = .ok u → p u = true) (hg : ∀ v u, g v = .ok u → q u = true) {l m r : List α}
    (h1 : replaceE p f l = .ok m) (h2 : replaceE q g m = .ok r) : ∃ m', replaceE q g l = .ok m' ∧ replaceE p f m' = .ok r := by
  induction l generalizing m r with
  | nil => cases h1; cases h2; exact ⟨[], rfl, rfl⟩
  | cons v l ih =>
    rw [replaceE] at h1 ⊢
    by_cases hp : p v = true
    · rw [if_pos hp] at h1
      split at h1
      · cases h1
      rename_i u hu
      cases h1
      rw [replaceE, hpq u (hf v u hu)] at h2
      simp only [Bool.false_eq_true, if_false] at h2
      split at h2
      · cases h2
      rename_i l2 hl2
      cases h2
      refine ⟨v :: l2, by simp [hpq v hp], ?_⟩
      rw [replaceE, if_pos hp, hu]
    · rw [if_neg hp] at h1
      split at h1
      · cases h1
      rename_i l1 hl1
      cases h1
      rw [replaceE] at h2
      by_cases hq : q v = true
      · rw [if_pos hq] at h2 ⊢
        split at h2
        · cases h2
        rename_i u hu
        cases h2
        refine ⟨u :: l, by simp, ?_⟩
        have : ¬ p u = true := fun h => by
          have h3 := hg v u hu
          rw [hpq u h] at h3
          cases h3
        rw [replaceE, if_neg this, hl1]
      · rw [if_neg hq] at h2 ⊢
        split at h2
        · cases h2
        rename_i l2 hl2
        cases h2
        obtain ⟨m', h3, h4⟩ := ih hl1 hl2
        rw [h3]
        refine ⟨v :: m', rfl, ?_⟩
        rw [replaceE, if_neg hp, h4]

/-- replacing twice -/
theorem replace_twice {α ε : Type} {p : α → Bool} {f g h : α → Except ε α} (hf : ∀ v u, f v = .ok u → p u = true)
    (hs : ∀ v w, h v = .ok w ↔ ∃ u, f v = .ok u ∧ g u = .ok w) {l r : List α} :
    replaceE p h l = .ok r ↔ ∃ m, replaceE p f l = .ok m ∧ replaceE p g m = .ok r := by
  induction l generalizing r with
  | nil => simp [replaceE]
  | cons v l ih =>
    simp only [replaceE]
    by_cases hp : p v = true
    · simp only [hp, if_true]
      constructor
      · intro h1
        split at h1
        · cases h1
        rename_i w hw
        cases h1
        obtain ⟨u, h2, h3⟩ := (hs v w).1 hw
        rw [h2]
        refine ⟨u :: l, rfl, ?_⟩
        rw [replaceE, if_pos (hf v u h2), h3]
      · rintro ⟨m, h1, h2⟩
        split at h1
        · cases h1
        rename_i u hu
        cases h1
        rw [replaceE, if_pos (hf v u hu)] at h2
        split at h2
        · cases h2
        rename_i w hw
        cases h2
        rw [(hs v w).2 ⟨u, hu, hw⟩]
    · simp only [hp]
      constructor
      · intro h1
        simp only [Bool.false_eq_true, if_false] at h1
        split at h1
        · cases h1
        rename_i l2 hl2
        cases h1
        obtain ⟨m, h3, h4⟩ := ih.1 hl2
        refine ⟨v :: m, by simp [h3], ?_⟩
        rw [replaceE, if_neg hp, h4]
      · rintro ⟨m, h1, h2⟩
        simp only [Bool.false_eq_true, if_false] at h1 ⊢
        split at h1
        · cases h1
        rename_i l1 hl1
        cases h1
        rw [replaceE, if_neg hp] at h2
        split at h2
        · cases h2
        rename_i l2 hl2
        cases h2
        rw [ih.2 ⟨l1, hl1, hl2⟩]

theorem replace_any {α ε : Type} {p q : α → Bool} {f : α → Except ε α} (hpq : ∀ v u, p v = true → f v = .ok u → q u = q v) {l m : List α}
    (h : replaceE p f l = .ok m) : m.any q = l.any q := by
  induction l generalizing m with
  | nil => cases h; rfl
  | cons v l ih =>
    rw [replaceE] at h
    split at h
    · rename_i hp
      split at h
      · cases h
      rename_i u hu
      cases h
      simp [hpq v u hp hu]
    · split at h
      · cases h
      rename_i l' hl'
      cases h
      simp [ih hl']

theorem replace_app {α ε : Type} {p : α → Bool} {f : α → Except ε α} {l r : List α} (hp : l.any p = true) :
    replaceE p f (l ++ r) = (replaceE p f l).map (· ++ r) := by
  induction l with
  | nil => cases hp
  | cons v l ih =>
    rw [List.cons_append, replaceE, replaceE]
    by_cases h : p v = true
    · rw [if_pos h, if_pos h]
      cases f v <;> rfl
    · rw [if_neg h, if_neg h, ih (by simpa [h] using hp)]
      cases replaceE p f l <;> rfl

theorem replace_end {α ε : Type} {p : α → Bool} {f : α → Except ε α} {l : List α} {v : α} (hl : l.any p = false) (hv : p v = true) :
    replaceE p f (l ++ [v]) = (f v).map fun u => l ++ [u] := by
  induction l with
  | nil =>
    rw [List.nil_append, replaceE, if_pos hv]
    cases f v <;> rfl
  | cons a l ih =>
    simp only [List.any_cons, Bool.or_eq_false_iff] at hl
    rw [List.cons_append, replaceE, hl.1, ih hl.2]
    cases f v <;> rfl

/-! ## elements -/

private theorem tagIs_ne {t : Key} (h : t ≠ 0) : tagIs t = fun z => z.tag == t := by
  funext z
  simp [tagIs, h]

theorem select_list {t u : Key} (ht : t ≠ 0) (x : Xml) : select (.all t (.all u .nil)) x = (contents t x).filter (tagIs u) := by
  simp only [select, List.flatMap_singleton', contents, tagIs_ne ht, List.filter_flatMap]

theorem select_head {L : List Key} {t : Key} (ht : t ≠ 0) (hL : t ∉ L) {x y : Xml} (h : SameBut L x y) :
    select (.first [t] .nil) x = select (.first [t] .nil) y := by
  have key : ∀ x : Xml, x.kids.filter (tagIs t) = (besides L x).filter (tagIs t) := by
    intro x
    rw [besides, List.filter_filter]
    apply List.filter_congr
    intro y _
    by_cases hy : y.tag = t
    · simp [tagIs, hy, hL]
    · simp [tagIs, hy, ht]
  simp only [select, walk, key x, key y, h.besides]

theorem alike_name {L : List Key} (hL : k!"SHORT-NAME" ∉ L) {x y : Xml} (h : SameBut L x y) : elemName x = elemName y := by
  unfold elemName
  rw [select_head (by decide) hL h]

/-! ## slots -/

/-- slots for what is inside of certain children -/
def listSlot (L : List Key) (s : RSlot) : Bool := match s.path with
  | .all t (.all _ .nil) => L.contains t && t != 0 && !s.last && s.req == .no
  | _ => false

/-- slots for an XML attribute or one other child -/
def headSlot (L : List Key) (s : RSlot) : Bool := !s.named && match s.path, s.item with
  | .nil, .attr _ _ => true
  | .first [t] .nil, _ => !L.contains t && t != 0
  | _, _ => false

section
variable {py : Py} {strict : Bool}

theorem head_read {L : List Key} {s : RSlot} (hs : headSlot L s = true) {x y : Xml} (h : SameBut L x y) (rd : Key → Xml → Except RErr (MObj py.F)) :
    readSlot py strict rd x s = readSlot py strict rd y s := by
  unfold headSlot at hs
  simp only [Bool.and_eq_true] at hs
  have hs2 := hs.2
  have : mapE (readItem py strict rd s.item) (select s.path x) = mapE (readItem py strict rd s.item) (select s.path y) := by
    split at hs2
    · rename_i n k hp hi
      rw [hp, hi]
      simp only [select, mapE, readItem, Xml.attr, h.attrs]
    · rename_i t i hp
      simp only [Bool.and_eq_true, Bool.not_eq_true', bne_iff_ne, ne_eq] at hs2
      rw [hp, select_head hs2.2 (by simpa using hs2.1) h]
    · cases hs2
  unfold readSlot
  rw [this]

theorem head_into {L : List Key} {s : RSlot} (hs : headSlot L s = true) {x y : Xml} (h : SameBut L x y)
    {T : Key → Option RBody} {into : Key → Option (MObj py.F) → Xml → Except RErr (MObj py.F)} {over : List Key} (o : List (MObj py.F)) :
    intoSlot py strict T into over x s o = intoSlot py strict T into over y s o := by
  have hn : s.named = false := by
    unfold headSlot at hs
    simp only [Bool.and_eq_true, Bool.not_eq_true'] at hs
    exact hs.1
  unfold intoSlot
  rw [hn]
  simp only [head_read hs h]

theorem head_twice {L : List Key} {s : RSlot} (hs : headSlot L s = true) {x : Xml}
    {T : Key → Option RBody} {into : Key → Option (MObj py.F) → Xml → Except RErr (MObj py.F)} {over : List Key} {o w : List (MObj py.F)} :
    intoSlot py strict T into over x s o = .ok w ↔ ∃ v, intoSlot py strict T into over x s o = .ok v ∧ intoSlot py strict T into over x s v = .ok w := by
  have hl : s.isList = false := by
    unfold headSlot at hs
    simp only [Bool.and_eq_true] at hs
    have hs2 := hs.2
    split at hs2
    · rename_i hp _; simp [RSlot.isList, hp, Path.single]
    · rename_i hp; simp [RSlot.isList, hp, Path.single]
    · cases hs2
  have hn : s.named = false := by
    unfold headSlot at hs
    simp only [Bool.and_eq_true, Bool.not_eq_true'] at hs
    exact hs.1
  unfold intoSlot
  rw [hn, hl]
  simp only [Bool.false_eq_true, if_false]
  cases readSlot py strict (fun k y => into k none y) x s with
  | error e => simp
  | ok vs =>
    simp only
    split
    · simp [eq_comm]
    · simp [eq_comm]

theorem list_slot_read {L : List Key} {s : RSlot} (hs : listSlot L s = true) {x y z : Xml} (hz : ∀ t ∈ L, contents t z = contents t x ++ contents t y)
    (rd : Key → Xml → Except RErr (MObj py.F)) {w : List (MObj py.F)} : readSlot py strict rd z s = .ok w ↔
      ∃ u v, readSlot py strict rd x s = .ok u ∧ readSlot py strict rd y s = .ok v ∧ w = u ++ v := by
  unfold listSlot at hs
  split at hs
  · rename_i t u hp
    simp only [Bool.and_eq_true, Bool.not_eq_true', bne_iff_ne, ne_eq, beq_iff_eq] at hs
    have key : ∀ {x w}, readSlot py strict rd x s = .ok w ↔ ∃ ws, mapE (readItem py strict rd s.item) (select s.path x) = .ok ws ∧ w = ws.flatten := by
      intro x w
      unfold readSlot
      rw [hs.1.2, hs.2]
      cases mapE (readItem py strict rd s.item) (select s.path x) with
      | error e => simp
      | ok vs => simp [eq_comm]
    simp only [key, hp, select_list hs.1.1.2, hz t (by simpa using hs.1.1.1), List.filter_append, mapE_app]
    constructor
    · rintro ⟨_, ⟨u, v, h1, h2, rfl⟩, rfl⟩
      exact ⟨_, _, ⟨u, h1, rfl⟩, ⟨v, h2, rfl⟩, by simp⟩
    · rintro ⟨_, _, ⟨u, h1, rfl⟩, ⟨v, h2, rfl⟩, rfl⟩
      exact ⟨_, ⟨u, v, h1, h2, rfl⟩, by simp⟩
  · cases hs

theorem slot_named {s : RSlot} {alts : List (Key × Key)} (hn : s.named = true) (hi : s.item = .objs alts) (hs : s.path.single = false) {x : Xml}
    {T : Key → Option RBody} {into : Key → Option (MObj py.F) → Xml → Except RErr (MObj py.F)} {over : List Key} {o w : List (MObj py.F)} :
    intoSlot py strict T into over x s o = .ok w ↔ foldE (putNamed py T into s alts) o (select s.path x) = .ok w := by
  unfold intoSlot
  rw [hn, hi, hs]
  simp only [Bool.false_and, Bool.false_eq_true, if_false]
  cases foldE (putNamed py T into s alts) o (select s.path x) <;> simp

theorem slot_list {s : RSlot} (hn : ¬ ∃ alts, s.named = true ∧ s.item = .objs alts) (hl : s.isList = true) {x : Xml}
    {T : Key → Option RBody} {into : Key → Option (MObj py.F) → Xml → Except RErr (MObj py.F)} {over : List Key} {o w : List (MObj py.F)} :
    intoSlot py strict T into over x s o = .ok w ↔ ∃ vs, readSlot py strict (fun k y => into k none y) x s = .ok vs ∧ w = o ++ vs := by
  unfold intoSlot
  split
  · rename_i alts h1 h2
    exact absurd ⟨alts, h1, h2⟩ hn
  · rw [hl]
    cases readSlot py strict (fun k y => into k none y) x s with
    | error e => simp
    | ok vs => simp [eq_comm]

theorem list_steps {L : List Key} {s : RSlot} (hs : listSlot L s = true) {x y z : Xml} (hz : ∀ t ∈ L, contents t z = contents t x ++ contents t y)
    {T : Key → Option RBody} {into : Key → Option (MObj py.F) → Xml → Except RErr (MObj py.F)} {over : List Key} {o w : List (MObj py.F)} :
    intoSlot py strict T into over z s o = .ok w ↔ ∃ v, intoSlot py strict T into over x s o = .ok v ∧ intoSlot py strict T into over y s v = .ok w := by
  have hr := fun {w} => list_slot_read (py := py) (strict := strict) hs hz (fun k y => into k none y) (w := w)
  unfold listSlot at hs
  split at hs
  · rename_i t u hp
    simp only [Bool.and_eq_true, Bool.not_eq_true', bne_iff_ne, ne_eq, beq_iff_eq] at hs
    have hl : s.isList = true := by simp [RSlot.isList, hp, Path.single, hs.1.2]
    by_cases hni : ∃ alts, s.named = true ∧ s.item = .objs alts
    · obtain ⟨alts, hn, hi⟩ := hni
      have hsg : s.path.single = false := by rw [hp]; rfl
      simp only [slot_named hn hi hsg]
      rw [hp, select_list hs.1.1.2, select_list hs.1.1.2, select_list hs.1.1.2, hz t (by simpa using hs.1.1.1), List.filter_append, foldE_app]
    · simp only [slot_list hni hl, hr]
      constructor
      · rintro ⟨_, ⟨u, v, h1, h2, rfl⟩, rfl⟩
        exact ⟨_, ⟨u, h1, rfl⟩, v, h2, by simp⟩
      · rintro ⟨_, ⟨u, h1, rfl⟩, v, h2, rfl⟩
        exact ⟨_, ⟨u, v, h1, h2, rfl⟩, by simp⟩
  · cases hs

/-! ## objects -/

/-- reading an element with as much fuel as it needs -/
def intoX (py : Py) (strict : Bool) (k : Key) (o : Option (MObj py.F)) (y : Xml) : Except RErr (MObj py.F) := intoObj py strict readers overs y.depth k o y

theorem intoX_eq {k : Key} {b : RBody} (hb : readers k = some b) (o : Option (MObj py.F)) (x : Xml) :
    intoX py strict k o x = intoBody py strict readers (intoX py strict) (overs k) b (o.getD (blankOf py b)) x := by
  unfold intoX
  have hd := depth_pos x
  obtain ⟨m, hm⟩ : ∃ m, x.depth = m + 1 := ⟨x.depth - 1, by omega⟩
  rw [hm, intoObj, hb]
  simp only
  unfold intoBody
  split
  · rfl
  have : ∀ s ∈ b.slots, ∀ v, intoSlot py strict readers (intoObj py strict readers overs m) (overs k) x s v =
      intoSlot py strict readers (intoX py strict) (overs k) x s v := by
    intro s hs v
    have hd : deep s.item = true → ∀ y ∈ select s.path x, ∀ k o, intoObj py strict readers overs m k o y = intoX py strict k o y := by
      intro hd y hy k' o'
      have := (select_depth hy).2 (moving k b hb s hs hd)
      exact intoObj_stable moving (by omega) (Nat.le_refl _)
    unfold intoSlot
    split
    · rename_i alts hnm hi
      rw [foldE_same (g := putNamed py readers (intoX py strict) s alts)]
      intro v y hy
      unfold putNamed
      have := hd (by rw [hi]; rfl) y hy
      simp only [this]
    · rw [readSlot_eq (rd' := fun k y => intoX py strict k none y) fun h y hy k => hd h y hy k none]
  rw [zip_same this]
  rfl

variable {T : Key → Option RBody}

theorem intoBody_iff {into : Key → Option (MObj py.F) → Xml → Except RErr (MObj py.F)} {over : List Key} {b : RBody} {o r : MObj py.F} {x : Xml} :
    intoBody py strict T into over b o x = .ok r ↔
    ∃ olds rs, o = .mk b.cls ((b.slots.map RSlot.key).zip olds) ∧ olds.length = b.slots.length ∧
      zipE (intoSlot py strict T into over x) b.slots olds = .ok rs ∧ r = .mk b.cls ((b.slots.map RSlot.key).zip rs) ∧ namesOk b.slots r = true := by
  refine ⟨intoBody_ok, ?_⟩
  rintro ⟨olds, rs, rfl, hl, hz, rfl, hn⟩
  unfold intoBody
  have h1 : ((b.slots.map RSlot.key).zip olds).map Prod.fst = b.slots.map RSlot.key := List.map_fst_zip (by simp [hl])
  have h2 : ((b.slots.map RSlot.key).zip olds).map Prod.snd = olds := List.map_snd_zip (by simp [hl])
  simp only [h1, h2, and_self, if_true, hz, hn]

theorem shown_sub {F : Type} {g : Key} {keys : List (Key × Bool)} {vs ws : List (List (MObj F))}
    (h : List.Forall₂ (fun v w : List (MObj F) => (v.map MObj.name).Sublist (w.map MObj.name)) vs ws) :
    ((shown g (keys.zip vs)).map MObj.name).Sublist ((shown g (keys.zip ws)).map MObj.name) := by
  induction h generalizing keys with
  | nil => simp [shown]
  | cons h0 _ ih =>
    cases keys with
    | nil => simp [shown]
    | cons k keys =>
      simp only [List.zip_cons_cons, shown_cons, List.map_append]
      refine List.Sublist.append ?_ ih
      split
      · exact h0
      · simp

theorem namesOk_sub {F : Type} {c : Key} {slots : List RSlot} {vs ws : List (List (MObj F))}
    (h : List.Forall₂ (fun v w : List (MObj F) => (v.map MObj.name).Sublist (w.map MObj.name)) vs ws)
    (hn : namesOk slots (.mk c ((slots.map RSlot.key).zip ws)) = true) : namesOk slots (.mk c ((slots.map RSlot.key).zip vs)) = true := by
  unfold namesOk at hn ⊢
  rw [List.all_eq_true] at hn ⊢
  intro s hs
  have := hn s hs
  simp only [Bool.and_eq_true, Bool.or_eq_true, Bool.not_eq_true', decide_eq_true_eq, get_mk, Nat.ble_eq] at this ⊢
  refine ⟨this.1.imp id fun hnd => hnd.sublist (shown_sub h), this.2.imp id fun hl => ?_⟩
  have h2 := (shown_sub (g := s.field) (keys := slots.map RSlot.key) h).length_le
  simp only [List.length_map] at h2
  omega

/-- the slots of packages and of the file -/
def shaped (L : List Key) (s : RSlot) : Bool := listSlot L s || headSlot L s

theorem slot_steps {L : List Key} {s : RSlot} (hs : shaped L s = true) {x y z : Xml} (h : Parts L z x y)
    {into : Key → Option (MObj py.F) → Xml → Except RErr (MObj py.F)} {over : List Key} (o w : List (MObj py.F)) :
    intoSlot py strict T into over z s o = .ok w ↔ ∃ v, intoSlot py strict T into over x s o = .ok v ∧ intoSlot py strict T into over y s v = .ok w := by
  unfold shaped at hs
  rw [Bool.or_eq_true] at hs
  rcases hs with hs | hs
  · exact list_steps hs h.lists
  · simp only [← head_into hs h.first, ← head_into hs h.second]
    exact head_twice hs

theorem slot_names {L : List Key} {s : RSlot} (hs : shaped L s = true) (hok : slotOk T s = true) {x y z : Xml} (h : Parts L z x y)
    {into : Key → Option (MObj py.F) → Xml → Except RErr (MObj py.F)}
    (hname : ∀ k b y v o, T k = some b → nameOk b = true → into k v y = .ok o → o.name = elemName y ∧ o.cls = b.cls)
    {over : List Key} {o v w : List (MObj py.F)} (h1 : intoSlot py strict T into over x s o = .ok v) (h2 : intoSlot py strict T into over y s v = .ok w) :
    (v.map MObj.name).Sublist (w.map MObj.name) := by
  unfold shaped at hs
  rw [Bool.or_eq_true] at hs
  rcases hs with hs | hs
  · unfold listSlot at hs
    split at hs
    · rename_i t u hp
      simp only [Bool.and_eq_true, Bool.not_eq_true', bne_iff_ne, ne_eq, beq_iff_eq] at hs
      have hl : s.isList = true := by simp [RSlot.isList, hp, Path.single, hs.1.2]
      by_cases hni : ∃ alts, s.named = true ∧ s.item = .objs alts
      · obtain ⟨alts, hn, hi⟩ := hni
        obtain ⟨alts', hi', ha, _⟩ := slotOk_named hok hn
        rw [hi] at hi'; cases hi'
        rw [slot_named hn hi (by rw [hp]; rfl)] at h2
        obtain ⟨l, hl⟩ := fold_names ha hname h2
        rw [hl]
        exact List.sublist_append_left _ _
      · rw [slot_list hni hl] at h2
        obtain ⟨vs, _, rfl⟩ := h2
        rw [List.map_append]
        exact List.sublist_append_left _ _
    · cases hs
  · rw [← head_into hs h.second, head_into hs h.first] at h2
    have := (head_twice hs).2 ⟨v, h1, h2⟩
    rw [h1] at this
    cases this
    exact List.Sublist.refl _

theorem body_steps {L : List Key} {b : RBody} (hs : ∀ s ∈ b.slots, shaped L s = true) (hok : ∀ s ∈ b.slots, slotOk T s = true) {x y z : Xml} (h : Parts L z x y)
    {into : Key → Option (MObj py.F) → Xml → Except RErr (MObj py.F)}
    (hname : ∀ k b y v o, T k = some b → nameOk b = true → into k v y = .ok o → o.name = elemName y ∧ o.cls = b.cls)
    {over : List Key} {o r : MObj py.F} :
    intoBody py strict T into over b o z = .ok r ↔ ∃ m, intoBody py strict T into over b o x = .ok m ∧ intoBody py strict T into over b m y = .ok r := by
  constructor
  · intro hz
    obtain ⟨olds, rs, ho, hl, hz, hr, hn⟩ := intoBody_iff.1 hz
    obtain ⟨vs, h1, h2⟩ := (zip_steps (fun s hm o w => slot_steps (hs s hm) h o w) hl).1 hz
    have hf := zip_rel (R := fun v w : List (MObj py.F) => (v.map MObj.name).Sublist (w.map MObj.name))
      (fun s hm o v w h1 h2 => slot_names (hs s hm) (hok s hm) h hname h1 h2) h1 h2
    refine ⟨.mk b.cls ((b.slots.map RSlot.key).zip vs), intoBody_iff.2 ⟨olds, vs, ho, hl, h1, rfl, ?_⟩,
      intoBody_iff.2 ⟨vs, rs, rfl, zipE_len h1 hl, h2, hr, hn⟩⟩
    rw [hr] at hn
    exact namesOk_sub hf hn
  · rintro ⟨m, hx, hy⟩
    obtain ⟨olds, vs, ho, hl, h1, hm, _⟩ := intoBody_iff.1 hx
    obtain ⟨vs', rs, hm', hl', h2, hr, hn⟩ := intoBody_iff.1 hy
    rw [hm] at hm'
    have hvl := zipE_len h1 hl
    have : vs = vs' := by
      have e := congrArg (List.map Prod.snd) (MObj.mk.inj hm').2
      rwa [List.map_snd_zip (by simp [hvl]), List.map_snd_zip (by simp [hl'])] at e
    subst this
    exact intoBody_iff.2 ⟨olds, rs, ho, hl, (zip_steps (fun s hm o w => slot_steps (hs s hm) h o w) hl).2 ⟨vs, h1, h2⟩, hr, hn⟩

theorem intoX_name (k : Key) (b : RBody) (y : Xml) (v : Option (MObj py.F)) (o : MObj py.F) (hb : readers k = some b) (hn : nameOk b = true)
    (h : intoX py strict k v y = .ok o) : o.name = elemName y ∧ o.cls = b.cls := intoObj_name hb hn h

theorem into_steps {L : List Key} {k : Key} {b : RBody} (hb : readers k = some b) (hs : ∀ s ∈ b.slots, shaped L s = true) {x y z : Xml} (h : Parts L z x y)
    (o : Option (MObj py.F)) (r : MObj py.F) : intoX py strict k o z = .ok r ↔ ∃ m, intoX py strict k o x = .ok m ∧ intoX py strict k (some m) y = .ok r := by
  simp only [intoX_eq hb, Option.getD_some]
  exact body_steps hs (slotsOk k b hb) h intoX_name

/-! ## lists of packages -/

/-- the slot for packages -/
def pkgsSlot : RSlot :=
  { field := k!"arPackages", path := (.all k!"AR-PACKAGES" (.all k!"AR-PACKAGE" .nil)), item := (.objs [(k!"AR-PACKAGE", k!"readARPackages_ARPackage")]), named := true }

/-- the test for other children of `AR-PACKAGES` -/
def pkgsGuard : RSlot := { field := 0, path := (.all k!"AR-PACKAGES" (.all 0 .nil)), item := (.guard [k!"AR-PACKAGE"] .unsupported) }

/-- the slots for what is in `AR-PACKAGES` -/
def pkgsShape (s : RSlot) : Bool := match s.path with
  | .all t _ => t != k!"AR-PACKAGES" || s == pkgsSlot || s == pkgsGuard
  | _ => true

theorem pkg_facts : ∃ b, readers k!"readARPackages_ARPackage" = some b ∧ nameOk b = true ∧
    (b.slots.all fun s => shaped packageLists s && pkgsShape s) = true := by
  have h : ((readers k!"readARPackages_ARPackage").map fun b => (nameOk b, b.slots.all fun s => shaped packageLists s && pkgsShape s)) = some (true, true) := by
    decide +kernel
  obtain ⟨b, hb, h⟩ := Option.map_eq_some_iff.1 h
  exact ⟨b, hb, congrArg Prod.fst h, congrArg Prod.snd h⟩

theorem load_facts : (loadBody.slots.all fun s => shaped [k!"AR-PACKAGES"] s && pkgsShape s) = true := by decide +kernel

/-- a child of `AR-PACKAGES` is read -/
def put (py : Py) (strict : Bool) : List (MObj py.F) → Xml → Except RErr (List (MObj py.F)) :=
  putNamed py readers (intoX py strict) pkgsSlot [(k!"AR-PACKAGE", k!"readARPackages_ARPackage")]

theorem put_other {y : Xml} (h : y.tag ≠ k!"AR-PACKAGE") (old : List (MObj py.F)) : put py strict old y = .ok old := by
  simp [put, putNamed, altOf, Ne.symm h]

theorem put_pkg {b : RBody} (hb : readers k!"readARPackages_ARPackage" = some b) {y : Xml} (h : y.tag = k!"AR-PACKAGE") (old : List (MObj py.F)) :
    put py strict old y = if old.any (isIt b.cls (elemName y)) then
      replaceE (isIt b.cls (elemName y)) (fun v => intoX py strict k!"readARPackages_ARPackage" (some v) y) old
      else (intoX py strict k!"readARPackages_ARPackage" none y).map fun o => old ++ [o] := by
  simp only [put, putNamed, altOf, h, if_true, hb]
  split
  · rfl
  · cases intoX py strict k!"readARPackages_ARPackage" none y <;> rfl

theorem put_it {b : RBody} (hb : readers k!"readARPackages_ARPackage" = some b) (hn : nameOk b = true) {y : Xml} {v : Option (MObj py.F)} {u : MObj py.F}
    (h : intoX py strict k!"readARPackages_ARPackage" v y = .ok u) : isIt b.cls (elemName y) u = true := by
  have := intoX_name _ b y v u hb hn h
  rw [isIt_iff]
  exact ⟨this.2, this.1⟩

theorem isIt_other {F : Type} {c : Key} {n n' : Str} (h : n ≠ n') {v : MObj F} (hv : isIt c n v = true) : isIt c n' v = false := by
  rw [isIt_iff] at hv
  rw [Bool.eq_false_iff]
  intro h'
  rw [isIt_iff] at h'
  exact h (hv.2.symm.trans h'.2)

private theorem map_ok {α β ε : Type} {f : α → β} {e : Except ε α} {w : β} : e.map f = .ok w ↔ ∃ v, e = .ok v ∧ f v = w := by
  cases e <;> simp [Except.map]

theorem put_any {b : RBody} (hb : readers k!"readARPackages_ARPackage" = some b) (hn : nameOk b = true) {y : Xml} {n : Str}
    {old m : List (MObj py.F)} (ho : old.any (isIt b.cls n) = true) (h : put py strict old y = .ok m) : m.any (isIt b.cls n) = true := by
  by_cases ht : y.tag = k!"AR-PACKAGE"
  · rw [put_pkg hb ht] at h
    split at h
    · rw [replace_any (q := isIt b.cls n) ?_ h]
      · exact ho
      · intro v u hv hu
        have := put_it hb hn hu
        by_cases he : elemName y = n
        · rw [← he, hv, this]
        · rw [isIt_other he hv, isIt_other he this]
    · obtain ⟨v, _, rfl⟩ := map_ok.1 h
      rw [List.any_append, ho]
      rfl
  · rw [put_other ht] at h
    cases h
    exact ho

theorem put_twice {b : RBody} (hb : readers k!"readARPackages_ARPackage" = some b) (hn : nameOk b = true) {x y z : Xml} (hz : z.tag = k!"AR-PACKAGE") (h : Parts packageLists z x y)
    (hs : ∀ s ∈ b.slots, shaped packageLists s = true) {old r : List (MObj py.F)} : put py strict old z = .ok r ↔
      ∃ m, put py strict old x = .ok m ∧ put py strict m y = .ok r := by
  have hx : x.tag = k!"AR-PACKAGE" := h.first.tag ▸ hz
  have hy : y.tag = k!"AR-PACKAGE" := h.second.tag ▸ hz
  have nx : elemName z = elemName x := alike_name (by decide +kernel) h.first
  have ny : elemName z = elemName y := alike_name (by decide +kernel) h.second
  simp only [put_pkg hb hz, put_pkg hb hx, put_pkg hb hy, ← nx, ← ny]
  have hit := fun {v : Option (MObj py.F)} {u : MObj py.F} (h : intoX py strict k!"readARPackages_ARPackage" v x = .ok u) => nx ▸ put_it hb hn h
  by_cases ha : old.any (isIt b.cls (elemName z)) = true
  · rw [if_pos ha, if_pos ha, replace_twice (f := fun v => intoX py strict k!"readARPackages_ARPackage" (some v) x)
      (g := fun v => intoX py strict k!"readARPackages_ARPackage" (some v) y) (fun v u hu => hit hu) fun v w => into_steps hb hs h (some v) w]
    constructor
    · rintro ⟨m, h1, h2⟩
      have : m.any (isIt b.cls (elemName z)) = true := by
        rw [replace_any (q := isIt b.cls (elemName z)) (fun v u hv hu => by rw [hv]; exact hit hu) h1]
        exact ha
      exact ⟨m, h1, by rw [if_pos this]; exact h2⟩
    · rintro ⟨m, h1, h2⟩
      have : m.any (isIt b.cls (elemName z)) = true := by
        rw [replace_any (q := isIt b.cls (elemName z)) (fun v u hv hu => by rw [hv]; exact hit hu) h1]
        exact ha
      rw [if_pos this] at h2
      exact ⟨m, h1, h2⟩
  · rw [if_neg ha, if_neg ha]
    simp only [map_ok, into_steps hb hs h none]
    constructor
    · rintro ⟨w, ⟨u, h1, h2⟩, rfl⟩
      refine ⟨old ++ [u], ⟨u, h1, rfl⟩, ?_⟩
      rw [if_pos (by simp [hit h1]), replace_end (by simpa using ha) (hit h1), h2]
      rfl
    · rintro ⟨_, ⟨u, h1, rfl⟩, h2⟩
      rw [if_pos (by simp [hit h1]), replace_end (by simpa using ha) (hit h1), map_ok] at h2
      obtain ⟨w, h2, rfl⟩ := h2
      exact ⟨w, ⟨u, h1, h2⟩, rfl⟩

theorem put_comm {b : RBody} (hb : readers k!"readARPackages_ARPackage" = some b) (hn : nameOk b = true) {w y : Xml} (hy : y.tag = k!"AR-PACKAGE")
    (hne : elemName w ≠ elemName y) {old r : List (MObj py.F)} (ho : old.any (isIt b.cls (elemName y)) = true) :
    (∃ m, put py strict old w = .ok m ∧ put py strict m y = .ok r) ↔ ∃ m, put py strict old y = .ok m ∧ put py strict m w = .ok r := by
  by_cases hw : w.tag = k!"AR-PACKAGE"
  · have hfw := fun {v : Option (MObj py.F)} {u : MObj py.F} (h : intoX py strict k!"readARPackages_ARPackage" v w = .ok u) => put_it hb hn h
    have hfy := fun {v : Option (MObj py.F)} {u : MObj py.F} (h : intoX py strict k!"readARPackages_ARPackage" v y = .ok u) => put_it hb hn h
    simp only [put_pkg hb hw, put_pkg hb hy]
    rw [if_pos ho]
    by_cases ha : old.any (isIt b.cls (elemName w)) = true
    · rw [if_pos ha]
      constructor
      · rintro ⟨m, h1, h2⟩
        have e1 : m.any (isIt b.cls (elemName y)) = true := by
          rw [replace_any (q := isIt b.cls (elemName y)) (fun v u hv hu => by rw [isIt_other hne hv, isIt_other hne (hfw hu)]) h1]
          exact ho
        rw [if_pos e1] at h2
        obtain ⟨m', h3, h4⟩ := replace_comm (fun v => isIt_other hne) (fun v u hu => hfw hu) (fun v u hu => hfy hu) h1 h2
        have e2 : m'.any (isIt b.cls (elemName w)) = true := by
          rw [replace_any (q := isIt b.cls (elemName w)) (fun v u hv hu => by rw [isIt_other (Ne.symm hne) hv, isIt_other (Ne.symm hne) (hfy hu)]) h3]
          exact ha
        exact ⟨m', h3, by rw [if_pos e2]; exact h4⟩
      · rintro ⟨m, h1, h2⟩
        have e1 : m.any (isIt b.cls (elemName w)) = true := by
          rw [replace_any (q := isIt b.cls (elemName w)) (fun v u hv hu => by rw [isIt_other (Ne.symm hne) hv, isIt_other (Ne.symm hne) (hfy hu)]) h1]
          exact ha
        rw [if_pos e1] at h2
        obtain ⟨m', h3, h4⟩ := replace_comm (fun v => isIt_other (Ne.symm hne)) (fun v u hu => hfy hu) (fun v u hu => hfw hu) h1 h2
        have e2 : m'.any (isIt b.cls (elemName y)) = true := by
          rw [replace_any (q := isIt b.cls (elemName y)) (fun v u hv hu => by rw [isIt_other hne hv, isIt_other hne (hfw hu)]) h3]
          exact ho
        exact ⟨m', h3, by rw [if_pos e2]; exact h4⟩
    · rw [if_neg ha]
      constructor
      · rintro ⟨m, h1, h2⟩
        obtain ⟨u, hu, rfl⟩ := map_ok.1 h1
        rw [if_pos (by rw [List.any_append, ho]; rfl), replace_app ho, map_ok] at h2
        obtain ⟨m', h3, rfl⟩ := h2
        have e2 : ¬ m'.any (isIt b.cls (elemName w)) = true := by
          rw [replace_any (q := isIt b.cls (elemName w)) (fun v u hv hu => by rw [isIt_other (Ne.symm hne) hv, isIt_other (Ne.symm hne) (hfy hu)]) h3]
          exact ha
        refine ⟨m', h3, ?_⟩
        rw [if_neg e2, hu]
        rfl
      · rintro ⟨m, h1, h2⟩
        have e2 : ¬ m.any (isIt b.cls (elemName w)) = true := by
          rw [replace_any (q := isIt b.cls (elemName w)) (fun v u hv hu => by rw [isIt_other (Ne.symm hne) hv, isIt_other (Ne.symm hne) (hfy hu)]) h1]
          exact ha
        rw [if_neg e2, map_ok] at h2
        obtain ⟨u, hu, rfl⟩ := h2
        refine ⟨old ++ [u], map_ok.2 ⟨u, hu, rfl⟩, ?_⟩
        rw [if_pos (by rw [List.any_append, ho]; rfl), replace_app ho, h1]
        rfl
  · simp only [put_other hw]
    constructor
    · rintro ⟨m, h1, h2⟩
      cases h1
      exact ⟨r, h2, rfl⟩
    · rintro ⟨m, h1, h2⟩
      cases h2
      exact ⟨old, rfl, h1⟩

theorem fold_comm {b : RBody} (hb : readers k!"readARPackages_ARPackage" = some b) (hn : nameOk b = true) {y : Xml} (hy : y.tag = k!"AR-PACKAGE")
    {ws : List Xml} (hne : ∀ w ∈ ws, elemName w ≠ elemName y) {old r : List (MObj py.F)} (ho : old.any (isIt b.cls (elemName y)) = true) :
    (∃ m, foldE (put py strict) old ws = .ok m ∧ put py strict m y = .ok r) ↔ ∃ m, put py strict old y = .ok m ∧ foldE (put py strict) m ws = .ok r := by
  induction ws generalizing old with
  | nil => simp [foldE]
  | cons w ws ih =>
    have key : ∀ {old r}, foldE (put py strict) old (w :: ws) = .ok r ↔ ∃ m, put py strict old w = .ok m ∧ foldE (put py strict) m ws = .ok r := by
      intro old r
      rw [foldE]
      cases put py strict old w <;> simp
    simp only [key]
    have ih' := fun {old} (ho : old.any (isIt b.cls (elemName y)) = true) => ih (fun w hw => hne w (by simp [hw])) (old := old) ho
    constructor
    · rintro ⟨m, ⟨m1, h1, h2⟩, h3⟩
      obtain ⟨m2, h4, h5⟩ := (ih' (put_any hb hn ho h1)).1 ⟨m, h2, h3⟩
      obtain ⟨m3, h6, h7⟩ := (put_comm hb hn hy (hne w (by simp)) ho).1 ⟨m1, h1, h4⟩
      exact ⟨m3, h6, m2, h7, h5⟩
    · rintro ⟨m3, h6, m2, h7, h5⟩
      obtain ⟨m1, h1, h4⟩ := (put_comm hb hn hy (hne w (by simp)) ho).2 ⟨m3, h6, h7⟩
      obtain ⟨m, h2, h3⟩ := (ih' (put_any hb hn ho h1)).2 ⟨m2, h4, h5⟩
      exact ⟨m, ⟨m1, h1, h2⟩, h3⟩

/-! ## what a division is -/

theorem divide_tags {ps qs : List Xml} (h : Divide ps qs) : (∀ p ∈ ps, p.tag = k!"AR-PACKAGE") ↔ ∀ q ∈ qs, q.tag = k!"AR-PACKAGE" := by
  induction h with
  | same => exact Iff.rfl
  | cut hz hp hw =>
    have hx := hp.first.tag
    have hy := hp.second.tag
    simp only [List.mem_cons, List.mem_append, List.cons_append, List.not_mem_nil, or_false]
    constructor
    · rintro h q (rfl | hq | rfl)
      · rw [← hx, hz]
      · exact h q (.inr hq)
      · rw [← hy, hz]
    · rintro h q (rfl | hq)
      · exact hz
      · exact h q (.inr (.inl hq))
  | inside ha _ _ _ => simp [ha.tag]
  | app _ _ ih1 ih2 => simp only [List.mem_append, or_imp, forall_and, ih1, ih2]
  | trans _ _ ih1 ih2 => exact ih1.trans ih2

theorem fold_filter (ps : List Xml) (old : List (MObj py.F)) : foldE (put py strict) old (ps.filter (tagIs k!"AR-PACKAGE")) = foldE (put py strict) old ps := by
  induction ps generalizing old with
  | nil => rfl
  | cons p ps ih =>
    by_cases hp : p.tag = k!"AR-PACKAGE"
    · rw [List.filter_cons_of_pos (by simp [tagIs, hp]), foldE, foldE]
      simp only [ih]
    · rw [List.filter_cons_of_neg (by simp [tagIs, hp]), foldE, put_other hp]
      exact ih old

theorem guard_ok (l : List Xml) {rd : Key → Xml → Except RErr (MObj py.F)} {w : List (List (MObj py.F))} :
    mapE (readItem py strict rd (.guard [k!"AR-PACKAGE"] .unsupported)) l = .ok w ↔ (strict = true → ∀ p ∈ l, p.tag = k!"AR-PACKAGE") ∧ w = l.map fun _ => [] := by
  induction l generalizing w with
  | nil => simp [mapE, eq_comm]
  | cons p l ih =>
    rw [mapE]
    by_cases hp : p.tag = k!"AR-PACKAGE"
    · simp only [readItem, hp, List.contains_cons, List.contains_nil, Bool.or_false, beq_self_eq_true, if_true]
      constructor
      · intro h
        split at h
        · cases h
        rename_i ws hws
        cases h
        obtain ⟨h1, rfl⟩ := ih.1 hws
        exact ⟨fun hst => by simpa [hp] using h1 hst, rfl⟩
      · rintro ⟨h1, rfl⟩
        rw [ih.2 ⟨fun hst => fun p hp => h1 hst p (by simp [hp]), rfl⟩]
        rfl
    · have : ([k!"AR-PACKAGE"] : List Key).contains p.tag = false := by simpa using hp
      cases strict with
      | true => simp [readItem, hp]
      | false =>
        simp only [readItem, this, Bool.false_eq_true, if_false, false_imp_iff, true_and]
        constructor
        · intro h
          split at h
          · cases h
          rename_i ws hws
          cases h
          obtain ⟨_, rfl⟩ := ih.1 hws
          rfl
        · rintro rfl
          rw [ih.2 ⟨by simp, rfl⟩]
          rfl

/-- what an element gives does not change if what is inside of `AR-PACKAGES` is divided -/
theorem inside_into {L : List Key} {k : Key} {b : RBody} (hb : readers k = some b) (hs : (b.slots.all fun s => shaped L s && pkgsShape s) = true) {z z' : Xml}
    (ha : SameBut L z z') (hc : ∀ t ∈ L, t ≠ k!"AR-PACKAGES" → contents t z = contents t z')
    (ht : (∀ p ∈ contents k!"AR-PACKAGES" z, p.tag = k!"AR-PACKAGE") ↔ ∀ q ∈ contents k!"AR-PACKAGES" z', q.tag = k!"AR-PACKAGE")
    (hp : ∀ old r, foldE (put py strict) old (contents k!"AR-PACKAGES" z) = .ok r ↔ foldE (put py strict) old (contents k!"AR-PACKAGES" z') = .ok r)
    (o : Option (MObj py.F)) (r : MObj py.F) : intoX py strict k o z = .ok r ↔ intoX py strict k o z' = .ok r := by
  rw [intoX_eq hb, intoX_eq hb, intoBody_iff, intoBody_iff]
  have hz : ∀ s ∈ b.slots, ∀ v w, intoSlot py strict readers (intoX py strict) (overs k) z s v = .ok w ↔
      intoSlot py strict readers (intoX py strict) (overs k) z' s v = .ok w := by
    intro s hm v w
    have h := List.all_eq_true.1 hs s hm
    simp only [shaped, Bool.and_eq_true, Bool.or_eq_true] at h
    obtain ⟨hsh | hsh, hpk⟩ := h
    · unfold listSlot at hsh
      split at hsh
      · rename_i t u hpath
        simp only [Bool.and_eq_true, Bool.not_eq_true', bne_iff_ne, ne_eq, beq_iff_eq] at hsh
        by_cases htp : t = k!"AR-PACKAGES"
        · simp only [pkgsShape, hpath, htp, Bool.or_eq_true, bne_self_eq_false, Bool.false_eq_true, false_or, beq_iff_eq] at hpk
          rcases hpk with rfl | rfl
          · rw [slot_named rfl rfl rfl, slot_named rfl rfl rfl]
            have e : pkgsSlot.path = .all k!"AR-PACKAGES" (.all k!"AR-PACKAGE" .nil) := rfl
            rw [e, select_list (by decide), select_list (by decide)]
            show foldE (put py strict) _ _ = _ ↔ foldE (put py strict) _ _ = _
            rw [fold_filter, fold_filter]
            exact hp v w
          · have key : ∀ x, (intoSlot py strict readers (intoX py strict) (overs k) x pkgsGuard v = .ok w ↔
                (strict = true → ∀ p ∈ contents k!"AR-PACKAGES" x, p.tag = k!"AR-PACKAGE") ∧ w = v) := by
              intro x
              rw [slot_list (by rintro ⟨_, h, _⟩; cases h) rfl]
              unfold readSlot
              have e : pkgsGuard.path = .all k!"AR-PACKAGES" (.all 0 .nil) := rfl
              have e2 : pkgsGuard.item = .guard [k!"AR-PACKAGE"] .unsupported := rfl
              rw [e, e2, select_list (by decide), show (contents k!"AR-PACKAGES" x).filter (tagIs 0) = contents k!"AR-PACKAGES" x from List.filter_eq_self.2 fun _ _ => rfl]
              have hg := fun {w} => guard_ok (py := py) (strict := strict) (contents k!"AR-PACKAGES" x) (rd := fun k y => intoX py strict k none y) (w := w)
              cases hmp : mapE (readItem py strict (fun k y => intoX py strict k none y) (.guard [k!"AR-PACKAGE"] .unsupported)) (contents k!"AR-PACKAGES" x) with
              | error e =>
                simp only [reduceCtorEq, false_and, exists_const, false_iff, not_and]
                intro h
                have := hg.2 ⟨h, rfl⟩
                rw [hmp] at this
                cases this
              | ok ws =>
                obtain ⟨h1, rfl⟩ := hg.1 hmp
                simp only [show pkgsGuard.last = false from rfl, show pkgsGuard.req = .no from rfl, Bool.false_eq_true, if_false]
                have : ((contents k!"AR-PACKAGES" x).map fun _ => ([] : List (MObj py.F))).flatten = [] := by simp
                rw [this]
                simpa using fun _ => h1
            rw [key, key]
            by_cases hst : strict = true
            · simp only [hst, true_imp_iff, ht]
            · simp [hst]
        · have he := hc t (by simpa using hsh.1.1.1) htp
          have hsel : select s.path z = select s.path z' := by rw [hpath, select_list hsh.1.1.2, select_list hsh.1.1.2, he]
          unfold intoSlot readSlot
          rw [hsel]
      · cases hsh
    · rw [head_into hsh ha]
  simp only [zip_iff hz]

theorem divide_fold {ps qs : List Xml} (h : Divide ps qs) (old r : List (MObj py.F)) :
    foldE (put py strict) old ps = .ok r ↔ foldE (put py strict) old qs = .ok r := by
  obtain ⟨b, hb, hn, hs⟩ := pkg_facts
  have hsh : ∀ s ∈ b.slots, shaped packageLists s = true := by
    intro s hm
    have := List.all_eq_true.1 hs s hm
    simp only [Bool.and_eq_true] at this
    exact this.1
  have one : ∀ {old r y}, foldE (put py strict) old [y] = .ok r ↔ put py strict old y = .ok r := by
    intro old r y
    rw [foldE]
    cases put py strict old y <;> simp [foldE]
  induction h generalizing old r with
  | same => exact Iff.rfl
  | @cut z x y ws hz hp hw =>
    have hx : x.tag = k!"AR-PACKAGE" := hp.first.tag ▸ hz
    have hy : y.tag = k!"AR-PACKAGE" := hp.second.tag ▸ hz
    have nx : elemName z = elemName x := alike_name (by decide +kernel) hp.first
    have ny : elemName z = elemName y := alike_name (by decide +kernel) hp.second
    have key : ∀ {y old r}, foldE (put py strict) old (y :: ws) = .ok r ↔ ∃ m, put py strict old y = .ok m ∧ foldE (put py strict) m ws = .ok r := by
      intro y old r
      rw [foldE]
      cases put py strict old y <;> simp
    rw [foldE_app, key]
    simp only [key, one, put_twice hb hn hz hp hsh]
    have hany : ∀ {m}, put py strict old x = .ok m → m.any (isIt b.cls (elemName y)) = true := by
      intro m hm
      rw [← ny, nx]
      rw [put_pkg hb hx] at hm
      split at hm
      · rename_i ha
        rw [replace_any (q := isIt b.cls (elemName x)) (fun v u hv hu => by rw [hv]; exact put_it hb hn hu) hm]
        exact ha
      · obtain ⟨u, hu, rfl⟩ := map_ok.1 hm
        simp [put_it hb hn hu]
    have hcomm := fun {m} (hm : put py strict old x = .ok m) => fold_comm (py := py) (strict := strict) hb hn hy (fun w h => ny ▸ hw w h) (hany hm) (r := r)
    constructor
    · rintro ⟨m2, ⟨m1, h1, h2⟩, h3⟩
      obtain ⟨m3, h4, h5⟩ := (hcomm h1).2 ⟨m2, h2, h3⟩
      exact ⟨m3, ⟨m1, h1, h4⟩, h5⟩
    · rintro ⟨m3, ⟨m1, h1, h4⟩, h5⟩
      obtain ⟨m2, h2, h3⟩ := (hcomm h1).1 ⟨m3, h4, h5⟩
      exact ⟨m2, ⟨m1, h1, h2⟩, h3⟩
  | @inside z z' ha hc hd ih =>
    rw [one, one]
    have hi := fun o r => inside_into (py := py) (strict := strict) hb hs ha hc (divide_tags hd) ih o r
    by_cases hz : z.tag = k!"AR-PACKAGE"
    · have hz' : z'.tag = k!"AR-PACKAGE" := ha.tag ▸ hz
      have hne : elemName z = elemName z' := alike_name (by decide +kernel) ha
      rw [put_pkg hb hz, put_pkg hb hz', ← hne]
      split
      · rename_i hany
        clear hany
        generalize isIt b.cls (elemName z) = p
        induction old generalizing r with
        | nil => simp [replaceE]
        | cons v old ihl =>
          rw [replaceE, replaceE]
          split
          · have := hi (some v)
            constructor
            · intro h
              split at h
              · cases h
              rename_i w hw
              cases h
              rw [(this w).1 hw]
            · intro h
              split at h
              · cases h
              rename_i w hw
              cases h
              rw [(this w).2 hw]
          · constructor
            · intro h
              split at h
              · cases h
              rename_i l hl
              cases h
              rw [(ihl l).1 hl]
            · intro h
              split at h
              · cases h
              rename_i l hl
              cases h
              rw [(ihl l).2 hl]
      · rw [map_ok, map_ok]
        simp only [hi none]
    · rw [put_other hz, put_other (fun h => hz (ha.tag.trans h))]
  | app _ _ ih1 ih2 => rw [foldE_app, foldE_app]; simp only [ih1, ih2]
  | trans _ _ ih1 ih2 => exact (ih1 old r).trans (ih2 old r)

/-! ## files -/

private theorem load_reader : readers k!"load" = some loadBody := by unfold readers; exact if_pos rfl

theorem loadInto_iff {d d' : MObj py.F} {x : Xml} : loadInto py strict d x = .ok d' ↔
    ¬(x.tag ≠ k!"AUTOSAR" ∧ strict = true) ∧ intoX py strict k!"load" (some d) x = .ok d' := by
  unfold loadInto intoX
  split
  · rename_i h
    simp [h.1, h.2]
  · rename_i h
    simp only [h, not_false_iff, true_and]

theorem load_inside {x x' : Xml} (ha : SameBut [k!"AR-PACKAGES"] x x') (hd : Divide (contents k!"AR-PACKAGES" x) (contents k!"AR-PACKAGES" x')) (d d' : MObj py.F) :
    loadInto py strict d x = .ok d' ↔ loadInto py strict d x' = .ok d' := by
  rw [loadInto_iff, loadInto_iff, ha.tag,
    inside_into load_reader load_facts ha (fun t ht hne => absurd (by simpa using ht) hne) (divide_tags hd) (divide_fold hd)]

theorem load_parts {x y z : Xml} (h : Parts [k!"AR-PACKAGES"] z x y) (d d' : MObj py.F) :
    loadInto py strict d z = .ok d' ↔ ∃ m, loadInto py strict d x = .ok m ∧ loadInto py strict m y = .ok d' := by
  simp only [loadInto_iff, ← h.first.tag, ← h.second.tag]
  have hs : ∀ s ∈ loadBody.slots, shaped [k!"AR-PACKAGES"] s = true := by
    intro s hm
    have := List.all_eq_true.1 load_facts s hm
    simp only [Bool.and_eq_true] at this
    exact this.1
  rw [into_steps load_reader hs h]
  constructor
  · rintro ⟨ht, m, h1, h2⟩
    exact ⟨m, ⟨ht, h1⟩, ht, h2⟩
  · rintro ⟨m, ⟨ht, h1⟩, _, h2⟩
    exact ⟨ht, m, h1, h2⟩

private theorem contents_joined (x : Xml) (ps : List Xml) :
    contents k!"AR-PACKAGES" (.node x.tag x.attrs [] (besides [k!"AR-PACKAGES"] x ++ [.node k!"AR-PACKAGES" [] [] ps])) = ps := by
  simp only [contents, Xml.kids, List.filter_append, List.flatMap_append]
  rw [List.filter_eq_nil_iff.2]
  · simp [Xml.tag, Xml.kids]
  · intro y hy
    have := (List.mem_filter.1 hy).2
    simpa using this

private theorem alike_joined (x : Xml) (ps : List Xml) :
    SameBut [k!"AR-PACKAGES"] x (.node x.tag x.attrs [] (besides [k!"AR-PACKAGES"] x ++ [.node k!"AR-PACKAGES" [] [] ps])) := by
  refine ⟨rfl, rfl, ?_⟩
  show besides _ x = List.filter _ (_ ++ _)
  rw [List.filter_append, besides, List.filter_filter]
  simp [Xml.tag]

theorem alike_symm {L : List Key} {x y : Xml} (h : SameBut L x y) : SameBut L y x := ⟨h.tag.symm, h.attrs.symm, h.besides.symm⟩

theorem alike_trans {L : List Key} {x y z : Xml} (h : SameBut L x y) (h' : SameBut L y z) : SameBut L x z :=
  ⟨h.tag.trans h'.tag, h.attrs.trans h'.attrs, h.besides.trans h'.besides⟩

/-- files with the same root are as good as one with the packages of all of them -/
theorem load_joined {xs : List Xml} (hx : xs ≠ []) {z : Xml} (hr : ∀ y ∈ xs, SameBut [k!"AR-PACKAGES"] z y)
    (hc : contents k!"AR-PACKAGES" z = xs.flatMap (contents k!"AR-PACKAGES")) (d d' : MObj py.F) :
    loadAll py strict d xs = .ok d' ↔ loadInto py strict d z = .ok d' := by
  unfold loadAll
  induction xs generalizing z d with
  | nil => exact absurd rfl hx
  | cons y ys ih =>
    have key : ∀ ys, foldE (loadInto py strict) d (y :: ys) = .ok d' ↔ ∃ m, loadInto py strict d y = .ok m ∧ foldE (loadInto py strict) m ys = .ok d' := by
      intro ys
      rw [foldE]
      cases loadInto py strict d y <;> simp
    cases ys with
    | nil =>
      rw [key, load_inside (hr y (by simp)) (by rw [hc]; simpa using .same _)]
      simp [foldE]
    | cons y' ys =>
      rw [key]
      have hz := alike_joined z ((y' :: ys).flatMap (contents k!"AR-PACKAGES"))
      have hcz := contents_joined z ((y' :: ys).flatMap (contents k!"AR-PACKAGES"))
      generalize Xml.node z.tag z.attrs [] (besides [k!"AR-PACKAGES"] z ++ [.node k!"AR-PACKAGES" [] [] ((y' :: ys).flatMap (contents k!"AR-PACKAGES"))]) = z' at hz hcz
      simp only [fun m => ih (by simp) (z := z') (fun y hy => alike_trans (alike_symm hz) (hr y (by simp [List.mem_cons] at hy ⊢; tauto))) hcz m]
      refine (load_parts ⟨hr y (by simp), hz, ?_⟩ d d').symm
      intro t ht
      rw [List.mem_singleton] at ht
      rw [ht, hc, hcz, List.flatMap_cons]

theorem load_divided {x : Xml} {xs : List Xml} (h : Divided x xs) (d d' : MObj py.F) : loadAll py strict d xs = .ok d' ↔ loadInto py strict d x = .ok d' := by
  have hz := alike_joined x (xs.flatMap (contents k!"AR-PACKAGES"))
  have hcz := contents_joined x (xs.flatMap (contents k!"AR-PACKAGES"))
  generalize Xml.node x.tag x.attrs [] (besides [k!"AR-PACKAGES"] x ++ [.node k!"AR-PACKAGES" [] [] (xs.flatMap (contents k!"AR-PACKAGES"))]) = z at hz hcz
  rw [load_joined h.some (fun y hy => alike_trans (alike_symm hz) (h.root y hy)) hcz, load_inside hz (by rw [hcz]; exact h.packages)]

end

end Verif.Lemmas
