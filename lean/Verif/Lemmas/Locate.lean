import Verif.Lemmas.Check
import Verif.Lemmas.Scalar
/-!
# Where paths lead in what is written
-/
namespace Verif.Lemmas
open Verif Verif.Model Verif.Spec

/-! ## Reloaded elements -/

theorem _root_.Verif.Spec.Reload.tag {x y : Xml} (h : Reload x y) : y.tag = x.tag := by cases h <;> rfl
theorem _root_.Verif.Spec.Reload.attrs {x y : Xml} (h : Reload x y) : y.attrs = x.attrs := by cases h <;> rfl
theorem _root_.Verif.Spec.Reload.kids {x y : Xml} (h : Reload x y) : ReloadAll x.kids y.kids := by
  cases h with
  | leaf => exact .nil
  | node _ _ _ _ _ _ _ _ h1 h2 => exact .cons _ _ _ _ h1 h2

theorem _root_.Verif.Spec.Reload.leaf_eq {x y : Xml} (h : Reload x y) (hk : x.kids = []) : y = x := by
  cases h with
  | leaf => rfl
  | node => cases hk

theorem _root_.Verif.Spec.ReloadAll.append {a b c d : List Xml} (h : ReloadAll a b) (h' : ReloadAll c d) : ReloadAll (a ++ c) (b ++ d) := by
  induction a generalizing b with
  | nil => cases h; exact h'
  | cons x l ih => cases h with
    | cons _ _ _ _ h1 h2 => exact .cons _ _ _ _ h1 (ih h2)

theorem _root_.Verif.Spec.ReloadAll.filter (t : Key) {a b : List Xml} (h : ReloadAll a b) : ReloadAll (a.filter (tagIs t)) (b.filter (tagIs t)) := by
  induction a generalizing b with
  | nil => cases h; exact .nil
  | cons x l ih => cases h with
    | cons _ y _ _ h1 h2 =>
      have e : tagIs t y = tagIs t x := by simp [tagIs, h1.tag]
      rw [List.filter_cons, List.filter_cons, e]
      split
      · exact .cons _ _ _ _ h1 (ih h2)
      · exact ih h2

theorem _root_.Verif.Spec.ReloadAll.flatMap {f : Xml → List Xml} (hf : ∀ x y, Reload x y → ReloadAll (f x) (f y)) {a b : List Xml}
    (h : ReloadAll a b) : ReloadAll (a.flatMap f) (b.flatMap f) := by
  induction a generalizing b with
  | nil => cases h; exact .nil
  | cons x l ih => cases h with
    | cons _ y _ _ h1 h2 => simp only [List.flatMap_cons]; exact (hf x y h1).append (ih h2)

theorem _root_.Verif.Spec.ReloadAll.isEmpty {a b : List Xml} (h : ReloadAll a b) : b.isEmpty = a.isEmpty := by cases h <;> rfl

theorem walk_reload (ts : List Key) {x y : Xml} (h : Reload x y) : ReloadAll (walk ts x) (walk ts y) := by
  induction ts generalizing x y with
  | nil => exact .cons _ _ _ _ h .nil
  | cons t ts ih => exact ReloadAll.flatMap (fun _ _ h => ih h) (h.kids.filter t)

theorem find?_reload (t : Key) {a b : List Xml} (h : ReloadAll a b) :
    (a.find? (tagIs t) = none ∧ b.find? (tagIs t) = none) ∨
    ∃ x y, a.find? (tagIs t) = some x ∧ b.find? (tagIs t) = some y ∧ Reload x y := by
  have h := h.filter t
  rw [← List.head?_filter, ← List.head?_filter]
  generalize a.filter (tagIs t) = a' at *
  generalize b.filter (tagIs t) = b' at *
  cases h with
  | nil => exact .inl ⟨rfl, rfl⟩
  | cons x y _ _ h1 _ => exact .inr ⟨x, y, rfl, rfl, h1⟩

theorem pickKid_reload (ts : List Key) {x y : Xml} (h : Reload x y) :
    (pickKid ts x = none ∧ pickKid ts y = none) ∨
    ∃ a b, pickKid ts x = some a ∧ pickKid ts y = some b ∧ Reload a b := by
  induction ts with
  | nil => exact .inl ⟨rfl, rfl⟩
  | cons t ts ih =>
    rcases find?_reload t h.kids with ⟨h1, h2⟩ | ⟨a, b, h1, h2, h3⟩
    · simp only [pickKid, h1, h2]; exact ih
    · exact .inr ⟨a, b, by simp only [pickKid, h1], by simp only [pickKid, h2], h3⟩

theorem select_reload (p : Path) {x y : Xml} (h : Reload x y) : ReloadAll (select p x) (select p y) := by
  induction p generalizing x y with
  | nil => exact .cons _ _ _ _ h .nil
  | all t r ih => exact ReloadAll.flatMap (fun _ _ h => ih h) (h.kids.filter t)
  | first ts r ih =>
    have := walk_reload ts h
    simp only [select]
    generalize walk ts x = a at *
    generalize walk ts y = b at *
    cases this with
    | nil => exact .nil
    | cons _ _ _ _ h1 _ => exact ih h1
  | pick ts r ih =>
    rcases pickKid_reload ts h with ⟨h1, h2⟩ | ⟨a, b, h1, h2, h3⟩
    · simp only [select, h1, h2]; exact .nil
    · simp only [select, h1, h2]; exact ih h3
  | need p r ihp ihr =>
    simp only [select, (ihp h).isEmpty]
    split
    · exact .nil
    · exact ihr h
  | lack p r ihp ihr =>
    simp only [select, (ihp h).isEmpty]
    split
    · exact ihr h
    · exact .nil
  | alt p q ihp ihq =>
    simp only [select, (ihp h).isEmpty]
    split
    · exact ihq h
    · exact ihp h

/-! ## What is written -/

theorem writeKind_tag {py : Py} {repr : py.F → Str} {k : WKind} {t : Key} {s : Scalar py.F} {y : Xml}
    (h : writeKind py repr k t s = .ok y) : y.tag = t := by
  cases k <;> cases s <;> simp only [writeKind, Except.ok.injEq, reduceCtorEq] at h <;> subst h <;> rfl

section
variable (py : Py) (repr : py.F → Str) (strict : Bool) (o : MObj py.F) (ys : Key → List Key → List Xml)

/-- the element for a value -/
def primK (t : Key) (k : WKind) (v : MObj py.F) : List Xml := match writePrim py repr t k v with
  | .ok y => [y]
  | .error _ => []

/-- the text for the first value -/
def attrV (k : WAKind) : List (MObj py.F) → Option Str
  | .scal s :: _ => match writeAttr py strict k s with
    | .ok r => r
    | .error _ => none
  | _ => none

def attrL (n : Key) (k : WAKind) (vs : List (MObj py.F)) : List (Key × Str) := optAttr n (attrV py strict k vs)
def textL (k : WAKind) (vs : List (MObj py.F)) : Str := optText (attrV py strict k vs)

/-- what a writer method writes if nothing goes wrong, `ys` being the elements for the values in a view -/
def pureOut : WB → Out
  | .nil => {}
  | .attr n k f r => Out.app { attrs := attrL py strict n k (o.get f) } (pureOut r)
  | .text k f r => Out.app { text := textL py strict k (o.get f) } (pureOut r)
  | .prim t k f r => Out.app { kids := (o.get f).flatMap (primK py repr t k) } (pureOut r)
  | .oprim u t k f r => Out.app { kids := ((o.get f).flatMap (primK py repr t k)).map fun y => .node u [] [] [y] } (pureOut r)
  | .each f v _ _ _ r => Out.app { kids := ys f v } (pureOut r)
  | .wrap c t b r => Out.app { kids := if c.holds o then [(pureOut b).node t] else [] } (pureOut r)
  | .when c b r => Out.app (if c.holds o then pureOut b else {}) (pureOut r)
  | .fail _ _ r => pureOut r

def emKids : Em → List Xml
  | .prim t k f => (o.get f).flatMap (primK py repr t k)
  | .oprim u t k f => ((o.get f).flatMap (primK py repr t k)).map fun y => .node u [] [] [y]
  | .each f v _ _ _ => ys f v
  | .wrap t b => [(pureOut py repr strict o ys b).node t]

def condsHold (cs : List Cond) : Bool := cs.all fun c => c.holds o

def atomKids (a : List Cond × Em) : List Xml := if condsHold py o a.1 then emKids py repr strict o ys a.2 else []

def atomAttrs (a : List Cond × Key × WAKind × Key) : List (Key × Str) :=
  if condsHold py o a.1 then attrL py strict a.2.1 a.2.2.1 (o.get a.2.2.2) else []

def atomText (a : List Cond × WAKind × Key) : Str :=
  if condsHold py o a.1 then textL py strict a.2.1 (o.get a.2.2) else []

/-- the last text that is not empty -/
def lastText : List Str → Str
  | [] => []
  | a :: r => if lastText r = [] then a else lastText r

theorem lastText_append (a b : List Str) : lastText (a ++ b) = if lastText b = [] then lastText a else lastText b := by
  induction a with
  | nil => by_cases h : lastText b = [] <;> simp [lastText, h]
  | cons x a ih =>
    simp only [List.cons_append, lastText, ih]
    by_cases h : lastText b = [] <;> simp [h]

theorem lastText_nil {l : List Str} (h : ∀ s ∈ l, s = []) : lastText l = [] := by
  induction l with
  | nil => rfl
  | cons a l ih =>
    simp only [lastText, ih fun s hs => h s (by simp [hs]), if_true]
    exact h a (by simp)

theorem condsHold_cons (c : Cond) (cs : List Cond) : condsHold py o (c :: cs) = (c.holds o && condsHold py o cs) := rfl

theorem kids_atoms (W : WB) (cs : List Cond) :
    (atoms cs W).flatMap (atomKids py repr strict o ys) =
      if condsHold py o cs then (pureOut py repr strict o ys W).kids else [] := by
  induction W generalizing cs with
  | nil => cases condsHold py o cs <;> rfl
  | attr n k f r ih => simp only [atoms, ih, pureOut, Out.app, List.nil_append]
  | text k f r ih => simp only [atoms, ih, pureOut, Out.app, List.nil_append]
  | fail e a r ih => simp only [atoms, ih, pureOut]
  | prim t k f r ih =>
    simp only [atoms, List.flatMap_cons, ih, pureOut, Out.app, atomKids, emKids]
    cases condsHold py o cs <;> simp
  | oprim u t k f r ih =>
    simp only [atoms, List.flatMap_cons, ih, pureOut, Out.app, atomKids, emKids]
    cases condsHold py o cs <;> simp
  | each f v s c ot r ih =>
    simp only [atoms, List.flatMap_cons, ih, pureOut, Out.app, atomKids, emKids]
    cases condsHold py o cs <;> simp
  | wrap c t b r _ ih =>
    simp only [atoms, List.flatMap_cons, ih, pureOut, Out.app, atomKids, emKids, condsHold_cons]
    by_cases hc : condsHold py o cs = true <;> by_cases hh : c.holds o = true <;> simp [hc, hh]
  | when c b r ihb ih =>
    simp only [atoms, List.flatMap_append, ih, ihb, pureOut, Out.app, condsHold_cons]
    by_cases hc : condsHold py o cs = true <;> by_cases hh : c.holds o = true <;> simp [hc, hh]

theorem attrs_atoms (W : WB) (cs : List Cond) :
    (attrAts cs W).flatMap (atomAttrs py strict o) =
      if condsHold py o cs then (pureOut py repr strict o ys W).attrs else [] := by
  induction W generalizing cs with
  | nil => cases condsHold py o cs <;> rfl
  | attr n k f r ih =>
    simp only [attrAts, List.flatMap_cons, ih, pureOut, Out.app, atomAttrs]
    cases condsHold py o cs <;> simp
  | text k f r ih => simp only [attrAts, ih, pureOut, Out.app, List.nil_append]
  | fail e a r ih => simp only [attrAts, ih, pureOut]
  | prim t k f r ih => simp only [attrAts, ih, pureOut, Out.app, List.nil_append]
  | oprim u t k f r ih => simp only [attrAts, ih, pureOut, Out.app, List.nil_append]
  | each f v s c ot r ih => simp only [attrAts, ih, pureOut, Out.app, List.nil_append]
  | wrap c t b r _ ih => simp only [attrAts, ih, pureOut, Out.app, List.nil_append]
  | when c b r ihb ih =>
    simp only [attrAts, List.flatMap_append, ih, ihb, pureOut, Out.app, condsHold_cons]
    by_cases hc : condsHold py o cs = true <;> by_cases hh : c.holds o = true <;> simp [hc, hh]

theorem text_atoms (W : WB) (cs : List Cond) :
    lastText ((textAts cs W).map (atomText py strict o)) =
      if condsHold py o cs then (pureOut py repr strict o ys W).text else [] := by
  induction W generalizing cs with
  | nil => cases condsHold py o cs <;> rfl
  | attr n k f r ih =>
    simp only [textAts, ih, pureOut, Out.app]
    cases condsHold py o cs <;> simp
  | text k f r ih =>
    simp only [textAts, List.map_cons, lastText, ih, pureOut, Out.app, atomText]
    cases condsHold py o cs <;> simp
  | fail e a r ih => simp only [textAts, ih, pureOut]
  | prim t k f r ih =>
    simp only [textAts, ih, pureOut, Out.app]
    cases condsHold py o cs <;> simp
  | oprim u t k f r ih =>
    simp only [textAts, ih, pureOut, Out.app]
    cases condsHold py o cs <;> simp
  | each f v s c ot r ih =>
    simp only [textAts, ih, pureOut, Out.app]
    cases condsHold py o cs <;> simp
  | wrap c t b r _ ih =>
    simp only [textAts, ih, pureOut, Out.app]
    cases condsHold py o cs <;> simp
  | when c b r ihb ih =>
    simp only [textAts, List.map_append, lastText_append, ih, ihb, pureOut, Out.app, condsHold_cons]
    by_cases hc : condsHold py o cs = true <;> by_cases hh : c.holds o = true <;> simp [hc, hh]

end

/-! ## What the context says about the object -/

theorem view_eq {F : Type} (o : MObj F) (f : Key) (v : List Key) :
    o.view f v = (o.get f).filter fun x => inView v x.cls := by
  cases v with
  | nil => simp [MObj.view, inView]
  | cons c v => simp only [MObj.view, inView, List.isEmpty_cons, Bool.false_or]; rfl

/-- what the steps from the object to the written elements rely on -/
structure Sem (C : Ctx) {F : Type} (o : MObj F) (ys : Key → List Key → List Xml) : Prop where
  cls : o.cls = C.cls
  dead : ∀ f v, C.dead f v = true → o.view f v = []
  ysNil : ∀ f v, o.view f v = [] → ys f v = []
  ysTag : ∀ f v, ∀ y ∈ ys f v, y.tag ∈ C.viewTags f v

section
variable {py : Py} {repr : py.F → Str} {strict : Bool} {C : Ctx} {o : MObj py.F} {ys : Key → List Key → List Xml}

theorem get_of_dead (h : Sem C o ys) {f : Key} (hd : C.dead f [] = true) : o.get f = [] := by
  have := h.dead f [] hd
  simpa [MObj.view] using this

theorem condDead_sound (h : Sem C o ys) {c : Cond} (hc : C.condDead c = true) : c.holds o = false := by
  cases c with
  | always => cases hc
  | any fs =>
    simp only [Ctx.condDead, List.all_eq_true] at hc
    simp only [Cond.holds, List.any_eq_false, Bool.not_eq_true, Bool.not_eq_false']
    intro s hs
    rw [h.dead s.1 s.2 (hc s hs)]; rfl
  | none fs => cases hc
  | cls cs => simpa [Ctx.condDead, Cond.holds, MObj.inst, h.cls] using hc
  | notcls cs => simpa [Ctx.condDead, Cond.holds, MObj.inst, h.cls] using hc

theorem condTriv_sound (h : Sem C o ys) {c : Cond} (hc : C.condTriv c = true) : c.holds o = true := by
  cases c with
  | always => rfl
  | any fs => cases hc
  | none fs =>
    simp only [Ctx.condTriv, List.all_eq_true] at hc
    simp only [Cond.holds, List.all_eq_true]
    intro s hs
    rw [h.dead s.1 s.2 (hc s hs)]; rfl
  | cls cs => simpa [Ctx.condTriv, Cond.holds, MObj.inst, h.cls] using hc
  | notcls cs => simpa [Ctx.condTriv, Cond.holds, MObj.inst, h.cls] using hc

theorem condsHold_dead (h : Sem C o ys) {cs : List Cond} (hc : cs.any C.condDead = true) : condsHold py o cs = false := by
  obtain ⟨c, hm, hd⟩ := List.any_eq_true.1 hc
  simp only [condsHold, List.all_eq_false]
  exact ⟨c, hm, by rw [condDead_sound h hd]; simp⟩

theorem condsHold_triv (h : Sem C o ys) (cs : List Cond) :
    condsHold py o (cs.filter fun c => !C.condTriv c) = condsHold py o cs := by
  induction cs with
  | nil => rfl
  | cons c cs ih =>
    rw [List.filter_cons]
    cases ht : C.condTriv c with
    | true => simp only [Bool.not_true, Bool.false_eq_true, if_false, ih, condsHold_cons, condTriv_sound h ht, Bool.true_and]
    | false => simp only [Bool.not_false, if_true, condsHold_cons, ih]

theorem flatMap_filter {α β : Type} (p : α → Bool) (f : α → List β) (l : List α) (h : ∀ a ∈ l, p a = false → f a = []) :
    (l.filter p).flatMap f = l.flatMap f := by
  induction l with
  | nil => rfl
  | cons a l ih =>
    have ih := ih fun b hb => h b (by simp [hb])
    rw [List.filter_cons]
    cases hp : p a with
    | true => simp [ih]
    | false => simp [ih, h a (by simp) hp]

theorem emDead_sound (h : Sem C o ys) {e : Em} (he : C.emDead e = true) : emKids py repr strict o ys e = [] := by
  cases e with
  | prim t k f => simp [emKids, get_of_dead h he]
  | oprim u t k f => simp [emKids, get_of_dead h he]
  | each f v s c ot => exact h.ysNil f v (h.dead f v he)
  | wrap t b => cases he

theorem kids_ats (h : Sem C o ys) (W : WB) :
    (pureOut py repr strict o ys W).kids = (C.ats W).flatMap (atomKids py repr strict o ys) := by
  have h0 := kids_atoms py repr strict o ys W []
  simp only [condsHold, List.all_nil, if_true] at h0
  rw [← h0, Ctx.ats, List.flatMap_map]
  have e : ∀ a : List Cond × Em, atomKids py repr strict o ys (a.1.filter fun c => !C.condTriv c, a.2) = atomKids py repr strict o ys a := by
    intro a; simp only [atomKids, condsHold_triv h]
  simp only [e]
  symm
  apply flatMap_filter
  intro a _ ha
  cases hc : a.1.any C.condDead with
  | true => simp [atomKids, condsHold_dead h hc]
  | false =>
    have : C.emDead a.2 = true := by simpa [hc] using ha
    simp [atomKids, emDead_sound h this]

theorem lookup_filter (n : Key) (l : List (Key × Str)) : l.lookup n = (l.filter fun e => e.1 == n).lookup n := by
  induction l with
  | nil => rfl
  | cons e l ih =>
    obtain ⟨k, v⟩ := e
    rw [List.filter_cons, List.lookup_cons]
    by_cases hk : k = n
    · subst hk
      simp
    · have h1 : (n == k) = false := beq_eq_false_iff_ne.mpr (Ne.symm hk)
      have h2 : (k == n) = false := beq_eq_false_iff_ne.mpr hk
      simp only [h1, h2, ih, Bool.false_eq_true, if_false]

theorem attrs_ats (h : Sem C o ys) (W : WB) (n : Key) :
    (pureOut py repr strict o ys W).attrs.lookup n = ((C.attrs W n).flatMap (atomAttrs py strict o)).lookup n := by
  have h0 := attrs_atoms py repr strict o ys W []
  simp only [condsHold, List.all_nil, if_true] at h0
  rw [← h0, Ctx.attrs, List.flatMap_map]
  have e : ∀ a : List Cond × Key × WAKind × Key, atomAttrs py strict o (a.1.filter fun c => !C.condTriv c, a.2) = atomAttrs py strict o a := by
    intro a; simp only [atomAttrs, condsHold_triv h]
  simp only [e]
  rw [lookup_filter]
  conv => rhs; rw [lookup_filter]
  congr 1
  generalize attrAts [] W = l
  induction l with
  | nil => rfl
  | cons a l ih =>
    rw [List.flatMap_cons, List.filter_append, ih, List.filter_cons]
    by_cases hp : (!a.1.any C.condDead && (!C.dead a.2.2.2 [] && a.2.1 == n)) = true
    · rw [if_pos hp, List.flatMap_cons, List.filter_append]
    · rw [if_neg hp]
      have : (atomAttrs py strict o a).filter (fun e => e.1 == n) = [] := by
        cases hc : a.1.any C.condDead with
        | true => simp [atomAttrs, condsHold_dead h hc]
        | false =>
          cases hd : C.dead a.2.2.2 [] with
          | true => simp [atomAttrs, get_of_dead h hd, attrL, attrV, optAttr]
          | false =>
            have hn : (a.2.1 == n) = false := by simpa [hc, hd] using hp
            unfold atomAttrs attrL
            split
            · cases attrV py strict a.2.2.1 (o.get a.2.2.2) <;> simp [optAttr, hn]
            · rfl
      rw [this, List.nil_append]

theorem text_ats (h : Sem C o ys) (W : WB) :
    (pureOut py repr strict o ys W).text = lastText ((C.texts W).map (atomText py strict o)) := by
  have h0 := text_atoms py repr strict o ys W []
  simp only [condsHold, List.all_nil, if_true] at h0
  rw [← h0, Ctx.texts, List.map_map]
  have e : ((atomText py strict o) ∘ fun a : List Cond × WAKind × Key => (a.1.filter fun c => !C.condTriv c, a.2)) = atomText py strict o := by
    funext a; simp only [Function.comp, atomText, condsHold_triv h]
  rw [e]
  generalize textAts [] W = l
  induction l with
  | nil => rfl
  | cons a l ih =>
    rw [List.filter_cons]
    by_cases hp : (!a.1.any C.condDead && !C.dead a.2.2 []) = true
    · rw [if_pos hp]; simp only [List.map_cons, lastText, ih]
    · rw [if_neg hp]
      have : atomText py strict o a = [] := by
        cases hc : a.1.any C.condDead with
        | true => simp [atomText, condsHold_dead h hc]
        | false =>
          have hd : C.dead a.2.2 [] = true := by simpa [hc] using hp
          simp [atomText, get_of_dead h hd, textL, attrV, optText]
      simp only [List.map_cons, lastText, this]
      rw [ih]
      split <;> simp [*]

theorem emKids_tag (h : Sem C o ys) (e : Em) : ∀ y ∈ emKids py repr strict o ys e, y.tag ∈ C.emTags e := by
  intro y hy
  have hp : ∀ t k f, y ∈ (o.get f).flatMap (primK py repr t k) → y.tag = t := by
    intro t k f hy
    obtain ⟨v, _, hv⟩ := List.mem_flatMap.1 hy
    unfold primK at hv
    split at hv
    · rename_i z hz
      rw [List.mem_singleton] at hv
      subst hv
      cases v with
      | scal s => exact writeKind_tag hz
      | mk => cases hz
    · cases hv
  cases e with
  | prim t k f => simpa [Ctx.emTags] using hp t k f hy
  | oprim u t k f =>
    obtain ⟨z, _, rfl⟩ := List.mem_map.1 hy
    simp [Ctx.emTags, Xml.tag]
  | each f v s c ot => exact h.ysTag f v y hy
  | wrap t b =>
    rw [emKids, List.mem_singleton] at hy
    subst hy
    simp [Ctx.emTags, Xml.tag, Out.node]

/-! ## Paths -/

variable (repr strict o ys) in
/-- the elements a path leads to -/
def LocOK (L : List Xml) : Loc → Prop
  | .none => L = []
  | .body cs b =>
    (condsHold py o cs = true → ∃ t, L = [(pureOut py repr strict o ys b).node t]) ∧ (condsHold py o cs = false → L = [])
  | .leaf cs e one => (one = true → (emKids py repr strict o ys e).length ≤ 1) →
    (condsHold py o cs = true → L = emKids py repr strict o ys e) ∧ (emKids py repr strict o ys e = [] → L = [])

theorem condsHold_append (cs ds : List Cond) : condsHold py o (cs ++ ds) = (condsHold py o cs && condsHold py o ds) :=
  List.all_append

theorem LocOK_under {L : List Xml} {cs : List Cond} {loc : Loc}
    (h1 : condsHold py o cs = true → LocOK repr strict o ys L loc) (h2 : condsHold py o cs = false → L = []) :
    LocOK repr strict o ys L (loc.under cs) := by
  cases hc : condsHold py o cs with
  | true =>
    have h1 := h1 hc
    cases loc with
    | none => exact h1
    | body ds b => simpa [Loc.under, LocOK, condsHold_append, hc] using h1
    | leaf ds e one => simpa [Loc.under, LocOK, condsHold_append, hc] using h1
  | false =>
    have h2 := h2 hc
    cases loc with
    | none => exact h2
    | body ds b => simp [Loc.under, LocOK, condsHold_append, hc, h2]
    | leaf ds e one => simp [Loc.under, LocOK, condsHold_append, hc, h2]

/-- the children with one of the tags -/
def kidsOf (ts : List Key) (x : Xml) : List Xml := x.kids.filter fun y => matches1 ts y.tag

theorem kidsOf_one (t : Key) (x : Xml) : kidsOf [t] x = x.kids.filter (tagIs t) := by
  simp [kidsOf, matches1]
  rfl

theorem flatMap_filter_out {α β : Type} (p : β → Bool) (f : α → List β) (l : List α) :
    (l.flatMap f).filter p = l.flatMap fun a => (f a).filter p := by
  induction l with
  | nil => rfl
  | cons a l ih => simp [List.flatMap_cons, List.filter_append, ih]

theorem atomKids_tag (h : Sem C o ys) (a : List Cond × Em) : ∀ y ∈ atomKids py repr strict o ys a, y.tag ∈ C.emTags a.2 := by
  intro y hy
  unfold atomKids at hy
  split at hy
  · exact emKids_tag h a.2 y hy
  · cases hy

theorem kidsOf_cands (h : Sem C o ys) (ts : List Key) (W : WB) (t : Key) :
    kidsOf ts ((pureOut py repr strict o ys W).node t) =
      (C.cands ts W).flatMap fun a => (atomKids py repr strict o ys a).filter fun y => matches1 ts y.tag := by
  show (pureOut py repr strict o ys W).kids.filter _ = _
  rw [kids_ats h, flatMap_filter_out, Ctx.cands]
  symm
  apply flatMap_filter
  intro a _ ha
  rw [List.filter_eq_nil_iff]
  intro y hy hm
  rw [List.any_eq_false] at ha
  exact ha _ (atomKids_tag h a y hy) hm

theorem step_sound (h : Sem C o ys) {ts : List Key} {W : WB} {loc : Loc} (hs : C.step ts W = some loc) (t : Key) :
    LocOK repr strict o ys (kidsOf ts ((pureOut py repr strict o ys W).node t)) loc := by
  rw [kidsOf_cands h]
  unfold Ctx.step at hs
  split at hs
  · rename_i hc
    cases hs
    rw [hc]; rfl
  · rename_i a hc
    rw [hc]
    split at hs
    · rename_i ha
      have e : (atomKids py repr strict o ys a).filter (fun y => matches1 ts y.tag) = atomKids py repr strict o ys a := by
        rw [List.filter_eq_self]
        intro y hy
        exact (List.all_eq_true.1 ha) _ (atomKids_tag h a y hy)
      simp only [List.flatMap_cons, List.flatMap_nil, List.append_nil, e]
      obtain ⟨cs, em⟩ := a
      cases em with
      | wrap t' b =>
        cases hs
        simp only [LocOK, atomKids, emKids]
        exact ⟨fun hc => ⟨t', by rw [if_pos hc]⟩, fun hc => by rw [if_neg (by simp [hc])]⟩
      | prim => cases hs; exact fun _ => ⟨fun hc => by rw [atomKids, if_pos hc], fun he => by simp [atomKids, he]⟩
      | oprim => cases hs; exact fun _ => ⟨fun hc => by rw [atomKids, if_pos hc], fun he => by simp [atomKids, he]⟩
      | each => cases hs; exact fun _ => ⟨fun hc => by rw [atomKids, if_pos hc], fun he => by simp [atomKids, he]⟩
    · cases hs
  · cases hs

theorem inner_sound {ts : List Key} {e e' : Em} (h : inner ts e = some e') :
    (emKids py repr strict o ys e).flatMap (walk ts) = emKids py repr strict o ys e' := by
  unfold inner at h
  split at h
  · rename_i t u t' k f
    split at h
    · rename_i htt
      subst htt
      cases h
      simp only [emKids, List.flatMap_map]
      have hp : ∀ y ∈ (o.get f).flatMap (primK py repr t k), walk [t] (.node u [] [] [y]) = [y] := by
        intro y hy
        have : y.tag = t := by
          obtain ⟨v, _, hv⟩ := List.mem_flatMap.1 hy
          unfold primK at hv
          split at hv
          · rename_i z hz
            rw [List.mem_singleton] at hv
            subst hv
            cases v with
            | scal s => exact writeKind_tag hz
            | mk => cases hz
          · cases hv
        simp [walk, Xml.kids, tagIs, this]
      generalize (o.get f).flatMap (primK py repr t k) = l at hp
      induction l with
      | nil => rfl
      | cons y l ih => rw [List.flatMap_cons, hp y (by simp), ih fun z hz => hp z (by simp [hz])]; rfl
    · cases h
  · cases h


theorem primK_tag {t : Key} {k : WKind} {f : Key} : ∀ y ∈ (o.get f).flatMap (primK py repr t k), y.tag = t := by
  intro y hy
  obtain ⟨v, _, hv⟩ := List.mem_flatMap.1 hy
  unfold primK at hv
  split at hv
  · rename_i z hz
    rw [List.mem_singleton] at hv
    subst hv
    cases v with
    | scal s => exact writeKind_tag hz
    | mk => cases hz
  · cases hv

theorem flatMap_single {α β : Type} {f : α → List β} {g : α → β} {l : List α} (h : ∀ a ∈ l, f a = [g a]) :
    l.flatMap f = l.map g := by
  induction l with
  | nil => rfl
  | cons a l ih => rw [List.flatMap_cons, h a (by simp), ih fun b hb => h b (by simp [hb])]; rfl

theorem flatMap_self {α : Type} {f : α → List α} {l : List α} (h : ∀ a, f a = [a]) : l.flatMap f = l := by
  rw [flatMap_single (g := id) fun a _ => h a, List.map_id]

theorem oprim_rest {t u : Key} {k : WKind} {f : Key} {g : Xml → List Xml} (hg : ∀ y : Xml, y.tag = t → g (.node u [] [] [y]) = [y]) :
    (emKids py repr strict o ys (.oprim u t k f)).flatMap g = emKids py repr strict o ys (.prim t k f) := by
  simp only [emKids, List.flatMap_map]
  rw [flatMap_single (g := id) fun y hy => hg y (primK_tag y hy), List.map_id]

theorem walk_one {t u : Key} {y : Xml} (h : y.tag = t) : walk [t] (.node u [] [] [y]) = [y] := by
  simp [walk, Xml.kids, tagIs, h]

theorem pickKid_none {ts : List Key} {x : Xml} (h : kidsOf ts x = []) : pickKid ts x = none := by
  induction ts with
  | nil => rfl
  | cons t ts ih =>
    simp only [kidsOf, List.filter_eq_nil_iff] at h
    have h1 : x.kids.find? (tagIs t) = none := by
      rw [List.find?_eq_none]
      intro y hy hm
      apply h y hy
      simp only [matches1, List.any_cons, Bool.or_eq_true]
      exact .inl (by simpa [tagIs] using hm)
    simp only [pickKid, h1]
    apply ih
    simp only [kidsOf, List.filter_eq_nil_iff]
    intro y hy hm
    apply h y hy
    simp only [matches1, List.any_cons, Bool.or_eq_true]
    exact .inr hm

theorem pickKid_one {ts : List Key} {x y : Xml} (h : kidsOf ts x = [y]) : pickKid ts x = some y := by
  have hy : y ∈ x.kids ∧ matches1 ts y.tag = true := by
    have : y ∈ kidsOf ts x := by simp [h]
    exact List.mem_filter.1 this
  have hu : ∀ z ∈ x.kids, matches1 ts z.tag = true → z = y := by
    intro z hz hm
    have : z ∈ kidsOf ts x := List.mem_filter.2 ⟨hz, hm⟩
    simpa [h] using this
  clear h
  induction ts with
  | nil => simp [matches1] at hy
  | cons t ts ih =>
    simp only [pickKid]
    split
    · rename_i z hz
      have h1 := List.mem_of_find?_eq_some hz
      have h2 := List.find?_some hz
      have := hu z h1 (by simp only [matches1, List.any_cons, Bool.or_eq_true]; exact .inl (by simpa [tagIs] using h2))
      rw [this]
    · rename_i hz
      rw [List.find?_eq_none] at hz
      apply ih
      · refine ⟨hy.1, ?_⟩
        have := hy.2
        simp only [matches1, List.any_cons, Bool.or_eq_true] at this
        rcases this with h' | h'
        · exact absurd (by simpa [tagIs] using h') (hz y hy.1)
        · exact h'
      · intro z hz' hm
        apply hu z hz'
        simp only [matches1, List.any_cons, Bool.or_eq_true]
        exact .inr hm

theorem rest_sound {r : Path} {e e' : Em} (h : rest r e = some e') :
    (emKids py repr strict o ys e).flatMap (select r) = emKids py repr strict o ys e' := by
  unfold rest at h
  split at h
  · cases h
    exact flatMap_self fun _ => rfl
  · rw [← inner_sound h]
    congr 1
  · unfold inner at h
    split at h
    · split at h
      · rename_i h1 _ _ _ _ _ heq htt
        cases heq
        cases h
        rw [← htt]
        apply oprim_rest
        intro y hy
        simp only [select, walk_one hy]
      · cases h
    · cases h
  · rename_i ts u t k f
    split at h
    · rename_i htt
      cases h
      apply oprim_rest
      intro y hy
      have : kidsOf ts (.node u [] [] [y]) = [y] := by
        simp only [Bool.and_eq_true, List.contains_iff_mem, Bool.not_eq_true'] at htt
        have : matches1 ts y.tag = true := by
          rw [hy]
          exact List.any_eq_true.2 ⟨t, htt.1, by simp⟩
        simp [kidsOf, Xml.kids, this]
      simp only [select, pickKid_one this]
    · cases h
  · cases h

theorem emKids_len {r : Path} {e e' : Em} (h : rest r e = some e') :
    (emKids py repr strict o ys e').length = (emKids py repr strict o ys e).length := by
  unfold rest at h
  split at h
  · cases h; rfl
  · unfold inner at h
    split at h
    · split at h
      · rename_i htt heq _ _ _ _ htt'
        cases h; simp [emKids, htt']
      · cases h
    · cases h
  · unfold inner at h
    split at h
    · split at h
      · rename_i htt heq _ _ _ _ htt'
        cases h; simp [emKids, htt']
      · cases h
    · cases h
  · split at h
    · cases h; simp [emKids]
    · cases h
  · cases h

theorem LocOK_rest {L : List Xml} {cs : List Cond} {r : Path} {e e' : Em} {one : Bool} (hr : rest r e = some e')
    (h : LocOK repr strict o ys L (.leaf cs e one)) : LocOK repr strict o ys (L.flatMap (select r)) (.leaf cs e' one) := by
  intro h1
  rw [emKids_len hr] at h1
  have h := h h1
  refine ⟨fun hc => by rw [h.1 hc, rest_sound hr], fun he => ?_⟩
  have : emKids py repr strict o ys e = [] := by
    rw [← List.length_eq_zero_iff, ← emKids_len hr, he]; rfl
  rw [h.2 this]; rfl

theorem LocOK_one {L : List Xml} {cs : List Cond} {e : Em} {one : Bool}
    (h : LocOK repr strict o ys L (.leaf cs e one)) : LocOK repr strict o ys L (.leaf cs e true) :=
  fun h1 => h fun _ => h1 rfl

theorem inner_rest {ts : List Key} {e e' : Em} (h : inner ts e = some e') : ∃ t, ts = [t] ∧ rest (.all t .nil) e = some e' := by
  unfold inner at h
  split at h
  · split at h
    · rename_i t u t' k f htt
      cases h
      exact ⟨t, rfl, by simp [rest, inner, htt]⟩
    · cases h
  · cases h

theorem walkL_sound (h : Sem C o ys) {ts : List Key} {W : WB} {loc : Loc} (hs : C.walkL ts W = some loc) (t : Key) :
    LocOK repr strict o ys (walk ts ((pureOut py repr strict o ys W).node t)) loc := by
  induction ts generalizing W t loc with
  | nil => cases hs; exact ⟨fun _ => ⟨t, rfl⟩, fun hc => by cases hc⟩
  | cons a ts ih =>
    simp only [Ctx.walkL] at hs
    simp only [walk]
    rw [← kidsOf_one]
    split at hs
    · rename_i cs b hst
      have hb := step_sound h hst t (repr := repr) (strict := strict)
      obtain ⟨l', hl, rfl⟩ := Option.map_eq_some_iff.1 hs
      apply LocOK_under
      · intro hc
        obtain ⟨t', ht'⟩ := hb.1 hc
        rw [ht']
        simpa using ih hl t'
      · intro hc; rw [hb.2 hc]; rfl
    · rename_i cs e one hst
      have hb := step_sound h hst t (repr := repr) (strict := strict)
      split at hs
      · rename_i hts
        rw [List.isEmpty_iff] at hts
        subst hts
        cases hs
        rw [flatMap_self (f := walk []) fun _ => rfl]
        exact LocOK_one hb
      · obtain ⟨e', he, rfl⟩ := Option.map_eq_some_iff.1 hs
        obtain ⟨t', rfl, hr⟩ := inner_rest he
        have := LocOK_one (LocOK_rest hr hb)
        exact this
    · rename_i hst
      cases hs
      have hb : _ = [] := step_sound h hst t (repr := repr) (strict := strict)
      rw [hb]; rfl
    · cases hs

/-- a list of at most one element -/
theorem LocOK_head {L L' : List Xml} {loc : Loc} (h : LocOK repr strict o ys L loc) (h0 : L = [] → L' = []) (h1 : ∀ y, L = [y] → L' = [y])
    (hloc : ∀ cs e one, loc = .leaf cs e one → one = true) : LocOK repr strict o ys L' loc := by
  cases loc with
  | none => exact h0 h
  | body cs b =>
    refine ⟨fun hc => ?_, fun hc => h0 (h.2 hc)⟩
    obtain ⟨t, ht⟩ := h.1 hc
    exact ⟨t, h1 _ ht⟩
  | leaf cs e one =>
    have hl' := hloc cs e one rfl
    subst hl'
    intro hl
    have h := h hl
    refine ⟨fun hc => ?_, fun he => h0 (h.2 he)⟩
    have h' := h.1 hc
    rw [← h'] at hl
    rw [← h']
    match L, hl rfl with
    | [], _ => exact h0 rfl
    | [y], _ => exact h1 y rfl
    | _ :: _ :: _, hl => simp at hl

/-- the rest of a path -/
def Ctx.follow (C : Ctx) (r : Path) : Loc → Option Loc
  | .body cs b => (C.locate r b).map (Loc.under cs)
  | .leaf cs e one => (rest r e).map fun e => Loc.leaf cs e one
  | .none => some .none

theorem follow_sound {C : Ctx} {r : Path} {L : List Xml} {l1 loc : Loc}
    (ih : ∀ (W : WB) (loc : Loc), C.locate r W = some loc → ∀ t,
        LocOK repr strict o ys (select r ((pureOut py repr strict o ys W).node t)) loc)
    (hL : LocOK repr strict o ys L l1) (hl : C.follow r l1 = some loc) : LocOK repr strict o ys (L.flatMap (select r)) loc := by
  cases l1 with
  | none => cases hl; rw [show L = [] from hL]; rfl
  | body cs b =>
    obtain ⟨l', hl', rfl⟩ := Option.map_eq_some_iff.1 hl
    apply LocOK_under
    · intro hc
      obtain ⟨t', ht'⟩ := hL.1 hc
      rw [ht']
      simpa using ih _ _ hl' t'
    · intro hc; rw [hL.2 hc]; rfl
  | leaf cs e one =>
    obtain ⟨e', he, rfl⟩ := Option.map_eq_some_iff.1 hl
    exact LocOK_rest he hL

theorem locate_sound (h : Sem C o ys) {p : Path} {W : WB} {loc : Loc} (hs : C.locate p W = some loc) (t : Key) :
    LocOK repr strict o ys (select p ((pureOut py repr strict o ys W).node t)) loc := by
  induction p generalizing W t loc with
  | nil => cases hs; exact ⟨fun _ => ⟨t, rfl⟩, fun hc => by cases hc⟩
  | all a r ih =>
    simp only [Ctx.locate] at hs
    simp only [select]
    rw [← kidsOf_one]
    split at hs
    all_goals first | cases hs; done | skip
    all_goals
      rename_i hst
      exact follow_sound (fun W loc hl t => ih hl t) (step_sound h hst t) hs
  | first ts r ih =>
    simp only [Ctx.locate] at hs
    have hsel : ∀ {l1 : Loc}, C.walkL ts W = some l1 → LocOK repr strict o ys
        ((walk ts ((pureOut py repr strict o ys W).node t)).head?.toList) (match l1 with
          | .leaf cs e _ => .leaf cs e true
          | l => l) := by
      intro l1 hst
      have hb := walkL_sound h hst t (repr := repr) (strict := strict)
      apply LocOK_head (L := walk ts ((pureOut py repr strict o ys W).node t))
      · cases l1 with
        | leaf cs e one => exact LocOK_one hb
        | none => exact hb
        | body => exact hb
      · intro h0; rw [h0]; rfl
      · intro y h0; rw [h0]; rfl
      · cases l1 <;> simp
    have heq : select (.first ts r) ((pureOut py repr strict o ys W).node t) =
        ((walk ts ((pureOut py repr strict o ys W).node t)).head?.toList).flatMap (select r) := by
      simp only [select]
      cases walk ts ((pureOut py repr strict o ys W).node t) <;> simp
    rw [heq]
    split at hs
    all_goals first | cases hs; done | skip
    all_goals
      rename_i hst
      exact follow_sound (fun W loc hl t => ih hl t) (hsel hst) hs
  | pick ts r ih =>
    simp only [Ctx.locate] at hs
    have hsel : ∀ {l1 : Loc}, C.step ts W = some l1 → LocOK repr strict o ys
        ((pickKid ts ((pureOut py repr strict o ys W).node t)).toList) (match l1 with
          | .leaf cs e _ => .leaf cs e true
          | l => l) := by
      intro l1 hst
      have hb := step_sound h hst t (repr := repr) (strict := strict)
      apply LocOK_head (L := kidsOf ts ((pureOut py repr strict o ys W).node t))
      · cases l1 with
        | leaf cs e one => exact LocOK_one hb
        | none => exact hb
        | body => exact hb
      · intro h0; rw [pickKid_none h0]; rfl
      · intro y h0; rw [pickKid_one h0]; rfl
      · cases l1 <;> simp
    have heq : select (.pick ts r) ((pureOut py repr strict o ys W).node t) =
        ((pickKid ts ((pureOut py repr strict o ys W).node t)).toList).flatMap (select r) := by
      simp only [select]
      cases pickKid ts ((pureOut py repr strict o ys W).node t) <;> simp
    rw [heq]
    split at hs
    all_goals first | cases hs; done | skip
    all_goals
      rename_i hst
      exact follow_sound (fun W loc hl t => ih hl t) (hsel hst) hs
  | need p r ihp ihr =>
    simp only [Ctx.locate] at hs
    split at hs
    · rename_i b hp
      have hb := ihp hp t
      obtain ⟨t', ht'⟩ := hb.1 rfl
      simp only [select, ht', List.isEmpty_cons, Bool.false_eq_true, if_false]
      exact ihr hs t
    · cases hs
  | lack p r ihp ihr =>
    simp only [Ctx.locate] at hs
    split at hs
    · rename_i hp
      have hb : _ = [] := ihp hp t
      simp only [select, hb, List.isEmpty_nil, if_true]
      exact ihr hs t
    · rename_i f v s c ot one hp
      have hb := ihp hp t
      split at hs
      · rename_i cs e one' hr
        cases hs
        have hr := ihr hr t
        intro hone
        have hr := hr hone
        refine ⟨fun hc => ?_, fun he => ?_⟩
        · rw [condsHold_cons, Bool.and_eq_true] at hc
          have hv : o.view f v = [] := by simpa [Cond.holds] using hc.1
          have hy : ys f v = [] := h.ysNil f v hv
          have hL := (hb (by intro _; simp [emKids, hy])).2 hy
          simp only [select, hL, List.isEmpty_nil, if_true]
          exact hr.1 hc.2
        · simp only [select]
          split
          · exact hr.2 he
          · rfl
      · cases hs
    · cases hs
  | alt p q ihp ihq =>
    simp only [Ctx.locate] at hs
    split at hs
    · cases hs
    · rename_i hp
      have hb : _ = [] := ihp hp t
      simp only [select, hb, List.isEmpty_nil, if_true]
      exact ihq hs t
    · rename_i l _ hp
      split at hs
      · rename_i hq
        cases hs
        have hq : _ = [] := ihq hq t
        have hp := ihp hp t
        have heq : select (.alt p q) ((pureOut py repr strict o ys W).node t) = select p ((pureOut py repr strict o ys W).node t) := by
          simp only [select, hq]
          split
          · rename_i he; rw [List.isEmpty_iff.1 he]
          · rfl
        rw [heq]; exact hp
      · cases hs

theorem stepTags_sound (h : Sem C o ys) {a : Key} {W : WB} (t : Key) :
    ∀ y ∈ ((pureOut py repr strict o ys W).node t).kids.filter (tagIs a), y.tag ∈ C.stepTags a W := by
  rw [← kidsOf_one, kidsOf_cands h]
  intro y hy
  obtain ⟨e, he, hy⟩ := List.mem_flatMap.1 hy
  obtain ⟨hy, hm⟩ := List.mem_filter.1 hy
  exact List.mem_flatMap.2 ⟨e, he, List.mem_filter.2 ⟨atomKids_tag h e y hy, hm⟩⟩

theorem walkTags_sound (h : Sem C o ys) {ts : List Key} {W : WB} {tags : List Key} (hs : C.walkTags ts W = some tags) (t : Key) :
    ∀ y ∈ walk ts ((pureOut py repr strict o ys W).node t), y.tag ∈ tags := by
  induction ts generalizing W t tags with
  | nil => cases hs
  | cons a ts ih =>
    simp only [Ctx.walkTags] at hs
    split at hs
    · rename_i hts
      rw [List.isEmpty_iff] at hts
      subst hts
      cases hs
      simp only [walk]
      rw [flatMap_self fun _ => rfl]
      exact stepTags_sound h t
    · simp only [walk]
      rw [← kidsOf_one]
      split at hs
      · rename_i cs b hst
        have hb := step_sound h hst t (repr := repr) (strict := strict)
        intro y hy
        by_cases hc : condsHold py o cs = true
        · obtain ⟨t', ht'⟩ := hb.1 hc
          rw [ht'] at hy
          exact ih hs t' y (by simpa using hy)
        · rw [hb.2 (by simpa using hc)] at hy
          cases hy
      · rename_i hst
        have hb : _ = [] := step_sound h hst t (repr := repr) (strict := strict)
        rw [hb]
        intro y hy; cases hy
      · cases hs

theorem tagsAt_sound (h : Sem C o ys) {p : Path} {W : WB} {tags : List Key} (hs : C.tagsAt p W = some tags) (t : Key) :
    ∀ y ∈ select p ((pureOut py repr strict o ys W).node t), y.tag ∈ tags := by
  induction p generalizing W t tags with
  | all a r ih =>
    simp only [Ctx.tagsAt] at hs
    split at hs
    · rename_i hr
      rw [beq_iff_eq] at hr
      subst hr
      cases hs
      simp only [select]
      rw [flatMap_self fun _ => rfl]
      exact stepTags_sound h t
    · simp only [select]
      rw [← kidsOf_one]
      split at hs
      · rename_i cs b hst
        have hb := step_sound h hst t (repr := repr) (strict := strict)
        intro y hy
        by_cases hc : condsHold py o cs = true
        · obtain ⟨t', ht'⟩ := hb.1 hc
          rw [ht'] at hy
          exact ih hs t' y (by simpa using hy)
        · rw [hb.2 (by simpa using hc)] at hy
          cases hy
      · rename_i hst
        have hb : _ = [] := step_sound h hst t (repr := repr) (strict := strict)
        rw [hb]
        intro y hy; cases hy
      · cases hs
  | first ts r ih =>
    simp only [Ctx.tagsAt] at hs
    split at hs
    · rename_i hr
      rw [beq_iff_eq] at hr
      subst hr
      intro y hy
      have := walkTags_sound h hs t (repr := repr) (strict := strict)
      simp only [select] at hy
      split at hy
      · cases hy
      · rename_i z l hz
        rw [List.mem_singleton] at hy
        subst hy
        exact this y (by rw [hz]; simp)
    · split at hs
      · rename_i cs b hst
        have hb := walkL_sound h hst t (repr := repr) (strict := strict)
        intro y hy
        simp only [select] at hy
        by_cases hc : condsHold py o cs = true
        · obtain ⟨t', ht'⟩ := hb.1 hc
          rw [ht'] at hy
          exact ih hs t' y (by simpa using hy)
        · rw [hb.2 (by simpa using hc)] at hy
          cases hy
      · rename_i hst
        have hb : _ = [] := walkL_sound h hst t (repr := repr) (strict := strict)
        simp only [select, hb]
        intro y hy; cases hy
      · cases hs
  | nil => cases hs
  | pick => cases hs
  | need => cases hs
  | lack => cases hs
  | alt => cases hs

end
end Verif.Lemmas
