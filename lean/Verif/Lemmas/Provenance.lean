import Verif.Lemmas.Names
/-!
# Where the texts of a saved document come from
-/
namespace Verif.Lemmas
open Verif Verif.Model Verif.Spec

/-- the texts and attribute values of an element -/
def Strs (R : Str → Prop) (x : Xml) : Prop := R x.text ∧ ∀ a ∈ x.attrs, R a.2

theorem walk_every {P : Xml → Prop} {ts : List Key} {x y : Xml} (h : y ∈ walk ts x) (hx : Every P x) : Every P y := by
  induction ts generalizing x with
  | nil => simp only [walk, List.mem_singleton] at h; exact h ▸ hx
  | cons t ts ih =>
    simp only [walk, List.mem_flatMap, List.mem_filter] at h
    obtain ⟨z, hz, hy⟩ := h
    exact ih hy (hx.kid hz.1)

theorem select_every {P : Xml → Prop} {p : Path} {x y : Xml} (h : y ∈ select p x) (hx : Every P x) : Every P y := by
  induction p generalizing x with
  | nil => simp only [select, List.mem_singleton] at h; exact h ▸ hx
  | all t r ih =>
    simp only [select, List.mem_flatMap, List.mem_filter] at h
    obtain ⟨z, hz, hy⟩ := h
    exact ih hy (hx.kid hz.1)
  | first ts r ih =>
    simp only [select] at h
    split at h
    · cases h
    · rename_i z l hw
      exact ih h (walk_every (show z ∈ walk ts x by rw [hw]; simp) hx)
  | pick ts r ih =>
    simp only [select] at h
    split at h
    · cases h
    · rename_i z hz
      exact ih h (hx.kid (pickKid_mem hz))
  | need p r _ ih =>
    simp only [select] at h
    split at h
    · cases h
    · exact ih h hx
  | lack p r _ ih =>
    simp only [select] at h
    split at h
    · exact ih h hx
    · cases h
  | alt p q ihp ihq =>
    simp only [select] at h
    split at h
    · exact ihq h hx
    · exact ihp h hx

/-- what may be written for texts of which `R` holds -/
structure Derived (py : Py) (R Q : Str → Prop) : Prop where
  same : ∀ s, R s → Q s
  strip : ∀ s, R s → Q (py.strip s)
  own : ∀ s ∈ ownTexts, Q s

def OptQ (Q : Str → Prop) (v : Option Str) : Prop := ∀ s, v = some s → Q s

def ScalQ {F : Type} (Q : Str → Prop) : Scalar F → Prop
  | .lit t u v => OptQ Q t ∧ OptQ Q u ∧ Q v
  | .num _ t u sl o => OptQ Q t ∧ OptQ Q u ∧ OptQ Q sl ∧ OptQ Q o.text ∧ (o.text = none → o.value = .none)
  | .bool t u o => OptQ Q t ∧ OptQ Q u ∧ OptQ Q o.text
  | .limit t u iv v => OptQ Q t ∧ OptQ Q u ∧ OptQ Q iv ∧ Q v
  | .ref b d v => OptQ Q b ∧ OptQ Q d ∧ Q v
  | .str v => Q v

inductive ObjQ {F : Type} (Q : Str → Prop) : MObj F → Prop
  | scal (s : Scalar F) : ScalQ Q s → ObjQ Q (.scal s)
  | mk (c : Key) (fs : List ((Key × Bool) × List (MObj F))) : (∀ e ∈ fs, ∀ v ∈ e.2, ObjQ Q v) → ObjQ Q (.mk c fs)

theorem objQ_get {F : Type} {Q : Str → Prop} {o v : MObj F} {f : Key} (h : ObjQ Q o) (hv : v ∈ o.get f) : ObjQ Q v := by
  cases h with
  | scal s hs => simp [MObj.get, MObj.fields] at hv
  | mk c fs h =>
    obtain ⟨e, he, hv⟩ := List.mem_flatMap.1 hv
    split at hv
    · exact h e he v hv
    · cases hv

/-! ### Reading -/

section Reading
variable {py : Py} {R Q : Str → Prop} (hd : Derived py R Q)
include hd

theorem attrQ {x : Xml} (hx : Strs R x) (k : Key) : OptQ Q (x.attr k) := by
  intro s hs
  have : ∃ a ∈ x.attrs, a.2 = s := by
    unfold Xml.attr at hs
    obtain ⟨l, r, h, _⟩ := List.lookup_eq_some_iff.1 hs
    exact ⟨(k, s), by rw [h]; simp, rfl⟩
  obtain ⟨a, ha, rfl⟩ := this
  exact hd.same _ (hx.2 a ha)

omit hd in
theorem optQ_none : OptQ Q none := fun _ h => by cases h

theorem parseNum_Q {x : Xml} (hx : Strs R x) {c : PObj.Cls} {o : PObj py.F} (h : parseNum py c x.text = .ok o) :
    OptQ Q o.text ∧ (o.text = none → o.value = .none) := by
  rw [parseNum_text h]
  exact ⟨fun s hs => by cases hs; exact hd.same _ hx.1, fun h => by cases h⟩

theorem parseNum?_Q {x : Xml} (hx : Strs R x) {c : PObj.Cls} {o : PObj py.F} (h : parseNum? py c x.text = .ok o) :
    OptQ Q o.text ∧ (o.text = none → o.value = .none) := by
  unfold parseNum? at h
  split at h
  · cases h; exact ⟨optQ_none, fun _ => rfl⟩
  · exact parseNum_Q hd hx h

theorem readKind_Q {k : RKind} {x : Xml} (hx : Strs R x) {s : Scalar py.F} (h : readKind py k x = .ok (some s)) : ScalQ Q s := by
  have ht := attrQ hd hx k!"T"
  have hu := attrQ hd hx k!"UUID"
  have hv := hd.same _ hx.1
  have hn : OptQ Q none := optQ_none
  cases k <;> simp only [readKind] at h
  case lit => cases h; exact ⟨ht, hu, hv⟩
  case litPlain => cases h; exact ⟨hn, hn, hv⟩
  case litText => split at h <;> cases h; exact ⟨hn, hn, hv⟩
  case litNonblank => split at h <;> cases h; exact ⟨hn, hn, hv⟩
  case revision => split at h; · cases h
                   split at h <;> cases h; exact ⟨ht, hu, hv⟩
  case float =>
    split at h; · cases h
    split at h
    · next o ho => cases h; exact ⟨ht, hu, hn, parseNum_Q hd hx ho⟩
    · cases h
  case floats =>
    split at h
    · next o ho => cases h; exact ⟨hn, hn, hn, parseNum?_Q hd hx ho⟩
    · cases h
  case time =>
    split at h; · cases h
    split at h
    · next o ho => cases h; exact ⟨hn, hn, hn, parseNum_Q hd hx ho⟩
    · cases h
  case boolean =>
    split at h; · cases h
    split at h
    · next o ho =>
      cases h
      refine ⟨ht, hn, ?_⟩
      simp only [PBool.setValue, PBool.assign] at ho
      cases hc : PBool.convert py (py.strip x.text) with
      | error e => rw [hc] at ho; cases ho
      | ok b =>
        rw [hc] at ho; cases ho
        intro s hs; cases hs
        exact hd.strip _ hx.1
    · cases h
  case numerical =>
    split at h
    · next o ho => cases h; exact ⟨ht, hu, attrQ hd hx _, parseNum?_Q hd hx ho⟩
    · cases h
  case integer =>
    split at h
    · next o ho => cases h; exact ⟨ht, hu, hn, parseNum?_Q hd hx ho⟩
    · cases h
  case positive =>
    split at h; · cases h
    split at h
    · next o ho =>
      split at h
      · cases h
      · cases h; exact ⟨ht, hu, hn, parseNum_Q hd hx ho⟩
    · cases h
  case numericals =>
    split at h
    · next o ho => cases h; exact ⟨hn, hn, hn, parseNum?_Q hd hx ho⟩
    · cases h
  case limit => cases h; exact ⟨ht, hu, attrQ hd hx _, hv⟩
  case ref => cases h; exact ⟨attrQ hd hx _, attrQ hd hx _, hv⟩
  case refTo d =>
    split at h
    · next hq =>
      cases h
      exact ⟨attrQ hd hx _, hq ▸ attrQ hd hx _, hv⟩
    · cases h
  case refDest =>
    cases h
    refine ⟨hn, ?_, hd.own _ (by decide)⟩
    split
    · exact hn
    · intro s hs; cases hs; exact hv
  case raw => split at h <;> cases h; exact hv
  case rawNonblank => split at h <;> cases h; exact hv

theorem readAttr_Q {strict : Bool} {k : AKind} {v : Str} (hv : R v) {s : Scalar py.F} (h : readAttr py strict k v = .ok (some s)) : ScalQ Q s := by
  have hn : OptQ Q none := optQ_none
  cases k with
  | raw => cases h; exact hd.same _ hv
  | lit => cases h; exact ⟨hn, hn, hd.same _ hv⟩
  | mapped m =>
    simp only [readAttr] at h
    split at h
    · next e he =>
      cases h
      refine ⟨hn, hn, hd.own _ ?_⟩
      have := List.mem_of_find?_eq_some he
      have key : ∀ m : AMap, ∀ e ∈ m.map, e.1 ∈ ownTexts := by intro m; cases m <;> decide
      exact key m e this
    · split at h <;> cases h

omit hd in
theorem scalars_Q {r : Except PyErr (Option (Scalar py.F))} (hr : ∀ s, r = .ok (some s) → ScalQ Q s) {vs : List (MObj py.F)} (h : scalars r = .ok vs) :
    ∀ v ∈ vs, ObjQ Q v := by
  unfold scalars at h
  split at h
  · cases h
  · cases h; simp
  · next s =>
    cases h
    intro v hv
    simp only [List.mem_singleton] at hv
    subst hv
    exact .scal _ (hr s rfl)

theorem readItem_Q {strict : Bool} {rd : Key → Xml → Except RErr (MObj py.F)} (hrd : ∀ k x o, Every (Strs R) x → rd k x = .ok o → ObjQ Q o)
    {i : Item} {y : Xml} (hy : Every (Strs R) y) {vs : List (MObj py.F)} (h : readItem py strict rd i y = .ok vs) : ∀ v ∈ vs, ObjQ Q v := by
  unfold readItem at h
  split at h
  · exact scalars_Q (fun s hs => readKind_Q hd hy.here hs) h
  · split at h
    · cases h; simp
    · next v hv =>
      refine scalars_Q (fun s hs => readAttr_Q hd ?_ hs) h
      unfold Xml.attr at hv
      obtain ⟨l, r, e, _⟩ := List.lookup_eq_some_iff.1 hv
      have hm := hy.here.2
      rw [e] at hm
      exact hm _ (List.mem_append_right _ (List.mem_cons_self ..))
  · split at h <;> cases h
    intro v hv
    simp only [List.mem_singleton] at hv
    subst hv
    exact .scal _ (hd.same _ hy.here.1)
  · split at h
    · cases h; simp
    · split at h
      · cases h
      · next o ho =>
        cases h
        intro v hv
        simp only [List.mem_singleton] at hv
        subst hv
        exact hrd _ _ _ hy ho
  · split at h
    · cases h; simp
    · split at h <;> cases h <;> simp
  · split at h <;> cases h
    simp
  · cases h

omit hd in
theorem mapE_from {α β ε : Type} {f : α → Except ε β} {l : List α} {r : List β} (h : mapE f l = .ok r) : ∀ b ∈ r, ∃ a ∈ l, f a = .ok b := by
  induction l generalizing r with
  | nil => cases h; simp
  | cons a l ih =>
    unfold mapE at h
    cases ha : f a with
    | error e => rw [ha] at h; cases h
    | ok b =>
      rw [ha] at h
      cases hl : mapE f l with
      | error e => rw [hl] at h; cases h
      | ok bs =>
        rw [hl] at h
        cases h
        intro x hx
        rcases List.mem_cons.1 hx with rfl | hx
        · exact ⟨a, by simp, ha⟩
        · obtain ⟨c, hc, hf⟩ := ih hl x hx
          exact ⟨c, by simp [hc], hf⟩

theorem readSlot_Q {strict : Bool} {rd : Key → Xml → Except RErr (MObj py.F)} (hrd : ∀ k x o, Every (Strs R) x → rd k x = .ok o → ObjQ Q o)
    {x : Xml} (hx : Every (Strs R) x) {s : RSlot} {vs : List (MObj py.F)} (h : readSlot py strict rd x s = .ok vs) : ∀ v ∈ vs, ObjQ Q v := by
  unfold readSlot at h
  split at h
  · cases h
  · next ws hm =>
    have hw : ∀ v ∈ ws.flatten, ObjQ Q v := by
      intro v hv
      obtain ⟨l, hl, hv⟩ := List.mem_flatten.1 hv
      obtain ⟨y, hy, hi⟩ := mapE_from hm l hl
      exact readItem_Q hd hrd (select_every hy hx) hi v hv
    have hk : ∀ v ∈ (if s.last then keepLast ws.flatten else ws.flatten), ObjQ Q v := by
      intro v hv
      split at hv
      · unfold keepLast at hv
        split at hv
        · cases hv
        · next u hu =>
          simp only [List.mem_singleton] at hv
          subst hv
          exact hw _ (List.mem_of_getLast? hu)
      · exact hw v hv
    simp only at h
    generalize (if s.last then keepLast ws.flatten else ws.flatten) = us at h hk
    split at h
    · cases h
    · split at h <;> cases h
      simp
    · cases h; exact hk

theorem readObj_Q {strict : Bool} {T : Key → Option RBody} (n : Nat) (k : Key) (x : Xml) (o : MObj py.F) (hx : Every (Strs R) x)
    (h : readObj py strict T n k x = .ok o) : ObjQ Q o := by
  induction n generalizing k x o with
  | zero => cases h
  | succ n ih =>
    rw [readObj] at h
    split at h
    · cases h
    · next b hb =>
      unfold readBody at h
      split at h
      · cases h
      · next vs hm =>
        simp only at h
        split at h
        · cases h
          refine .mk _ _ fun e he v hv => ?_
          obtain ⟨s, _, hs⟩ := mapE_from hm e.2 (List.of_mem_zip he).2
          exact readSlot_Q hd ih hx hs v hv
        · cases h

end Reading

/-! ### Writing -/

section Writing
variable {py : Py} {R Q : Str → Prop} (hd : Derived py R Q)
include hd

omit hd in
theorem optAttr_Q {k : Key} {v : Option Str} (h : OptQ Q v) : ∀ a ∈ optAttr k v, Q a.2 := by
  cases v with
  | none => simp [optAttr]
  | some s => simpa [optAttr] using h s rfl

theorem writeKind_Q {repr : py.F → Str} {k : WKind} {t : Key} {s : Scalar py.F} {y : Xml} (h : writeKind py repr k t s = .ok y) (hs : ScalQ Q s) :
    Every (Strs Q) y := by
  have leaf : ∀ (as : List (Key × Str)) (v : Str), Q v → (∀ a ∈ as, Q a.2) → Every (Strs Q) (.leaf t as v) :=
    fun as v h1 h2 => .node _ _ _ _ ⟨h1, h2⟩ (by simp)
  have app : ∀ as bs : List (Key × Str), (∀ a ∈ as, Q a.2) → (∀ a ∈ bs, Q a.2) → ∀ a ∈ as ++ bs, Q a.2 := by
    intro as bs h1 h2 a ha
    rcases List.mem_append.1 ha with ha | ha
    · exact h1 a ha
    · exact h2 a ha
  unfold writeKind at h
  split at h
  · cases h; exact leaf _ _ hs.2.2 (app _ _ (optAttr_Q hs.1) (optAttr_Q hs.2.1))
  · next c t' u' sl o =>
    cases h
    refine leaf _ _ ?_ (app _ _ (optAttr_Q hs.1) (optAttr_Q hs.2.1))
    obtain ⟨_, _, _, h4, h5⟩ := hs
    unfold PObj.text'
    cases ho : o.text with
    | some s => exact h4 s ho
    | none => rw [h5 ho]; exact hd.own "None".toList (by decide)
  · next t' u' o =>
    cases h
    refine leaf _ _ ?_ (app _ _ (optAttr_Q hs.1) (optAttr_Q hs.2.1))
    unfold PBool.text'
    cases ho : o.text with
    | some s => exact hs.2.2 s ho
    | none =>
      simp only
      split
      · exact hd.own _ (by decide)
      · exact hd.own _ (by decide)
  · next c t' u' sl o =>
    cases h
    obtain ⟨h1, h2, h3, h4, h5⟩ := hs
    refine leaf _ _ ?_ (app _ _ (app _ _ (optAttr_Q h1) (optAttr_Q h2)) (optAttr_Q h3))
    unfold PObj.writtenNumerical
    cases ho : o.text with
    | some s => exact h4 s ho
    | none => rw [h5 ho]; exact hd.own [] (by decide)
  · cases h; exact leaf _ _ hs.2.2 (app _ _ (optAttr_Q hs.1) (optAttr_Q hs.2.1))
  · cases h; exact leaf _ _ hs.2.2.2 (app _ _ (app _ _ (optAttr_Q hs.1) (optAttr_Q hs.2.1)) (optAttr_Q hs.2.2.1))
  · cases h; exact leaf _ _ hs (by simp)
  · cases h; exact leaf _ _ hs.2.2 (by simp)
  · cases h; exact leaf _ _ hs.2.2 (by simp)
  · cases h; exact leaf _ _ hs.2.2 (by simp)
  · cases h

theorem writeAttr_Q {strict : Bool} {k : WAKind} {s : Scalar py.F} {v : Str} (h : writeAttr py strict k s = .ok (some v)) (hs : ScalQ Q s) : Q v := by
  unfold writeAttr at h
  split at h
  · cases h; exact hs
  · cases h; exact hs.2.2
  · next m _ _ w =>
    split at h
    · next e he =>
      cases h
      refine hd.own _ ?_
      obtain ⟨l, r, e2, _⟩ := List.lookup_eq_some_iff.1 he
      have : (w, v) ∈ m.map := by rw [e2]; simp
      have key : ∀ m : AMap, ∀ e ∈ m.map, e.2 ∈ ownTexts := by intro m; cases m <;> decide
      exact key m _ this
    · split at h <;> cases h
  · cases h

structure OutQ (Q : Str → Prop) (o : Out) : Prop where
  attrs : ∀ a ∈ o.attrs, Q a.2
  text : Q o.text
  kids : ∀ x ∈ o.kids, Every (Strs Q) x

theorem OutQ.empty : OutQ Q {} := ⟨by simp, hd.own _ (by decide), by simp⟩

omit hd in
theorem OutQ.app {a b : Out} (ha : OutQ Q a) (hb : OutQ Q b) : OutQ Q (a.app b) := by
  refine ⟨?_, ?_, ?_⟩
  · intro x hx
    rcases List.mem_append.1 hx with hx | hx
    · exact ha.attrs x hx
    · exact hb.attrs x hx
  · simp only [Out.app]
    split
    · exact ha.text
    · exact hb.text
  · intro x hx
    rcases List.mem_append.1 hx with hx | hx
    · exact ha.kids x hx
    · exact hb.kids x hx

omit hd in
theorem OutQ.seqE {a b : Except PyErr Out} {o : Out} (h : Model.seqE a b = .ok o) (ha : ∀ x, a = .ok x → OutQ Q x) (hb : ∀ x, b = .ok x → OutQ Q x) :
    OutQ Q o := by
  unfold Model.seqE at h
  cases a with
  | error e => cases h
  | ok x => cases b with
    | error e => cases h
    | ok y => cases h; exact (ha x rfl).app (hb y rfl)

omit hd in
theorem OutQ.into {a b : Out} (ha : OutQ Q a) (hb : OutQ Q b) : OutQ Q (a.into b) := by
  unfold Out.into
  split
  · rename_i t as s ks hk
    refine ⟨ha.attrs, ha.text, ?_⟩
    intro x hx
    obtain rfl := List.mem_singleton.1 hx
    have hx := ha.kids (.node t as s ks) (by rw [hk]; simp)
    cases hx with
    | node _ _ _ _ h1 h2 =>
      refine .node _ _ _ _ ⟨?_, ?_⟩ ?_
      · show Q (if b.text = [] then s else b.text)
        split
        · exact h1.1
        · exact hb.text
      · intro x hx
        rcases List.mem_append.1 hx with hx | hx
        · exact h1.2 x hx
        · exact hb.attrs x hx
      · intro k hk
        rcases List.mem_append.1 hk with hk | hk
        · exact h2 k hk
        · exact hb.kids k hk
  · exact ha.app hb

theorem nest_Q {l : List Out} (h : ∀ o ∈ l, OutQ Q o) : OutQ Q (nest l) := by
  induction l with
  | nil => exact OutQ.empty hd
  | cons a l ih => exact (h a (by simp)).into (ih fun o ho => h o (by simp [ho]))

theorem outs_Q {l : List Out} (h : ∀ o ∈ l, OutQ Q o) : OutQ Q (outs l) := by
  induction l with
  | nil => exact OutQ.empty hd
  | cons a l ih => exact (h a (by simp)).app (ih fun o ho => h o (by simp [ho]))

theorem arr_Q {arr : Arr} {l : List Out} (h : ∀ o ∈ l, OutQ Q o) : OutQ Q (arr.outs l) := by
  cases arr with
  | nested => exact nest_Q hd h
  | _ => exact outs_Q hd h

theorem writePrim_Q {repr : py.F → Str} {t : Key} {k : WKind} {v : MObj py.F} {y : Xml} (h : writePrim py repr t k v = .ok y) (hv : ObjQ Q v) :
    Every (Strs Q) y := by
  unfold writePrim at h
  split at h
  · cases hv with
    | scal s hs => exact writeKind_Q hd h hs
  · cases h

theorem writeB_Q {repr : py.F → Str} {strict : Bool} {wr : Key → MObj py.F → Except PyErr Out}
    (hwr : ∀ k o out, ObjQ Q o → wr k o = .ok out → OutQ Q out) (o : MObj py.F) (ho : ObjQ Q o) (b : WB) (out : Out)
    (h : writeB py repr strict wr o b = .ok out) : OutQ Q out := by
  have emp : OutQ Q {} := OutQ.empty hd
  have e0 : Q [] := hd.own _ (by decide)
  induction b generalizing out with
  | nil => cases h; exact emp
  | attr n k f r ih =>
    refine OutQ.seqE h ?_ (fun x hx => ih x hx)
    intro x hx
    have hg : ∀ v ∈ o.get f, ObjQ Q v := fun v hv => objQ_get ho hv
    unfold writeAttrOf at hx
    split at hx
    · next s l hl =>
      rw [hl] at hg
      split at hx
      · cases hx
      · cases hx; exact emp
      · next v hv =>
        cases hx
        cases hg _ (List.mem_cons_self ..) with
        | scal _ hs => exact ⟨by simpa using writeAttr_Q hd hv hs, e0, by simp⟩
    · cases hx
    · cases hx; exact emp
  | text k f r ih =>
    refine OutQ.seqE h ?_ (fun x hx => ih x hx)
    intro x hx
    have hg : ∀ v ∈ o.get f, ObjQ Q v := fun v hv => objQ_get ho hv
    unfold writeTextOf at hx
    split at hx
    · next s l hl =>
      rw [hl] at hg
      split at hx
      · cases hx
      · cases hx; exact emp
      · next v hv =>
        cases hx
        cases hg _ (List.mem_cons_self ..) with
        | scal _ hs => exact ⟨by simp, writeAttr_Q hd hv hs, by simp⟩
    · cases hx
    · cases hx; exact emp
  | prim t k f r ih =>
    refine OutQ.seqE h ?_ (fun x hx => ih x hx)
    intro x hx
    cases hm : mapE (writePrim py repr t k) (o.get f) with
    | error e => rw [hm] at hx; cases hx
    | ok ys =>
      rw [hm] at hx; cases hx
      refine ⟨by simp, e0, ?_⟩
      intro y hy
      obtain ⟨v, hv, hw⟩ := mapE_from hm y hy
      exact writePrim_Q hd hw (objQ_get ho hv)
  | oprim u t k f r ih =>
    refine OutQ.seqE h ?_ (fun x hx => ih x hx)
    intro x hx
    cases hm : mapE (writePrim py repr t k) (o.get f) with
    | error e => rw [hm] at hx; cases hx
    | ok ys =>
      rw [hm] at hx; cases hx
      refine ⟨by simp, e0, ?_⟩
      intro z hz
      obtain ⟨y, hy, rfl⟩ := List.mem_map.1 hz
      refine .node _ _ _ _ ⟨e0, by simp [Xml.attrs]⟩ ?_
      intro w hw
      simp only [List.mem_singleton] at hw
      subst hw
      obtain ⟨v, hv, hw⟩ := mapE_from hm w hy
      exact writePrim_Q hd hw (objQ_get ho hv)
  | each f v s cases' other r ih =>
    refine OutQ.seqE h ?_ (fun x hx => ih x hx)
    intro x hx
    cases hm : mapE (writeCase py strict wr cases' other) (if s.sort then byName (o.view f v) else o.view f v) with
    | error e => rw [hm] at hx; cases hx
    | ok ys =>
      rw [hm] at hx; cases hx
      refine arr_Q hd fun y hy => ?_
      obtain ⟨a, ha, hab⟩ := mapE_from hm y hy
      have ha : ObjQ Q a := by
        have : a ∈ o.view f v := by
          split at ha
          · exact mem_byName.1 ha
          · exact ha
        exact objQ_get ho (mem_view this)
      unfold writeCase at hab
      split at hab
      · exact hwr _ _ _ ha hab
      · split at hab <;> cases hab
        exact emp
  | wrap c t b r ihb ihr =>
    refine OutQ.seqE h ?_ (fun x hx => ihr x hx)
    intro x hx
    split at hx
    · cases hm : writeB py repr strict wr o b with
      | error e => rw [hm] at hx; cases hx
      | ok y =>
        rw [hm] at hx; cases hx
        have hy := ihb y hm
        refine ⟨by simp, e0, ?_⟩
        intro z hz
        simp only [List.mem_singleton] at hz
        subst hz
        exact .node _ _ _ _ ⟨hy.text, hy.attrs⟩ hy.kids
    · cases hx; exact emp
  | when c b r ihb ihr =>
    refine OutQ.seqE h ?_ (fun x hx => ihr x hx)
    intro x hx
    split at hx
    · exact ihb x hx
    · cases hx; exact emp
  | fail e a r ih =>
    refine OutQ.seqE h ?_ (fun x hx => ih x hx)
    intro x hx
    split at hx
    · cases hx
    · cases hx; exact emp

theorem writeObj_Q {repr : py.F → Str} {strict : Bool} {T : Key → Option WB} (n : Nat) (k : Key) (o : MObj py.F) (ho : ObjQ Q o) (out : Out)
    (h : writeObj py repr strict T n k o = .ok out) : OutQ Q out := by
  induction n generalizing k o out with
  | zero => cases h
  | succ n ih =>
    rw [writeObj] at h
    cases hb : T k with
    | none => rw [hb] at h; cases h
    | some b =>
      rw [hb] at h
      exact writeB_Q hd (fun k o out ho h => ih k o ho out h) o ho b out h

theorem withSchema_Q {d : MObj py.F} (h : ObjQ Q d) : ObjQ Q (withSchema py d) := by
  unfold withSchema
  split
  · cases h with
    | scal s hs => exact .scal s hs
    | mk c fs h =>
      refine .mk _ _ fun e he v hv => ?_
      obtain ⟨e', he', rfl⟩ := List.mem_map.1 he
      split at hv
      · simp only [List.mem_singleton] at hv
        subst hv
        exact .scal _ (hd.own defaultSchema (by decide))
      · exact h e' he' v hv
  · exact h

/-- every text of the saved tree, for any document -/
theorem savedDoc_Q {repr : py.F → Str} {strict : Bool} {d : MObj py.F} (ho : ObjQ Q d) {y : Xml} (hs : save py repr strict d = .ok y) :
    Every (Strs Q) y := by
  have ho := withSchema_Q hd ho
  unfold save at hs
  cases hw : writeObj py repr strict writers (withSchema py d).depth k!"save" (withSchema py d) with
  | error e => rw [hw] at hs; cases hs
  | ok out =>
    rw [hw] at hs
    have hf := writeObj_Q hd _ _ _ ho _ hw
    split at hs
    · next e heq => cases heq
    · next o heq =>
      cases heq
      split at hs
      · next x hk => cases hs; exact hf.kids _ (by rw [hk]; simp)
      · cases hs

/-- every text of the saved tree -/
theorem saved_Q {repr : py.F → Str} {strict : Bool} {x : Xml} (hx : Every (Strs R) x) {d : MObj py.F} (hl : load py strict x = .ok d)
    {y : Xml} (hs : save py repr strict d = .ok y) : Every (Strs Q) y := by
  unfold load at hl
  split at hl
  · cases hl
  exact savedDoc_Q hd (readObj_Q hd _ _ _ _ hx hl) hs

end Writing

end Verif.Lemmas
