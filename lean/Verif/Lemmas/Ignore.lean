import Verif.Lemmas.Fuel
import Verif.Spec.Ignore
/-!
# Elements the reader does not look at
-/
namespace Verif.Lemmas
open Verif Verif.Model Verif.Spec

/-- two lists of selected elements that are read alike -/
inductive Alike (final : Key → List Key → Bool) (hit : Key → Bool) : List Xml → List Xml → Prop
  | refl (l : List Xml) : Alike final hit l l
  | del (l r : List Xml) (u : Xml) : hit u.tag = false → Alike final hit (l ++ u :: r) (l ++ r)
  | sub (l r : List Xml) (q : List Key) (y y' : Xml) : Del q y y' → final y.tag q = false → Alike final hit (l ++ y :: r) (l ++ y' :: r)

theorem _root_.Verif.Spec.Del.tag_eq {q : List Key} {x y : Xml} (h : Del q x y) : y.tag = x.tag := by cases h <;> rfl
theorem _root_.Verif.Spec.Del.attrs_eq {q : List Key} {x y : Xml} (h : Del q x y) : y.attrs = x.attrs := by cases h <;> rfl
theorem _root_.Verif.Spec.Del.text_eq {q : List Key} {x y : Xml} (h : Del q x y) : y.text = x.text := by cases h <;> rfl
theorem _root_.Verif.Spec.Del.ne_nil {q : List Key} {x y : Xml} (h : Del q x y) : q ≠ [] := by cases h <;> simp

section
variable {final : Key → List Key → Bool} {hit : Key → Bool}

theorem Alike.append {A B : List Xml} (h : Alike final hit A B) (l r : List Xml) : Alike final hit (l ++ A ++ r) (l ++ B ++ r) := by
  cases h with
  | refl => exact .refl _
  | del l' r' u hu =>
    have := Alike.del (final := final) (l ++ l') (r' ++ r) u hu
    simpa [List.append_assoc] using this
  | sub l' r' q y y' h1 h2 =>
    have := Alike.sub (hit := hit) (l ++ l') (r' ++ r) q y y' h1 h2
    simpa [List.append_assoc] using this

theorem Alike.flat {f : Xml → List Xml} {y y' : Xml} {l r : List Xml} (h : Alike final hit (f y) (f y')) :
    Alike final hit ((l ++ y :: r).flatMap f) ((l ++ y' :: r).flatMap f) := by
  have := h.append (l.flatMap f) (r.flatMap f)
  simpa [List.flatMap_append, List.append_assoc] using this

theorem Alike.isEmpty {A B : List Xml} (h : Alike final (fun _ => true) A B) : A.isEmpty = B.isEmpty := by
  cases h with
  | refl => rfl
  | del _ _ _ h => cases h
  | sub l r => cases l <;> rfl

theorem tagIs_fits (a : Key) (x : Xml) : tagIs a x = fitsTag a x.tag := by
  simp only [tagIs, fitsTag]
  congr 1
  exact Bool.beq_comm

theorem filter_mid (p : Xml → Bool) (l r : List Xml) (y : Xml) :
    (l ++ y :: r).filter p = if p y then l.filter p ++ y :: r.filter p else l.filter p ++ r.filter p := by
  rw [List.filter_append, List.filter_cons]
  split <;> simp

theorem walk_alike {k : Key → List Key → Bool} {ts : List Key} {q : List Key} {x x' : Xml} (hd : Del q x x')
    (h : looksFirst k ts x.tag q = false) : Alike k (fun _ => true) (walk ts x) (walk ts x') := by
  induction ts generalizing q x x' with
  | nil => exact .sub [] [] q x x' hd h
  | cons a ts ih =>
    cases hd with
    | here t at' s l r u =>
      simp only [looksFirst, if_true, Bool.and_true] at h
      simp only [walk, Xml.kids]
      rw [filter_mid, tagIs_fits, h, List.filter_append]
      exact .refl _
    | deep t at' s l r q y y' hy =>
      simp only [looksFirst, hy.ne_nil, if_false] at h
      simp only [walk, Xml.kids]
      rw [filter_mid, filter_mid, tagIs_fits, tagIs_fits, hy.tag_eq]
      split
      · rename_i hf
        rw [hf, Bool.true_and] at h
        exact Alike.flat (ih hy h)
      · exact .refl _

theorem find?_mid (p : Xml → Bool) (l r : List Xml) (y : Xml) :
    (l ++ y :: r).find? p = ((l.find? p).or (if p y then some y else r.find? p)) := by
  rw [List.find?_append, List.find?_cons]
  cases p y <;> simp

theorem pick_alike {ts : List Key} {l r : List Xml} {t : Key} {a : List (Key × Str)} {s : Str} {q : List Key} {y y' : Xml} (hd : Del q y y') :
    pickKid ts (.node t a s (l ++ y :: r)) = pickKid ts (.node t a s (l ++ y' :: r)) ∨
    (pickKid ts (.node t a s (l ++ y :: r)) = some y ∧ pickKid ts (.node t a s (l ++ y' :: r)) = some y' ∧
      (ts.any fun a => fitsTag a y.tag) = true) := by
  induction ts with
  | nil => exact .inl rfl
  | cons b ts ih =>
    simp only [pickKid, Xml.kids, find?_mid, tagIs_fits, hd.tag_eq]
    cases hl : l.find? (tagIs b) with
    | some z => exact .inl rfl
    | none =>
      simp only [Option.none_or]
      by_cases hf : fitsTag b y.tag = true
      · simp only [hf, if_true, List.any_cons, Bool.true_or]
        exact .inr ⟨trivial, trivial, trivial⟩
      · simp only [hf, Bool.false_eq_true, if_false]
        cases r.find? (tagIs b) with
        | some z => exact .inl rfl
        | none =>
          rcases ih with h | ⟨h1, h2, h3⟩
          · exact .inl h
          · exact .inr ⟨h1, h2, by rw [List.any_cons, h3, Bool.or_true]⟩

theorem pick_del {ts : List Key} {l r : List Xml} {t : Key} {a : List (Key × Str)} {s : Str} {u : Xml}
    (h : (ts.any fun a => fitsTag a u.tag) = false) :
    pickKid ts (.node t a s (l ++ u :: r)) = pickKid ts (.node t a s (l ++ r)) := by
  induction ts with
  | nil => rfl
  | cons b ts ih =>
    rw [List.any_cons, Bool.or_eq_false_iff] at h
    have e : tagIs b u = false := by rw [tagIs_fits]; exact h.1
    simp only [pickKid, Xml.kids, List.find?_append, List.find?_cons, e, ih h.2]

/-- following a path in both trees -/
theorem select_alike {p : Path} {q : List Key} {x x' : Xml} (hd : Del q x x')
    (h : looks final hit p x.tag q = false) : Alike final hit (select p x) (select p x') := by
  induction p generalizing q x x' final hit with
  | nil => exact .sub [] [] q x x' hd h
  | all a r ih =>
    cases hd with
    | here t at' s l r' u =>
      simp only [looks, if_true] at h
      simp only [select, Xml.kids]
      rw [filter_mid, tagIs_fits, List.filter_append]
      split
      · rename_i hf
        rw [hf, Bool.true_and] at h
        split at h
        · rename_i hr
          subst hr
          simp only [select]
          have e : ∀ L : List Xml, (L.flatMap fun x => [x]) = L := by intro L; induction L <;> simp_all
          rw [e, e]
          exact .del _ _ u h
        · cases h
      · exact .refl _
    | deep t at' s l r' q y y' hy =>
      simp only [looks, hy.ne_nil, if_false] at h
      simp only [select, Xml.kids]
      rw [filter_mid, filter_mid, tagIs_fits, tagIs_fits, hy.tag_eq]
      split
      · rename_i hf
        rw [hf, Bool.true_and] at h
        exact Alike.flat (ih hy h)
      · exact .refl _
  | first ts r ih =>
    simp only [looks] at h
    have := walk_alike hd h
    simp only [select]
    generalize walk ts x = A at this
    generalize walk ts x' = B at this
    cases this with
    | refl => exact .refl _
    | del _ _ _ h => cases h
    | sub l r' q' y y' h1 h2 =>
      cases l with
      | nil => exact ih h1 h2
      | cons z l => exact .refl _
  | pick ts r ih =>
    cases hd with
    | here t at' s l r' u =>
      simp only [looks, if_true, Bool.and_true] at h
      simp only [select, pick_del h]
      exact .refl _
    | deep t at' s l r' q y y' hy =>
      simp only [looks, hy.ne_nil, if_false] at h
      simp only [select]
      rcases pick_alike (ts := ts) (l := l) (r := r') (t := t) (a := at') (s := s) hy with e | ⟨e1, e2, e3⟩
      · rw [e]; exact .refl _
      · rw [e1, e2]
        rw [e3, Bool.true_and] at h
        exact ih hy h
  | need p r ihp ih =>
    simp only [looks, Bool.or_eq_false_iff] at h
    simp only [select]
    rw [(ihp hd h.1).isEmpty]
    split
    · exact .refl _
    · exact ih hd h.2
  | lack p r ihp ih =>
    simp only [looks, Bool.or_eq_false_iff] at h
    simp only [select]
    rw [(ihp hd h.1).isEmpty]
    split
    · exact ih hd h.2
    · exact .refl _
  | alt p r ihp ih =>
    simp only [looks, Bool.or_eq_false_iff] at h
    simp only [select]
    rw [(ihp hd h.1.1).isEmpty]
    split
    · exact ih hd h.2
    · exact ihp hd h.1.2

end

/-- reading lists of elements that are alike -/
theorem mapE_alike {β ε : Type} {final : Key → List Key → Bool} {hit : Key → Bool} {f : Xml → Except ε (List β)} {A B : List Xml}
    (h : Alike final hit A B) (hh : ∀ u : Xml, hit u.tag = false → f u = .ok [])
    (hf : ∀ q y y', Del q y y' → final y.tag q = false → f y = f y') :
    (mapE f A).map List.flatten = (mapE f B).map List.flatten := by
  have cong : ∀ (l X Y : List Xml), (mapE f X).map List.flatten = (mapE f Y).map List.flatten →
      (mapE f (l ++ X)).map List.flatten = (mapE f (l ++ Y)).map List.flatten := by
    intro l X Y hXY
    induction l with
    | nil => exact hXY
    | cons a l ih =>
      simp only [List.cons_append, mapE]
      cases f a with
      | error e => rfl
      | ok v =>
        simp only
        generalize mapE f (l ++ X) = P at ih
        generalize mapE f (l ++ Y) = Q at ih
        cases P <;> cases Q <;> simp_all [Except.map]
  cases h with
  | refl => rfl
  | del l r u hu =>
    apply cong
    simp only [mapE, hh u hu]
    cases mapE f r <;> simp [Except.map]
  | sub l r q y y' h1 h2 =>
    apply cong
    simp only [mapE, hf q y y' h1 h2]

section
variable {py : Py} {strict : Bool}

theorem readKind_del (k : RKind) {q : List Key} {y y' : Xml} (h : Del q y y') : readKind py k y = readKind py k y' := by
  cases y; cases y'
  have h1 := h.attrs_eq
  have h2 := h.text_eq
  simp only [Xml.attrs, Xml.text] at h1 h2
  subst h1; subst h2
  cases k <;> rfl

theorem want_del {a : Key} {q : List Key} {y y' : Xml} (h : Del q y y') (hq : inItem (fun _ _ _ => true) (.want a .keyError) y.tag q = false) :
    y.kids.any (tagIs a) = y'.kids.any (tagIs a) := by
  cases h with
  | here t at' s l r u =>
    simp only [inItem] at hq
    simp only [Xml.kids, List.any_append, List.any_cons, tagIs_fits, hq, Bool.false_or]
  | deep t at' s l r q y y' hy =>
    simp only [Xml.kids, List.any_append, List.any_cons, tagIs_fits, hy.tag_eq]

theorem readItem_del {rd : Key → Xml → Except RErr (MObj py.F)} {kn : Key → Key → List Key → Bool} (i : Item) {q : List Key} {y y' : Xml}
    (hrd : ∀ k q y y', Del q y y' → kn k y.tag q = false → rd k y = rd k y') (h : Del q y y') (hq : inItem kn i y.tag q = false) :
    readItem py strict rd i y = readItem py strict rd i y' := by
  cases i with
  | prim k => simp only [readItem, readKind_del k h]
  | attr n k => simp only [readItem, Xml.attr, h.attrs_eq]
  | name => simp only [readItem, h.text_eq]
  | objs alts =>
    simp only [readItem, h.tag_eq]
    simp only [inItem] at hq
    split
    · rfl
    · rename_i k hk
      rw [hk] at hq
      rw [hrd k q y y' h hq]
  | guard tags g => simp only [readItem, h.tag_eq]
  | want a e =>
    simp only [readItem]
    rw [want_del h (by simpa only [inItem] using hq)]
  | crash e => rfl

theorem readItem_miss {rd : Key → Xml → Except RErr (MObj py.F)} {i : Item} {u : Xml} (h : onItem strict i u.tag = false) :
    readItem py strict rd i u = .ok [] := by
  cases i with
  | objs alts =>
    simp only [onItem, Option.isSome_eq_false_iff, Option.isNone_iff_eq_none] at h
    simp only [readItem, h]
  | guard tags g =>
    simp only [onItem, Bool.and_eq_false_iff, Bool.not_eq_false', Bool.or_eq_false_iff] at h
    simp only [readItem]
    split
    · rfl
    · rcases h with h | ⟨rfl, h⟩
      · contradiction
      · cases g <;> simp_all
  | prim k => cases h
  | attr n k => cases h
  | name => cases h
  | want a e => cases h
  | crash e => cases h

theorem readSlot_alike {rd : Key → Xml → Except RErr (MObj py.F)} {x x' : Xml} {s : RSlot}
    (h : (mapE (readItem py strict rd s.item) (select s.path x)).map List.flatten =
      (mapE (readItem py strict rd s.item) (select s.path x')).map List.flatten) :
    readSlot py strict rd x s = readSlot py strict rd x' s := by
  unfold readSlot
  generalize mapE (readItem py strict rd s.item) (select s.path x) = P at h
  generalize mapE (readItem py strict rd s.item) (select s.path x') = Q at h
  cases P <;> cases Q <;> simp_all [Except.map]

/-- an element that is not looked at does not matter -/
theorem known_sound (T : Key → Option RBody) {n : Nat} {k : Key} {q : List Key} {x x' : Xml} (hd : Del q x x')
    (h : known T strict n k x.tag q = false) : readObj py strict T n k x = readObj py strict T n k x' := by
  induction n generalizing k q x x' with
  | zero => rfl
  | succ n ih =>
    simp only [known] at h
    simp only [readObj]
    split
    · rfl
    · rename_i b hb
      rw [hb] at h
      simp only at h
      have e : mapE (readSlot py strict (readObj py strict T n) x) b.slots = mapE (readSlot py strict (readObj py strict T n) x') b.slots := by
        apply mapE_congr
        intro s hs
        have hs' := List.any_eq_false.1 h s hs
        rw [Bool.not_eq_true] at hs'
        exact readSlot_alike (mapE_alike (select_alike hd hs') (fun u hu => readItem_miss hu)
          fun q y y' hy hq => readItem_del (kn := known T strict n) s.item (fun _ q y y' hy hk => ih hy hk) hy hq)
      simp only [readBody, e]

/-! ## the two modes -/

theorem readAttr_modes {k : AKind} {v : Str} {r : Option (Scalar py.F)} (h : readAttr py true k v = .ok r) : readAttr py false k v = .ok r := by
  cases k with
  | raw => exact h
  | lit => exact h
  | mapped m =>
    simp only [readAttr] at h ⊢
    split at h
    · exact h
    · simp at h

theorem readItem_modes {rd rd' : Key → Xml → Except RErr (MObj py.F)} (hrd : ∀ k y o, rd k y = .ok o → rd' k y = .ok o) {i : Item} {y : Xml}
    {l : List (MObj py.F)} (h : readItem py true rd i y = .ok l) : readItem py false rd' i y = .ok l := by
  cases i with
  | prim k => exact h
  | attr n k =>
    simp only [readItem] at h ⊢
    split at h
    · exact h
    · rename_i v _
      cases hr : readAttr py true k v with
      | error e => rw [hr] at h; cases h
      | ok r => rw [readAttr_modes hr, ← hr]; exact h
  | name => exact h
  | objs alts =>
    simp only [readItem] at h ⊢
    split at h
    · exact h
    · rename_i k _
      cases hr : rd k y with
      | error e => rw [hr] at h; cases h
      | ok o => rw [hr] at h; rw [hrd k y o hr]; exact h
  | guard tags g =>
    simp only [readItem] at h ⊢
    by_cases hc : tags.contains y.tag = true
    · rw [if_pos hc] at h ⊢; exact h
    · rw [if_neg hc] at h; cases g <;> cases h
  | want a e => exact h
  | crash e => exact h

theorem mapE_modes {α β ε : Type} {f g : α → Except ε β} (h : ∀ a b, f a = .ok b → g a = .ok b) {l : List α} {r : List β} (hr : mapE f l = .ok r) :
    mapE g l = .ok r := by
  induction l generalizing r with
  | nil => exact hr
  | cons a l ih =>
    simp only [mapE] at hr ⊢
    split at hr
    · cases hr
    · rename_i b hb
      rw [h a b hb]
      split at hr
      · cases hr
      · rename_i bs hbs
        rw [ih hbs]
        exact hr

theorem readSlot_modes {rd rd' : Key → Xml → Except RErr (MObj py.F)} (hrd : ∀ k y o, rd k y = .ok o → rd' k y = .ok o) {s : RSlot} {x : Xml}
    {l : List (MObj py.F)} (h : readSlot py true rd x s = .ok l) : readSlot py false rd' x s = .ok l := by
  unfold readSlot at h ⊢
  split at h
  · cases h
  · rename_i vs hvs
    rw [mapE_modes (fun a b => readItem_modes hrd) hvs]
    simp only at h ⊢
    generalize (if s.last = true then keepLast vs.flatten else vs.flatten) = w at h
    cases hr : s.req <;> cases w <;> rw [hr] at h <;> simp_all

theorem readObj_modes (T : Key → Option RBody) {n : Nat} {k : Key} {x : Xml} {o : MObj py.F} (h : readObj py true T n k x = .ok o) :
    readObj py false T n k x = .ok o := by
  induction n generalizing k x o with
  | zero => exact h
  | succ n ih =>
    simp only [readObj] at h ⊢
    split at h
    · cases h
    · rename_i b hb
      simp only [readBody] at h ⊢
      split at h
      · cases h
      · rename_i vs hvs
        rw [mapE_modes (fun a l => readSlot_modes fun k y o => ih) hvs]
        exact h

/-- mandatory references are optional in warning mode -/
theorem readObj_lenient (T : Key → Option RBody) (n : Nat) (k : Key) (x : Xml) :
    readObj py false T n k x = readObj py false (fun k => (T k).map RBody.lenient) n k x := by
  induction n generalizing k x with
  | zero => rfl
  | succ n ih =>
    simp only [readObj]
    cases hb : T k with
    | none => rfl
    | some b =>
      simp only [Option.map_some, RBody.lenient, readBody]
      have hrd : readObj py false T n = readObj py false (fun k => (T k).map RBody.lenient) n := by
        funext k x; exact ih k x
      rw [hrd]
      generalize readObj py false (fun k => (T k).map RBody.lenient) n = rd
      have e : mapE (readSlot py false rd x) (b.slots.map fun s => if s.req = .strict then { s with req := .no } else s) =
          mapE (readSlot py false rd x) b.slots := by
        induction b.slots with
        | nil => rfl
        | cons s l ih =>
          simp only [List.map_cons, mapE, ih]
          have : readSlot py false rd x (if s.req = .strict then { s with req := .no } else s) = readSlot py false rd x s := by
            split
            · rename_i hs
              simp only [readSlot, hs]
              split
              · rfl
              · rename_i vs _
                generalize (if s.last = true then keepLast vs.flatten else vs.flatten) = w
                cases w <;> simp
            · rfl
          rw [this]
      rw [e]
      have e2 : (b.slots.map fun s => if s.req = .strict then { s with req := .no } else s).map RSlot.key = b.slots.map RSlot.key := by
        rw [List.map_map]
        apply List.map_congr_left
        intro s _
        simp only [Function.comp, RSlot.key]
        split <;> rfl
      have e3 : ∀ o : MObj py.F, namesOk (b.slots.map fun s => if s.req = .strict then { s with req := .no } else s) o = namesOk b.slots o := by
        intro o
        simp only [namesOk, List.all_map]
        congr 1
        funext s
        simp only [Function.comp]
        split <;> rfl
      rw [e2]
      simp only [e3]

theorem mapE_mem {α β ε : Type} {f : α → Except ε β} {l : List α} {r : List β} (h : mapE f l = .ok r) {a : α} (ha : a ∈ l) :
    ∃ b, f a = .ok b ∧ b ∈ r := by
  induction l generalizing r with
  | nil => cases ha
  | cons c l ih =>
    simp only [mapE] at h
    split at h
    · cases h
    · rename_i b hb
      split at h
      · cases h
      · rename_i bs hbs
        cases h
        rcases List.mem_cons.1 ha with rfl | ha
        · exact ⟨b, hb, by simp⟩
        · obtain ⟨b', h1, h2⟩ := ih hbs ha
          exact ⟨b', h1, by simp [h2]⟩

/-- everything that is visited is read successfully -/
theorem visits_read (T : Key → Option RBody) {k k' : Key} {x y : Xml} (hv : Visits T k x k' y) {n : Nat} {o : MObj py.F}
    (h : readObj py strict T n k x = .ok o) : ∃ m o', readObj py strict T m k' y = .ok o' := by
  induction hv generalizing n o with
  | self => exact ⟨n, o, h⟩
  | step k x b s alts y j k' z hb hs hi hy hj _ ih =>
    cases n with
    | zero => cases h
    | succ n =>
      simp only [readObj, hb, readBody] at h
      split at h
      · cases h
      · rename_i vs hvs
        obtain ⟨l, hl, _⟩ := mapE_mem hvs hs
        simp only [readSlot] at hl
        split at hl
        · cases hl
        · rename_i ls hls
          obtain ⟨r, hr, _⟩ := mapE_mem hls hy
          rw [hi] at hr
          simp only [readItem, hj] at hr
          split at hr
          · cases hr
          · rename_i o' ho'
            exact ih ho'

/-- in strict mode no check failed -/
theorem strict_checks (T : Key → Option RBody) {k : Key} {x : Xml} {n : Nat} {o : MObj py.F} (h : readObj py true T n k x = .ok o) {b : RBody}
    (hb : T k = some b) {s : RSlot} (hs : s ∈ b.slots) :
    (∀ tags g, s.item = .guard tags g → ∀ y ∈ select s.path x, y.tag ∈ tags) ∧ (s.req = .strict → select s.path x ≠ []) := by
  cases n with
  | zero => cases h
  | succ n =>
    simp only [readObj, hb, readBody] at h
    split at h
    · cases h
    · rename_i vs hvs
      obtain ⟨l, hl, _⟩ := mapE_mem hvs hs
      simp only [readSlot] at hl
      split at hl
      · cases hl
      · rename_i ls hls
        refine ⟨fun tags g hi y hy => ?_, fun hr h0 => ?_⟩
        · obtain ⟨r, hr, _⟩ := mapE_mem hls hy
          rw [hi] at hr
          simp only [readItem] at hr
          by_cases hc : tags.contains y.tag = true
          · simpa using hc
          · rw [if_neg hc] at hr; cases g <;> cases hr
        · rw [h0] at hls
          cases hls
          rw [hr] at hl
          simp only [List.flatten_nil, keepLast, List.getLast?_nil, ite_self] at hl
          cases hl

end

/-! ## the writer -/

theorem seqE_modes {a a' b b' : Except PyErr Out} (h1 : ∀ x, a = .ok x → a' = .ok x) (h2 : ∀ x, b = .ok x → b' = .ok x) {x : Out}
    (h : seqE a b = .ok x) : seqE a' b' = .ok x := by
  cases a with
  | error e => cases h
  | ok u =>
    cases b with
    | error e => cases h
    | ok v => rw [h1 u rfl, h2 v rfl]; exact h

theorem map_modes {α β ε : Type} {a a' : Except ε α} {f : α → β} (h : ∀ x, a = .ok x → a' = .ok x) (y : β) (hy : a.map f = .ok y) : a'.map f = .ok y := by
  cases a with
  | error e => cases hy
  | ok u => rw [h u rfl]; exact hy

section
variable {py : Py} {repr : py.F → Str}

theorem writeAttr_modes {k : WAKind} {s : Scalar py.F} {r : Option Str} (h : writeAttr py true k s = .ok r) : writeAttr py false k s = .ok r := by
  unfold writeAttr at h ⊢
  split at h <;> simp_all
  split at h <;> simp_all

theorem writeAttrOf_modes {n : Key} {k : WAKind} {l : List (MObj py.F)} (x : Out) (h : writeAttrOf py true n k l = .ok x) :
    writeAttrOf py false n k l = .ok x := by
  unfold writeAttrOf at h ⊢
  split at h
  · rename_i s _
    cases hs : writeAttr py true k s with
    | error e => rw [hs] at h; cases h
    | ok r => rw [hs] at h; simp only [writeAttr_modes hs]; exact h
  · cases h
  · exact h

theorem writeTextOf_modes {k : WAKind} {l : List (MObj py.F)} (x : Out) (h : writeTextOf py true k l = .ok x) :
    writeTextOf py false k l = .ok x := by
  unfold writeTextOf at h ⊢
  split at h
  · rename_i s _
    cases hs : writeAttr py true k s with
    | error e => rw [hs] at h; cases h
    | ok r => rw [hs] at h; simp only [writeAttr_modes hs]; exact h
  · cases h
  · exact h

theorem writeCase_modes {wr wr' : Key → MObj py.F → Except PyErr Out} (hw : ∀ k o x, wr k o = .ok x → wr' k o = .ok x) {cs : List Case} {other : Other}
    {o : MObj py.F} {x : Out} (h : writeCase py true wr cs other o = .ok x) : writeCase py false wr' cs other o = .ok x := by
  unfold writeCase at h ⊢
  split at h
  · exact hw _ _ _ h
  · cases other <;> simp_all

theorem writeB_modes {wr wr' : Key → MObj py.F → Except PyErr Out} (hw : ∀ k o x, wr k o = .ok x → wr' k o = .ok x) (o : MObj py.F) (b : WB) (x : Out)
    (h : writeB py repr true wr o b = .ok x) : writeB py repr false wr' o b = .ok x := by
  induction b generalizing x with
  | nil => exact h
  | attr n k f r ih => exact seqE_modes writeAttrOf_modes ih h
  | text k f r ih => exact seqE_modes writeTextOf_modes ih h
  | prim t k f r ih => exact seqE_modes (fun _ h => h) ih h
  | oprim u t k f r ih => exact seqE_modes (fun _ h => h) ih h
  | each f v s cs other r ih =>
    exact seqE_modes (map_modes fun _ h => mapE_modes (fun _ _ => writeCase_modes hw) h) ih h
  | wrap c t b r ihb ih =>
    refine seqE_modes ?_ ih h
    intro y hy
    split at hy
    · rename_i hc; rw [if_pos hc]; exact map_modes ihb y hy
    · rename_i hc; rw [if_neg hc]; exact hy
  | when c b r ihb ih =>
    refine seqE_modes ?_ ih h
    intro y hy
    split at hy
    · rename_i hc; rw [if_pos hc]; exact ihb y hy
    · rename_i hc; rw [if_neg hc]; exact hy
  | fail e a r ih =>
    refine seqE_modes ?_ ih h
    intro y hy
    simp at hy

theorem writeObj_modes (T : Key → Option WB) {n : Nat} {k : Key} {o : MObj py.F} {x : Out} (h : writeObj py repr true T n k o = .ok x) :
    writeObj py repr false T n k o = .ok x := by
  induction n generalizing k o x with
  | zero => exact h
  | succ n ih =>
    simp only [writeObj] at h ⊢
    split at h
    · cases h
    · exact writeB_modes (fun _ _ _ => ih) o _ _ h

end

end Verif.Lemmas
