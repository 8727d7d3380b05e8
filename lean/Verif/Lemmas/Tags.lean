import Verif.Lemmas.Within
import Verif.Gen.Names
import Verif.Spec.Tags
/-!
# Which elements the reader looks at for an attribute
-/
namespace Verif.Lemmas
open Verif Verif.Model Verif.Spec

/-- the tags on the ways a path can go, `0` for any tag -/
def routes : Path → List (List Key)
  | .nil => [[]]
  | .all t r => (routes r).map (t :: ·)
  | .first ts r => (routes r).map (ts ++ ·)
  | .pick ts r => ts.flatMap fun t => (routes r).map (t :: ·)
  | .need _ r => routes r
  | .lack _ r => routes r
  | .alt p q => routes p ++ routes q

theorem via_append {ts us : List Key} {x y z : Xml} (h : Via ts x y) (h' : Via us y z) : Via (ts ++ us) x z := by
  induction h with
  | nil => exact h'
  | cons hm _ ih => exact .cons hm (ih h')

/-- the tags passed on a way -/
def Fits (ts rs : List Key) : Prop := ts.length = rs.length ∧ ∀ t ∈ rs, t ≠ 0 → t ∈ ts

theorem fits_cons {t u : Key} {ts rs : List Key} (h : Fits ts rs) (hu : u = 0 ∨ t = u) : Fits (t :: ts) (u :: rs) := by
  refine ⟨by simp [h.1], fun v hv h0 => ?_⟩
  rcases List.mem_cons.1 hv with rfl | hv
  · rcases hu with rfl | rfl
    · exact absurd rfl h0
    · simp
  · exact List.mem_cons_of_mem _ (h.2 v hv h0)

theorem fits_append {ts us rs qs : List Key} (h : Fits ts rs) (h' : Fits us qs) : Fits (ts ++ us) (rs ++ qs) := by
  refine ⟨by simp [h.1, h'.1], fun v hv h0 => ?_⟩
  rcases List.mem_append.1 hv with hv | hv
  · exact List.mem_append_left _ (h.2 v hv h0)
  · exact List.mem_append_right _ (h'.2 v hv h0)

theorem tagIs_or {t : Key} {x : Xml} (h : tagIs t x = true) : t = 0 ∨ x.tag = t := by
  unfold tagIs at h
  simpa using h

theorem walk_via {rs : List Key} {x y : Xml} (h : y ∈ walk rs x) : ∃ ts, Via ts x y ∧ Fits ts rs := by
  induction rs generalizing x with
  | nil =>
    simp only [walk, List.mem_singleton] at h
    subst h
    exact ⟨[], .nil _, rfl, fun t ht => by cases ht⟩
  | cons t rs ih =>
    simp only [walk, List.mem_flatMap, List.mem_filter] at h
    obtain ⟨z, ⟨hz, ht⟩, hy⟩ := h
    obtain ⟨ts, hv, hf⟩ := ih hy
    exact ⟨z.tag :: ts, .cons hz hv, fits_cons hf (tagIs_or ht)⟩

theorem pickKid_via {rs : List Key} {x y : Xml} (h : pickKid rs x = some y) : y ∈ x.kids ∧ ∃ t ∈ rs, t = 0 ∨ y.tag = t := by
  induction rs with
  | nil => cases h
  | cons t rs ih =>
    unfold pickKid at h
    split at h
    · rename_i z hz
      cases h
      exact ⟨List.mem_of_find?_eq_some hz, t, by simp, tagIs_or (List.find?_some hz)⟩
    · obtain ⟨h1, t', ht, h2⟩ := ih h
      exact ⟨h1, t', by simp [ht], h2⟩

theorem select_via {p : Path} {x y : Xml} (h : y ∈ select p x) : ∃ rs ∈ routes p, ∃ ts, Via ts x y ∧ Fits ts rs := by
  induction p generalizing x with
  | nil =>
    simp only [select, List.mem_singleton] at h
    subst h
    exact ⟨[], by simp [routes], [], .nil _, rfl, fun t ht => by cases ht⟩
  | all t r ih =>
    simp only [select, List.mem_flatMap, List.mem_filter] at h
    obtain ⟨z, ⟨hz, ht⟩, hy⟩ := h
    obtain ⟨rs, hrs, ts, hv, hf⟩ := ih hy
    exact ⟨t :: rs, List.mem_map.2 ⟨rs, hrs, rfl⟩, z.tag :: ts, .cons hz hv, fits_cons hf (tagIs_or ht)⟩
  | first qs r ih =>
    simp only [select] at h
    split at h
    · cases h
    · rename_i z l hz
      obtain ⟨us, hu, hfu⟩ := walk_via (rs := qs) (x := x) (y := z) (by rw [hz]; simp)
      obtain ⟨rs, hrs, ts, hv, hf⟩ := ih h
      exact ⟨qs ++ rs, List.mem_map.2 ⟨rs, hrs, rfl⟩, us ++ ts, via_append hu hv, fits_append hfu hf⟩
  | pick qs r ih =>
    simp only [select] at h
    split at h
    · cases h
    · rename_i z hz
      obtain ⟨hk, t, ht, hu⟩ := pickKid_via hz
      obtain ⟨rs, hrs, ts, hv, hf⟩ := ih h
      exact ⟨t :: rs, List.mem_flatMap.2 ⟨t, ht, List.mem_map.2 ⟨rs, hrs, rfl⟩⟩, z.tag :: ts, .cons hk hv, fits_cons hf hu⟩
  | need p r _ ih =>
    simp only [select] at h
    split at h
    · cases h
    · exact ih h
  | lack p r _ ih =>
    simp only [select] at h
    split at h
    · exact ih h
    · cases h
  | alt p q ihp ihq =>
    simp only [select] at h
    simp only [routes, List.mem_append]
    split at h
    · obtain ⟨rs, hrs, h⟩ := ihq h
      exact ⟨rs, .inr hrs, h⟩
    · obtain ⟨rs, hrs, h⟩ := ihp h
      exact ⟨rs, .inl hrs, h⟩

/-! ## The table of the names -/

instance (E : List (Key × Key)) (f t : Key) : Decidable (MeantBy E f t) := inferInstanceAs (Decidable (CalledLike f t ∨ (f, t) ∈ otherNames ∨ (f, t) ∈ E))

def inPairs (l : List (Key × Key)) (f t : Key) : Bool := l.any fun e => e.1 == f && e.2 == t

/-- every pair of the table is a pair of names -/
def pairsB (E : List (Key × Key)) (e : Key × List Key) : Bool :=
  let s := stem e.1
  e.2.all fun t => s == stem t || inPairs otherNames e.1 t || inPairs E e.1 t

theorem inPairs_sound {l : List (Key × Key)} {f t : Key} (h : inPairs l f t = true) : (f, t) ∈ l := by
  obtain ⟨e, he, h⟩ := List.any_eq_true.1 h
  simp only [Bool.and_eq_true, beq_iff_eq] at h
  obtain ⟨rfl, rfl⟩ := h
  exact he

theorem pairsB_sound {E : List (Key × Key)} {e : Key × List Key} (h : pairsB E e = true) {t : Key} (ht : t ∈ e.2) : MeantBy E e.1 t := by
  have := List.all_eq_true.1 h t ht
  simp only [Bool.or_eq_true, beq_iff_eq] at this
  rcases this with (h | h) | h
  · exact .inl h
  · exact .inr (.inl (inPairs_sound h))
  · exact .inr (.inr (inPairs_sound h))

/-- the tags and XML attributes for an attribute -/
def tagsOf (f : Key) : List Key := (Gen.nameTable.find? f).getD []

/-- a slot looks in the right place -/
def slotB (s : RSlot) : Bool := match s.item with
  | .attr n _ => (tagsOf s.field).contains n
  | .guard _ _ | .want _ _ | .crash _ => true
  | _ => ((routes s.path).all List.isEmpty && ownText.contains s.field) || kinds.contains s.field ||
    (let l := tagsOf s.field; (routes s.path).all fun rs => rs.any fun t => t != 0 && l.contains t)

def placesB (b : RBody) : Bool := b.slots.all slotB

section
variable {py : Py} {strict : Bool} {E : List (Key × Key)}

theorem tagsOf_sound (hn : Gen.nameTable.all (fun f ts => pairsB E (f, ts)) = true) {f t : Key} (h : t ∈ tagsOf f) : MeantBy E f t := by
  unfold tagsOf at h
  cases hf : Gen.nameTable.find? f with
  | none => rw [hf] at h; cases h
  | some l =>
    rw [hf] at h
    exact pairsB_sound ((Bst.all_toList _ _).1 hn _ (Bst.find?_mem hf)) h

theorem item_placed (hn : Gen.nameTable.all (fun f ts => pairsB E (f, ts)) = true) {rd : Key → Xml → Except RErr (MObj py.F)}
    (hrd : ∀ k y o, rd k y = .ok o → Mirrors py E o y) {s : RSlot} (hs : slotB s = true) {x y : Xml} (hy : y ∈ select s.path x) {us : List (MObj py.F)}
    (hi : readItem py strict rd s.item y = .ok us) {w : MObj py.F} (hw : w ∈ us) : Placed py E s.field w x := by
  obtain ⟨rs, hrs, ts, hv, hf⟩ := select_via hy
  have hsc : ∀ {r : Except PyErr (Option (Scalar py.F))}, scalars r = .ok us → ∃ s, w = .scal s ∧ r = .ok (some s) := by
    intro r hr
    unfold scalars at hr
    split at hr
    · cases hr
    · cases hr; cases hw
    · cases hr
      rw [List.mem_singleton] at hw
      exact ⟨_, hw, rfl⟩
  have place : (((routes s.path).all List.isEmpty && ownText.contains s.field) || kinds.contains s.field ||
      (let l := tagsOf s.field; (routes s.path).all fun rs => rs.any fun t => t != 0 && l.contains t)) = true → Mirrors py E w y → Placed py E s.field w x := by
    intro h hm
    simp only [Bool.or_eq_true, Bool.and_eq_true, beq_iff_eq] at h
    rcases h with (⟨hp, ho⟩ | he) | h
    · have h0 := List.all_eq_true.1 hp rs hrs
      rw [List.isEmpty_iff] at h0
      subst h0
      have h0 := List.eq_nil_of_length_eq_zero hf.1
      subst h0
      cases hv
      exact .own (by simpa using ho) hm
    · exact .member (by simpa using he) hv hm
    · have := List.all_eq_true.1 h rs hrs
      obtain ⟨t, ht, h⟩ := List.any_eq_true.1 this
      simp only [Bool.and_eq_true, bne_iff_ne, ne_eq, List.contains_iff_mem] at h
      exact .tag hv (hf.2 t ht h.1) (tagsOf_sound hn h.2) hm
  unfold slotB at hs
  cases hit : s.item with
  | prim k =>
    rw [hit] at hs hi
    obtain ⟨u, rfl, hu⟩ := hsc hi
    exact place hs (.content hu)
  | attr n k =>
    rw [hit] at hs hi
    simp only [readItem] at hi
    cases ha : y.attr n with
    | none => rw [ha] at hi; cases hi; cases hw
    | some v =>
      rw [ha] at hi
      obtain ⟨u, rfl, hu⟩ := hsc hi
      exact .attr hv ha (tagsOf_sound hn (by simpa using hs)) hu
  | name =>
    rw [hit] at hs hi
    simp only [readItem] at hi
    split at hi
    · cases hi
    · cases hi
      rw [List.mem_singleton] at hw
      subst hw
      exact place hs (.name y)
  | objs alts =>
    rw [hit] at hs hi
    rcases item_mem hi hw with ⟨u, rfl, _⟩ | ⟨_, k, _, _, hr⟩
    · simp only [readItem] at hi
      split at hi
      · cases hi; cases hw
      · split at hi
        · cases hi
        · rename_i o ho
          cases hi
          rw [List.mem_singleton] at hw
          exact place hs (hw ▸ hrd _ _ _ ho)
    · exact place hs (hrd _ _ _ hr)
  | guard tags g =>
    rw [hit] at hi
    simp only [readItem] at hi
    split at hi
    · cases hi; cases hw
    · split at hi <;> cases hi <;> cases hw
  | want t e =>
    rw [hit] at hi
    simp only [readItem] at hi
    split at hi
    · cases hi; cases hw
    · cases hi
  | crash e =>
    rw [hit] at hi
    cases hi

theorem obj_mirrors {T : Key → Option RBody} (hn : Gen.nameTable.all (fun f ts => pairsB E (f, ts)) = true) (hT : ∀ k b, T k = some b → placesB b = true) {n : Nat} {k : Key}
    {x : Xml} {o : MObj py.F} (h : readObj py strict T n k x = .ok o) : Mirrors py E o x := by
  induction n generalizing k x o with
  | zero => cases h
  | succ n ih =>
    obtain ⟨_, b, vss, _, _, _, rfl, _⟩ := readObj_succ h
    refine .obj fun e he w hw => ?_
    obtain ⟨m, b', s, y, us, hmn, hb', _, hs, hk, hy, hi, hwu⟩ := obj_mem_at h (e := e) he hw
    cases hmn
    rw [← hk]
    exact item_placed hn (fun _ _ _ h => ih h) (List.all_eq_true.1 (hT _ _ hb') s hs) hy hi hwu

/-! ## What is nowhere in a file -/

theorem via_every {P : Xml → Prop} {ts : List Key} {x y : Xml} (h : Via ts x y) (hx : Every P x) : Every P y := by
  induction h with
  | nil => exact hx
  | cons hm _ ih => exact ih (hx.kid hm)

theorem via_tag {P : Xml → Prop} {ts : List Key} {x y : Xml} (h : Via ts x y) (hx : Every P x) {t : Key} (ht : t ∈ ts) : ∃ z, P z ∧ z.tag = t := by
  induction h with
  | nil => cases ht
  | cons hm _ ih =>
    rcases List.mem_cons.1 ht with rfl | ht
    · exact ⟨_, (hx.kid hm).here, rfl⟩
    · exact ih (hx.kid hm) ht

/-- neither the element nor one of its attributes is named after an attribute -/
def Silent (E : List (Key × Key)) (f : Key) (x : Xml) : Prop := ¬ MeantBy E f x.tag ∧ ∀ n v, x.attr n = some v → ¬ MeantBy E f n

theorem placed_silent {f : Key} {w : MObj py.F} {x : Xml} (hp : Placed py E f w x) (h1 : f ∉ ownText) (h2 : f ∉ kinds) (hx : Every (Silent E f) x) : False := by
  cases hp with
  | tag hv ht hd _ =>
    obtain ⟨z, hz, rfl⟩ := via_tag hv hx ht
    exact hz.1 hd
  | attr hv ha hd _ => exact (via_every hv hx).here.2 _ _ ha hd
  | own hf => exact h1 hf
  | member hf => exact h2 hf

theorem placed_mirrors {P : Xml → Prop} {f : Key} {w : MObj py.F} {x : Xml} (hp : Placed py E f w x) (hx : Every P x) :
    (∃ y, Every P y ∧ Mirrors py E w y) ∨ ∃ s, w = .scal s := by
  cases hp with
  | tag hv ht hd hm => exact .inl ⟨_, via_every hv hx, hm⟩
  | attr hv ha hd _ => exact .inr ⟨_, rfl⟩
  | own hf hm => exact .inl ⟨x, hx, hm⟩
  | member hf hv hm => exact .inl ⟨_, via_every hv hx, hm⟩

theorem mirrors_silent {f : Key} {o v : MObj py.F} {x : Xml} (hm : Mirrors py E o x) (h1 : f ∉ ownText) (h2 : f ∉ kinds) (hx : Every (Silent E f) x)
    (hw : Within o v) : v.get f = [] := by
  induction hw generalizing x with
  | here o =>
    apply List.eq_nil_iff_forall_not_mem.2
    intro w hw
    obtain ⟨e, he, hh, hwe⟩ := mem_get hw
    cases hm with
    | content => cases he
    | name => cases he
    | obj h =>
      have hf : e.1.1 = f := by
        simp only [hits, Bool.or_eq_true, beq_iff_eq, Bool.and_eq_true] at hh
        rcases hh with hh | ⟨_, hh⟩
        · exact hh
        · exact absurd (by rw [hh]; decide) h2
      have := h e he w hwe
      rw [hf] at this
      exact placed_silent this h1 h2 hx
  | inside e he hv hw ih =>
    cases hm with
    | content => cases he
    | name => cases he
    | obj h =>
      rcases placed_mirrors (h e he _ hv) hx with ⟨y, hy, hm⟩ | ⟨s, rfl⟩
      · exact ih hm hy
      · cases hw with
        | here => rfl
        | inside e he => cases he

end
end Verif.Lemmas
