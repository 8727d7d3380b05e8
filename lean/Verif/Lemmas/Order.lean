import Mathlib.Data.List.Forall2
import Verif.Spec.Layout
import Verif.Model.Load
/-!
# Rearranging a file, changing its layout
-/
namespace Verif.Lemmas
open Verif Verif.Model Verif.Spec List

/-- equal, or different by a change -/
def One (x y : Xml) : Prop := x = y ∨ Edit x y

def listed (t : Key) : Bool := mixedLists.contains t

theorem One.tag {x y : Xml} (h : One x y) : y.tag = x.tag := by
  rcases h with rfl | h
  · rfl
  · cases h <;> rfl

theorem One.text {x y : Xml} (h : One x y) (ht : readsText x.tag = true) : y.text = x.text := by
  rcases h with rfl | h
  · rfl
  · cases h with
    | text t as s s' l hn => exact absurd (ht.symm.trans hn) (by simp)
    | kids => rfl
    | attrs => rfl
    | attr => rfl
    | deep => rfl

theorem lookup_exchange (k : Key) (a b : Key × Str) (h : a.1 ≠ b.1) (l r : List (Key × Str)) :
    (l ++ b :: a :: r).lookup k = (l ++ a :: b :: r).lookup k := by
  induction l with
  | nil =>
    obtain ⟨a, v⟩ := a
    obtain ⟨b, w⟩ := b
    simp only [List.nil_append, List.lookup]
    cases h1 : k == a <;> cases h2 : k == b
    · rfl
    · rfl
    · rfl
    · exact absurd ((beq_iff_eq.1 h1).symm.trans (beq_iff_eq.1 h2)) h
  | cons c l ih =>
    obtain ⟨c, v⟩ := c
    simp only [List.cons_append, List.lookup]
    rw [ih]

theorem lookup_drop (k : Key) (a : Key × Str) (h : k ≠ a.1) (l r : List (Key × Str)) :
    (l ++ r).lookup k = (l ++ a :: r).lookup k := by
  induction l with
  | nil =>
    obtain ⟨a, v⟩ := a
    simp only [List.nil_append, List.lookup]
    cases h1 : k == a
    · rfl
    · exact absurd (beq_iff_eq.1 h1) h
  | cons c l ih =>
    obtain ⟨c, v⟩ := c
    simp only [List.cons_append, List.lookup]
    rw [ih]

theorem One.attr {x y : Xml} (h : One x y) (k : Key) (hk : k ∈ readAttrs) : y.attr k = x.attr k := by
  rcases h with rfl | h
  · rfl
  · cases h with
    | kids => rfl
    | deep => rfl
    | text => rfl
    | attrs t as bs a b s l h => exact lookup_exchange k a b h as bs
    | attr t as bs a s l h => exact lookup_drop k a (fun e => h (e ▸ hk)) as bs

theorem forall₂_self {α : Type} {R : α → α → Prop} (h : ∀ a, R a a) (l : List α) : Forall₂ R l l := by
  induction l with
  | nil => exact .nil
  | cons a l ih => exact .cons (h a) ih

theorem one_refl (x : Xml) : One x x := .inl rfl

theorem one_mid (l r : List Xml) {y y' : Xml} (h : Edit y y') : Forall₂ One (l ++ y :: r) (l ++ y' :: r) := by
  induction l with
  | nil => exact .cons (.inr h) (forall₂_self one_refl r)
  | cons a l ih => exact .cons (one_refl a) ih

theorem One.kids_listed {x y : Xml} (h : One x y) (hl : listed x.tag = true) : Forall₂ One x.kids y.kids := by
  rcases h with rfl | h
  · exact forall₂_self one_refl _
  · cases h with
    | kids t as s l r a b _ ht => exact absurd (by simpa [listed, Xml.tag] using hl) ht
    | attrs => exact forall₂_self one_refl _
    | text => exact forall₂_self one_refl _
    | attr => exact forall₂_self one_refl _
    | deep t as s l r y y' h => exact one_mid l r h

theorem forall₂_filter {t : Key} {l l' : List Xml} (h : Forall₂ One l l') : Forall₂ One (l.filter (tagIs t)) (l'.filter (tagIs t)) := by
  induction h with
  | nil => exact .nil
  | @cons a b l l' hab _ ih =>
    have : tagIs t b = tagIs t a := by unfold tagIs; rw [hab.tag]
    rw [List.filter_cons, List.filter_cons, this]
    split
    · exact .cons hab ih
    · exact ih

theorem One.kids_tag {x y : Xml} (h : One x y) {t : Key} (h0 : t ≠ 0) : Forall₂ One (x.kids.filter (tagIs t)) (y.kids.filter (tagIs t)) := by
  rcases h with rfl | h
  · exact forall₂_self one_refl _
  · cases h with
    | kids t' as s l r a b hab _ =>
      have : (l ++ b :: a :: r).filter (tagIs t) = (l ++ a :: b :: r).filter (tagIs t) := by
        rw [List.filter_append, List.filter_append]
        congr 1
        simp only [List.filter_cons, tagIs, Bool.or_eq_true, beq_iff_eq, h0, false_or]
        by_cases h1 : a.tag = t <;> by_cases h2 : b.tag = t
        · exact absurd (h1.trans h2.symm) hab
        all_goals simp [h1, h2]
      show Forall₂ One ((l ++ a :: b :: r).filter _) ((l ++ b :: a :: r).filter _)
      rw [this]
      exact forall₂_self one_refl _
    | attrs => exact forall₂_self one_refl _
    | text => exact forall₂_self one_refl _
    | attr => exact forall₂_self one_refl _
    | deep t' as s l r y y' h => exact forall₂_filter (one_mid l r h)

/-- each one has its counterpart -/
def Both (l l' : List Xml) : Prop := (∀ a ∈ l, ∃ b ∈ l', One a b) ∧ ∀ b ∈ l', ∃ a ∈ l, One a b

theorem both_refl (l : List Xml) : Both l l := ⟨fun a ha => ⟨a, ha, one_refl a⟩, fun a ha => ⟨a, ha, one_refl a⟩⟩

theorem Both.of {l l' : List Xml} (h : Forall₂ One l l') : Both l l' := by
  induction h with
  | nil => exact both_refl []
  | @cons a b l l' hab _ ih =>
    constructor
    · intro x hx
      rcases List.mem_cons.1 hx with rfl | hx
      · exact ⟨b, by simp, hab⟩
      · obtain ⟨y, hy, hxy⟩ := ih.1 x hx
        exact ⟨y, by simp [hy], hxy⟩
    · intro y hy
      rcases List.mem_cons.1 hy with rfl | hy
      · exact ⟨a, by simp, hab⟩
      · obtain ⟨x, hx, hxy⟩ := ih.2 y hy
        exact ⟨x, by simp [hx], hxy⟩

theorem Both.empty {l l' : List Xml} (h : Both l l') : l'.isEmpty = l.isEmpty := by
  cases l with
  | nil =>
    cases l' with
    | nil => rfl
    | cons b l' => obtain ⟨a, ha, _⟩ := h.2 b (by simp); cases ha
  | cons a l =>
    cases l' with
    | nil => obtain ⟨b, hb, _⟩ := h.1 a (by simp); cases hb
    | cons b l' => rfl

theorem One.kids_both {x y : Xml} (h : One x y) : Both x.kids y.kids := by
  rcases h with rfl | h
  · exact both_refl _
  · cases h with
    | kids t as s l r a b _ _ =>
      constructor
      all_goals
        intro z hz
        refine ⟨z, ?_, one_refl z⟩
        simp only [Xml.kids, List.mem_append, List.mem_cons] at hz ⊢
        rcases hz with h | h | h | h
        · exact .inl h
        · exact .inr (.inr (.inl h))
        · exact .inr (.inl h)
        · exact .inr (.inr (.inr h))
    | attrs => exact both_refl _
    | text => exact both_refl _
    | attr => exact both_refl _
    | deep t as s l r y y' h => exact .of (one_mid l r h)

theorem Both.filter {l l' : List Xml} (h : Both l l') (t : Key) : Both (l.filter (tagIs t)) (l'.filter (tagIs t)) := by
  constructor
  · intro a ha
    obtain ⟨ha, ht⟩ := List.mem_filter.1 ha
    obtain ⟨b, hb, hab⟩ := h.1 a ha
    exact ⟨b, List.mem_filter.2 ⟨hb, by unfold tagIs at ht ⊢; rwa [hab.tag]⟩, hab⟩
  · intro b hb
    obtain ⟨hb, ht⟩ := List.mem_filter.1 hb
    obtain ⟨a, ha, hab⟩ := h.2 b hb
    exact ⟨a, List.mem_filter.2 ⟨ha, by unfold tagIs at ht ⊢; rwa [hab.tag] at ht⟩, hab⟩

theorem Both.flatMap {l l' : List Xml} (h : Both l l') {f : Xml → List Xml} (hf : ∀ a ∈ l, ∀ b, One a b → Both (f a) (f b)) : Both (l.flatMap f) (l'.flatMap f) := by
  constructor
  · intro z hz
    obtain ⟨a, ha, hz⟩ := List.mem_flatMap.1 hz
    obtain ⟨b, hb, hab⟩ := h.1 a ha
    obtain ⟨w, hw, hzw⟩ := (hf a ha b hab).1 z hz
    exact ⟨w, List.mem_flatMap.2 ⟨b, hb, hw⟩, hzw⟩
  · intro w hw
    obtain ⟨b, hb, hw⟩ := List.mem_flatMap.1 hw
    obtain ⟨a, ha, hab⟩ := h.2 b hb
    obtain ⟨z, hz, hzw⟩ := (hf a ha b hab).2 w hw
    exact ⟨z, List.mem_flatMap.2 ⟨a, ha, hz⟩, hzw⟩

theorem forall₂_flatMap {α β : Type} {R : α → α → Prop} {S : β → β → Prop} {f : α → List β} {l l' : List α} (h : Forall₂ R l l')
    (hf : ∀ a b, a ∈ l → R a b → Forall₂ S (f a) (f b)) : Forall₂ S (l.flatMap f) (l'.flatMap f) := by
  induction h with
  | nil => exact .nil
  | @cons a b l l' hab _ ih =>
    rw [List.flatMap_cons, List.flatMap_cons]
    exact List.rel_append (hf a b (by simp) hab) (ih fun a b ha => hf a b (by simp [ha]))

/-! ### Paths -/

def tidyFirst (k : Bool → Bool) : List Key → Bool → Bool
  | [], c => k c
  | t :: ts, c => if t = 0 then c && tidyFirst k ts false else tidyFirst k ts (listed t)

/-- Wildcards only follow mixed lists.  `soft`: or it does not matter in which order the elements are found; `c`: is the element a mixed list? -/
def tidy : Bool → Path → Bool → Bool
  | _, .nil, _ => true
  | soft, .all t r, c => if t = 0 then (soft || c) && tidy soft r false else tidy soft r (listed t)
  | soft, .first ts r, c => tidyFirst (tidy soft r) ts c
  | soft, .pick ts r, _ => ts.all fun t => t != 0 && tidy soft r (listed t)
  | soft, .need p r, c => tidy true p c && tidy soft r c
  | soft, .lack p r, c => tidy true p c && tidy soft r c
  | soft, .alt p r, c => tidy true p c && tidy soft p c && tidy soft r c

theorem tag_of_filter {t : Key} (h0 : t ≠ 0) {a : Xml} {l : List Xml} (h : a ∈ l.filter (tagIs t)) : a.tag = t := by
  have := (List.mem_filter.1 h).2
  simpa [tagIs, h0] using this

theorem walk_exchange {k : Bool → Bool} {ts : List Key} {c : Bool} {x y : Xml} (h : One x y) (hc : c = true → listed x.tag = true) (hk : tidyFirst k ts c = true) :
    Forall₂ (fun a b => One a b ∧ ∃ c', k c' = true ∧ (c' = true → listed a.tag = true)) (walk ts x) (walk ts y) := by
  induction ts generalizing c x y with
  | nil => exact .cons ⟨h, c, hk, hc⟩ .nil
  | cons t ts ih =>
    rw [tidyFirst] at hk
    rw [walk, walk]
    split at hk
    · rename_i h0
      rw [Bool.and_eq_true] at hk
      have hall : ∀ z : Xml, z.kids.filter (tagIs t) = z.kids := fun z => List.filter_eq_self.2 (by simp [tagIs, h0])
      rw [hall, hall]
      exact forall₂_flatMap (h.kids_listed (hc hk.1)) fun a b _ hab => ih hab (by simp) hk.2
    · rename_i h0
      refine forall₂_flatMap (h.kids_tag h0) fun a b ha hab => ih hab (c := listed t) (fun hl => ?_) hk
      rw [tag_of_filter h0 ha]; exact hl

theorem pick_one {ts : List Key} {x y : Xml} (h : One x y) (hts : ∀ t ∈ ts, t ≠ 0) :
    (pickKid ts x = none ∧ pickKid ts y = none) ∨ ∃ a b, pickKid ts x = some a ∧ pickKid ts y = some b ∧ One a b ∧ a.tag ∈ ts := by
  induction ts with
  | nil => exact .inl ⟨rfl, rfl⟩
  | cons t ts ih =>
    have h0 := hts t (by simp)
    have hf := h.kids_tag h0
    rw [pickKid, pickKid, ← List.head?_filter, ← List.head?_filter]
    cases hx : x.kids.filter (tagIs t) with
    | nil =>
      rw [hx] at hf
      generalize y.kids.filter (tagIs t) = w at hf ⊢
      cases hf
      rcases ih (fun t ht => hts t (by simp [ht])) with h | ⟨a, b, h1, h2, h3, h4⟩
      · exact .inl h
      · exact .inr ⟨a, b, h1, h2, h3, by simp [h4]⟩
    | cons a l =>
      rw [hx] at hf
      generalize y.kids.filter (tagIs t) = w at hf ⊢
      cases hf with
      | @cons _ b _ l' hab _ => exact .inr ⟨a, b, rfl, rfl, hab, by rw [tag_of_filter h0 (a := a) (l := x.kids) (by rw [hx]; simp)]; simp⟩

theorem select_both {p : Path} {c : Bool} {x y : Xml} (h : One x y) (hc : c = true → listed x.tag = true) (ht : tidy true p c = true) :
    Both (select p x) (select p y) := by
  induction p generalizing c x y with
  | nil => exact .of (.cons h .nil)
  | all t r ih =>
    rw [tidy] at ht
    rw [select, select]
    refine (h.kids_both.filter t).flatMap fun a ha b hab => ?_
    split at ht
    · rw [Bool.and_eq_true] at ht
      exact ih hab (by simp) ht.2
    · rename_i h0
      exact ih hab (c := listed t) (fun hl => by rw [tag_of_filter h0 ha]; exact hl) ht
  | first ts r ih =>
    rw [tidy] at ht
    have hw := walk_exchange h hc ht
    rw [select, select]
    cases hx : walk ts x with
    | nil =>
      rw [hx] at hw
      generalize walk ts y = w at hw ⊢
      cases hw
      exact both_refl []
    | cons a l =>
      rw [hx] at hw
      generalize walk ts y = w at hw ⊢
      cases hw with
      | @cons _ b _ l' hab _ =>
        obtain ⟨hab, c', h1, h2⟩ := hab
        exact ih hab h2 h1
  | pick ts r ih =>
    simp only [tidy, List.all_eq_true, Bool.and_eq_true, bne_iff_ne, ne_eq] at ht
    rw [select, select]
    rcases pick_one h (fun t h => (ht t h).1) with ⟨h1, h2⟩ | ⟨a, b, h1, h2, h3, h4⟩
    · rw [h1, h2]; exact both_refl []
    · rw [h1, h2]; exact ih h3 (fun hl => hl) (ht _ h4).2
  | need p r ihp ih =>
    simp only [tidy, Bool.and_eq_true] at ht
    rw [select, select, (ihp h hc ht.1).empty]
    split
    · exact both_refl []
    · exact ih h hc ht.2
  | lack p r ihp ih =>
    simp only [tidy, Bool.and_eq_true] at ht
    rw [select, select, (ihp h hc ht.1).empty]
    split
    · exact ih h hc ht.2
    · exact both_refl []
  | alt p r ihp ih =>
    simp only [tidy, Bool.and_eq_true] at ht
    rw [select, select, (ihp h hc ht.1.1).empty]
    split
    · exact ih h hc ht.2
    · exact ihp h hc ht.1.1

theorem select_one {p : Path} {c : Bool} {x y : Xml} (h : One x y) (hc : c = true → listed x.tag = true) (ht : tidy false p c = true) :
    Forall₂ One (select p x) (select p y) := by
  induction p generalizing c x y with
  | nil => exact .cons h .nil
  | all t r ih =>
    rw [tidy] at ht
    rw [select, select]
    split at ht
    · rename_i h0
      rw [Bool.and_eq_true, Bool.false_or] at ht
      have hall : ∀ z : Xml, z.kids.filter (tagIs t) = z.kids := fun z => List.filter_eq_self.2 (by simp [tagIs, h0])
      rw [hall, hall]
      exact forall₂_flatMap (h.kids_listed (hc ht.1)) fun a b _ hab => ih hab (by simp) ht.2
    · rename_i h0
      refine forall₂_flatMap (h.kids_tag h0) fun a b ha hab => ih hab (c := listed t) (fun hl => ?_) ht
      rw [tag_of_filter h0 ha]; exact hl
  | first ts r ih =>
    rw [tidy] at ht
    have hw := walk_exchange h hc ht
    rw [select, select]
    cases hx : walk ts x with
    | nil =>
      rw [hx] at hw
      generalize walk ts y = w at hw ⊢
      cases hw
      exact .nil
    | cons a l =>
      rw [hx] at hw
      generalize walk ts y = w at hw ⊢
      cases hw with
      | @cons _ b _ l' hab _ =>
        obtain ⟨hab, c', h1, h2⟩ := hab
        exact ih hab h2 h1
  | pick ts r ih =>
    simp only [tidy, List.all_eq_true, Bool.and_eq_true, bne_iff_ne, ne_eq] at ht
    rw [select, select]
    rcases pick_one h (fun t h => (ht t h).1) with ⟨h1, h2⟩ | ⟨a, b, h1, h2, h3, h4⟩
    · rw [h1, h2]; exact .nil
    · rw [h1, h2]; exact ih h3 (fun hl => hl) (ht _ h4).2
  | need p r ihp ih =>
    simp only [tidy, Bool.and_eq_true] at ht
    rw [select, select, (select_both h hc ht.1).empty]
    split
    · exact .nil
    · exact ih h hc ht.2
  | lack p r ihp ih =>
    simp only [tidy, Bool.and_eq_true] at ht
    rw [select, select, (select_both h hc ht.1).empty]
    split
    · exact ih h hc ht.2
    · exact .nil
  | alt p r ihp ih =>
    simp only [tidy, Bool.and_eq_true] at ht
    rw [select, select, (select_both h hc ht.1.1).empty]
    split
    · exact ih h hc ht.2
    · exact ihp h hc ht.1.2

/-! ### Reading -/

/-- the elements found at the end of a path have tags whose text is read; `c`: the element where the path starts has one -/
def lands : Path → Bool → Bool
  | .nil, c => c
  | .all t r, _ => lands r (readsText t)
  | .first ts r, c => lands r (match ts.getLast? with | some t => readsText t | none => c)
  | .pick ts r, _ => ts.all fun t => lands r (readsText t)
  | .need _ r, c => lands r c
  | .lack _ r, c => lands r c
  | .alt p r, c => lands p c && lands r c

theorem wild_silent : readsText 0 = false := by decide +kernel

theorem filter_text {t : Key} {a : Xml} {l : List Xml} (h : a ∈ l.filter (tagIs t)) (ht : readsText t = true) : readsText a.tag = true := by
  by_cases h0 : t = 0
  · rw [h0, wild_silent] at ht; cases ht
  · rw [tag_of_filter h0 h]; exact ht

theorem walk_text {ts : List Key} {c : Bool} {x a : Xml} (hc : c = true → readsText x.tag = true) (ha : a ∈ walk ts x)
    (h : (match ts.getLast? with | some t => readsText t | none => c) = true) : readsText a.tag = true := by
  induction ts generalizing c x with
  | nil =>
    rw [walk, List.mem_singleton] at ha
    rw [ha]; exact hc h
  | cons t ts ih =>
    rw [walk] at ha
    obtain ⟨b, hb, ha⟩ := List.mem_flatMap.1 ha
    refine ih (c := readsText t) (filter_text hb) ha ?_
    cases ts with
    | nil => exact h
    | cons t' ts => rw [List.getLast?_cons_cons] at h; rw [List.getLast?_cons] at h ⊢; exact h

theorem pick_in {ts : List Key} {x a : Xml} (h : pickKid ts x = some a) : ∃ t ∈ ts, a ∈ x.kids.filter (tagIs t) := by
  induction ts with
  | nil => cases h
  | cons t ts ih =>
    rw [pickKid] at h
    split at h
    · rename_i b hf
      cases h
      exact ⟨t, by simp, List.mem_filter.2 ⟨List.mem_of_find?_eq_some hf, by simpa using List.find?_some hf⟩⟩
    · obtain ⟨t', h1, h2⟩ := ih h
      exact ⟨t', by simp [h1], h2⟩

theorem select_text {p : Path} {c : Bool} {x a : Xml} (hc : c = true → readsText x.tag = true) (ha : a ∈ select p x) (h : lands p c = true) :
    readsText a.tag = true := by
  induction p generalizing c x with
  | nil => rw [select, List.mem_singleton] at ha; rw [ha]; exact hc h
  | all t r ih =>
    rw [select] at ha
    obtain ⟨b, hb, ha⟩ := List.mem_flatMap.1 ha
    exact ih (filter_text hb) ha h
  | first ts r ih =>
    rw [select] at ha
    cases hw : walk ts x with
    | nil => rw [hw] at ha; cases ha
    | cons b l =>
      rw [hw] at ha
      exact ih (fun e => walk_text hc (a := b) (by rw [hw]; simp) e) ha h
  | pick ts r ih =>
    rw [select] at ha
    rw [lands, List.all_eq_true] at h
    cases hp : pickKid ts x with
    | none => rw [hp] at ha; cases ha
    | some b =>
      rw [hp] at ha
      obtain ⟨t, ht, hb⟩ := pick_in hp
      exact ih (filter_text hb) ha (h t ht)
  | need p r _ ih =>
    rw [select] at ha
    split at ha
    · cases ha
    · exact ih hc ha h
  | lack p r _ ih =>
    rw [select] at ha
    split at ha
    · exact ih hc ha h
    · cases ha
  | alt p r ihp ih =>
    rw [select] at ha
    rw [lands, Bool.and_eq_true] at h
    split at ha
    · exact ih hc ha h.2
    · exact ihp hc ha h.1

theorem readKind_one {py : Py} {x y : Xml} (h : One x y) (ht : readsText x.tag = true) (k : RKind) : readKind py k y = readKind py k x := by
  have h1 := h.text ht
  have a1 := h.attr k!"T" (by decide +kernel)
  have a2 := h.attr k!"UUID" (by decide +kernel)
  have a3 := h.attr k!"SHORT-LABEL" (by decide +kernel)
  have a4 := h.attr k!"INTERVAL-TYPE" (by decide +kernel)
  have a5 := h.attr k!"BASE" (by decide +kernel)
  have a6 := h.attr k!"DEST" (by decide +kernel)
  cases k <;> simp only [readKind, h1, a1, a2, a3, a4, a5, a6]

/-- the only method that starts with a wildcard -/
abbrev compuKey : Key := k!"getCompuConst_CompuConst"

/-- can the method be called with an element with this tag? -/
def enters (k t : Key) : Bool := (k != compuKey || listed t) && (!Gen.textBodies.contains k || readsText t)

def tidySlot (c d : Bool) (s : RSlot) : Bool :=
  match s.item with
  | .guard _ _ => tidy true s.path c
  | .objs alts => tidy false s.path c && alts.all fun a => enters a.2 a.1
  | .prim _ => tidy false s.path c && lands s.path d
  | .name => tidy false s.path c && lands s.path d
  | .attr n _ => tidy false s.path c && readAttrs.contains n
  | _ => tidy false s.path c

theorem mapE_one {α β ε : Type} {R : α → α → Prop} {f : α → Except ε β} {l l' : List α} (h : Forall₂ R l l') (hf : ∀ a ∈ l, ∀ b, R a b → f b = f a) :
    mapE f l' = mapE f l := by
  induction h with
  | nil => rfl
  | cons hab _ ih => rw [mapE, mapE, hf _ (by simp) _ hab, ih fun a ha => hf a (by simp [ha])]

/-- a test of every element: the result only depends on whether there is one that fails -/
theorem mapE_test {α β ε : Type} {f : α → Except ε (List β)} {e : ε} (hf : ∀ a, f a = .ok [] ∨ f a = .error e) (l : List α) :
    (∃ a ∈ l, f a = .error e) ∧ mapE f l = .error e ∨ (∀ a ∈ l, f a = .ok []) ∧ ∃ vs, mapE f l = .ok vs ∧ vs.flatten = [] := by
  induction l with
  | nil => exact .inr ⟨by simp, [], rfl, rfl⟩
  | cons a l ih =>
    rw [mapE]
    rcases hf a with h | h
    · rw [h]
      rcases ih with ⟨⟨b, hb, he⟩, h2⟩ | ⟨h1, vs, h2, h3⟩
      · exact .inl ⟨⟨b, by simp [hb], he⟩, by rw [h2]⟩
      · refine .inr ⟨?_, [] :: vs, by rw [h2], by simp [h3]⟩
        intro b hb
        rcases List.mem_cons.1 hb with rfl | hb
        · exact h
        · exact h1 b hb
    · exact .inl ⟨⟨a, by simp, h⟩, by rw [h]⟩

theorem altOf_in {alts : List (Key × Key)} {t k : Key} (h : altOf alts t = some k) : (t, k) ∈ alts := by
  induction alts with
  | nil => cases h
  | cons a r ih =>
    obtain ⟨t', k'⟩ := a
    rw [altOf] at h
    split at h
    · rename_i e; cases h; simp [e]
    · exact List.mem_cons_of_mem _ (ih h)

theorem readSlot_exchange {py : Py} {strict : Bool} {rd : Key → Xml → Except RErr (MObj py.F)}
    (hrd : ∀ k a b, One a b → enters k a.tag = true → rd k b = rd k a) {s : RSlot} {c d : Bool} (hs : tidySlot c d s = true) {x y : Xml}
    (h : One x y) (hc : c = true → listed x.tag = true) (hd : d = true → readsText x.tag = true) : readSlot py strict rd y s = readSlot py strict rd x s := by
  by_cases hg : ∃ tags g, s.item = .guard tags g
  · obtain ⟨tags, g, hi⟩ := hg
    rw [tidySlot, hi] at hs
    have hb := select_both h hc hs
    have hone : ∃ e, ∀ a : Xml, readItem py strict rd (.guard tags g) a = .ok [] ∨ readItem py strict rd (.guard tags g) a = .error e := by
      refine ⟨match g, strict with
        | .unsupported, _ => .py .notImplemented
        | .invalid, _ => .py .valueError
        | .unbound, true => .py .notImplemented
        | .unbound, false => .unbound, fun a => ?_⟩
      simp only [readItem]
      split
      · exact .inl rfl
      · cases g <;> cases strict <;> simp
    have htag : ∀ a b, One a b → readItem py strict rd (.guard tags g) b = readItem py strict rd (.guard tags g) a := by
      intro a b hab
      simp only [readItem, hab.tag]
    obtain ⟨e, he⟩ := hone
    unfold readSlot
    rw [hi]
    rcases mapE_test he (select s.path x) with ⟨⟨a, ha, hea⟩, h1⟩ | ⟨h1, vs, h2, h3⟩
    · rcases mapE_test he (select s.path y) with ⟨_, h2⟩ | ⟨h2, _⟩
      · rw [h1, h2]
      · obtain ⟨b, hb, hab⟩ := hb.1 a ha
        have := h2 b hb
        rw [htag a b hab, hea] at this
        cases this
    · rcases mapE_test he (select s.path y) with ⟨⟨b, hb', heb⟩, _⟩ | ⟨_, vs', h2', h3'⟩
      · obtain ⟨a, ha, hab⟩ := hb.2 b hb'
        have := h1 a ha
        rw [← htag a b hab, heb] at this
        cases this
      · rw [h2, h2']
        simp only [h3, h3']
  · have ht : tidy false s.path c = true := by
      unfold tidySlot at hs
      split at hs
      · rename_i tags g hi; exact absurd ⟨tags, g, hi⟩ hg
      · rw [Bool.and_eq_true] at hs; exact hs.1
      · rw [Bool.and_eq_true] at hs; exact hs.1
      · rw [Bool.and_eq_true] at hs; exact hs.1
      · rw [Bool.and_eq_true] at hs; exact hs.1
      · exact hs
    have hsel := select_one h hc ht
    have hitem : ∀ a ∈ select s.path x, ∀ b, One a b → readItem py strict rd s.item b = readItem py strict rd s.item a := by
      intro a ha b hab
      cases hi : s.item with
      | prim k =>
        rw [tidySlot, hi] at hs
        simp only [Bool.and_eq_true] at hs
        simp only [readItem, readKind_one hab (select_text hd ha hs.2)]
      | attr n k =>
        rw [tidySlot, hi] at hs
        simp only [Bool.and_eq_true, List.contains_iff_mem] at hs
        simp only [readItem, hab.attr n hs.2]
      | name =>
        rw [tidySlot, hi] at hs
        simp only [Bool.and_eq_true] at hs
        simp only [readItem, hab.text (select_text hd ha hs.2)]
      | objs alts =>
        rw [tidySlot, hi] at hs
        simp only [Bool.and_eq_true, List.all_eq_true] at hs
        simp only [readItem, hab.tag]
        cases hk : altOf alts a.tag with
        | none => rfl
        | some k =>
          have hm := altOf_in hk
          simp only
          rw [hrd k a b hab (hs.2 _ hm)]
      | guard tags g => exact absurd ⟨tags, g, hi⟩ hg
      | want t e =>
        have : b.kids.any (tagIs t) = a.kids.any (tagIs t) := by
          have := (hab.kids_both.filter t).empty
          rw [Bool.eq_iff_iff, List.any_eq_true, List.any_eq_true]
          constructor
          · rintro ⟨z, hz, hzt⟩
            obtain ⟨w, hw, _⟩ := (hab.kids_both.filter t).2 z (List.mem_filter.2 ⟨hz, hzt⟩)
            exact ⟨w, List.mem_filter.1 hw⟩
          · rintro ⟨z, hz, hzt⟩
            obtain ⟨w, hw, _⟩ := (hab.kids_both.filter t).1 z (List.mem_filter.2 ⟨hz, hzt⟩)
            exact ⟨w, List.mem_filter.1 hw⟩
        simp only [readItem, this]
      | crash e => rfl
    unfold readSlot
    rw [mapE_one hsel hitem]

def tidyBody (k : Key) (b : RBody) : Bool := b.slots.all (tidySlot (k == compuKey) (Gen.textBodies.contains k))

theorem enters_listed {k t : Key} (h : enters k t = true) (e : (k == compuKey) = true) : listed t = true := by
  simp only [enters, Bool.and_eq_true, Bool.or_eq_true, bne_iff_ne] at h
  exact h.1.resolve_left fun hne => hne (beq_iff_eq.1 e)

theorem enters_text {k t : Key} (h : enters k t = true) (e : Gen.textBodies.contains k = true) : readsText t = true := by
  simp only [enters, e, Bool.not_true, Bool.false_or, Bool.and_eq_true] at h
  exact h.2

theorem readers_tidy : Gen.readTable.all tidyBody = true := by decide +kernel

theorem load_tidy : tidyBody k!"load" loadBody = true := by decide +kernel

theorem readers_tidy' {k : Key} {b : RBody} (h : readers k = some b) {s : RSlot} (hs : s ∈ b.slots) : tidySlot (k == compuKey) (Gen.textBodies.contains k) s = true := by
  have : tidyBody k b = true := by
    unfold readers at h
    split at h
    · rename_i e; cases h; rw [e]; exact load_tidy
    · exact (Bst.all_toList _ _).1 readers_tidy _ (Bst.find?_mem h)
  exact List.all_eq_true.1 this s hs

theorem mapE_same {α β ε : Type} {f g : α → Except ε β} {l : List α} (h : ∀ a ∈ l, f a = g a) : mapE f l = mapE g l := by
  induction l with
  | nil => rfl
  | cons a l ih => rw [mapE, mapE, h a (by simp), ih fun a ha => h a (by simp [ha])]

theorem readObj_one (py : Py) (strict : Bool) (n : Nat) : ∀ (k : Key) (x y : Xml), One x y → enters k x.tag = true →
    readObj py strict readers n k y = readObj py strict readers n k x := by
  induction n with
  | zero => intros; rfl
  | succ n ih =>
    intro k x y h hk
    rw [readObj, readObj]
    cases hb : readers k with
    | none => rfl
    | some b =>
      simp only
      unfold readBody
      rw [mapE_same fun s hs => readSlot_exchange ih (readers_tidy' hb hs) h (enters_listed hk) (enters_text hk)]

/-! ### Depth -/

theorem depths_append (l r : List Xml) : Xml.depths (l ++ r) = max (Xml.depths l) (Xml.depths r) := by
  induction l with
  | nil => simp [Xml.depths]
  | cons a l ih => rw [List.cons_append, Xml.depths, Xml.depths, ih, Nat.max_assoc]

theorem edit_depth {x y : Xml} (h : Edit x y) : y.depth = x.depth := by
  induction h with
  | kids t as s l r a b _ _ =>
    rw [Xml.depth, Xml.depth, depths_append, depths_append]
    simp only [Xml.depths]
    omega
  | attrs => rfl
  | text => rfl
  | attr => rfl
  | deep t as s l r y y' _ ih =>
    rw [Xml.depth, Xml.depth, depths_append, depths_append]
    simp only [Xml.depths, ih]

/-! ### Reading into an object -/

theorem elemName_one {x y : Xml} (h : One x y) : elemName y = elemName x := by
  have := select_one (p := .first [k!"SHORT-NAME"] .nil) (c := false) h (by simp) (by decide +kernel)
  have ht : ∀ a ∈ select (.first [k!"SHORT-NAME"] .nil) x, readsText a.tag = true := fun a ha => select_text (c := false) (by simp) ha (by decide +kernel)
  unfold elemName
  generalize select _ x = l at this ht ⊢
  generalize select _ y = r at this ⊢
  cases this with
  | nil => rfl
  | cons hab _ => exact hab.text (ht _ (by simp))

theorem replaceE_same {α ε : Type} {p : α → Bool} {f g : α → Except ε α} (h : ∀ v, f v = g v) (l : List α) : replaceE p f l = replaceE p g l := by
  induction l with
  | nil => rfl
  | cons a l ih => rw [replaceE, replaceE, h a, ih]

theorem foldE_one {α β ε : Type} {R : α → α → Prop} {f : β → α → Except ε β} {l l' : List α} (h : Forall₂ R l l') (hf : ∀ v a b, R a b → f v b = f v a) (v : β) :
    foldE f v l' = foldE f v l := by
  induction h generalizing v with
  | nil => rfl
  | cons hab _ ih =>
    rw [foldE, foldE, hf _ _ _ hab]
    split
    · rfl
    · exact ih _

theorem zipE_same {α β γ ε : Type} {f g : α → β → Except ε γ} {l : List α} (h : ∀ a ∈ l, ∀ v, f a v = g a v) (r : List β) : zipE f l r = zipE g l r := by
  induction l generalizing r with
  | nil => rfl
  | cons a l ih =>
    cases r with
    | nil => rfl
    | cons v r => rw [zipE, zipE, h a (by simp), ih fun a ha => h a (by simp [ha])]

theorem intoSlot_one {py : Py} {strict : Bool} {T : Key → Option RBody} {into : Key → Option (MObj py.F) → Xml → Except RErr (MObj py.F)}
    (hrd : ∀ k o a b, One a b → enters k a.tag = true → into k o b = into k o a) {over : List Key} {s : RSlot} {c d : Bool}
    (hs : tidySlot c d s = true) {x y : Xml} (h : One x y) (hc : c = true → listed x.tag = true) (hd : d = true → readsText x.tag = true) (old : List (MObj py.F)) :
    intoSlot py strict T into over y s old = intoSlot py strict T into over x s old := by
  have hr : readSlot py strict (fun k z => into k none z) y s = readSlot py strict (fun k z => into k none z) x s :=
    readSlot_exchange (fun k a b => hrd k none a b) hs h hc hd
  unfold intoSlot
  split
  · rename_i alts hn hi
    rw [tidySlot, hi] at hs
    simp only [Bool.and_eq_true, List.all_eq_true] at hs
    have : foldE (putNamed py T into s alts) old (select s.path y) = foldE (putNamed py T into s alts) old (select s.path x) := by
      refine foldE_one (select_one h hc hs.1) (fun v a b hab => ?_) old
      unfold putNamed
      rw [hab.tag, elemName_one hab]
      cases hk : altOf alts a.tag with
      | none => rfl
      | some k =>
        have hm := altOf_in hk
        have hin : ∀ o, into k o b = into k o a := fun o => hrd k o a b hab (hs.2 _ hm)
        simp only [hin]
    rw [this]
  · rw [hr]

theorem intoObj_one (py : Py) (strict : Bool) (n : Nat) : ∀ (k : Key) (o : Option (MObj py.F)) (x y : Xml), One x y →
    enters k x.tag = true → intoObj py strict readers overs n k o y = intoObj py strict readers overs n k o x := by
  induction n with
  | zero => intros; rfl
  | succ n ih =>
    intro k o x y h hk
    rw [intoObj, intoObj]
    cases hb : readers k with
    | none => rfl
    | some b =>
      simp only
      unfold intoBody
      split
      · rfl
      · rw [zipE_same fun s hs => intoSlot_one ih (readers_tidy' hb hs) h (enters_listed hk) (enters_text hk)]

end Verif.Lemmas
