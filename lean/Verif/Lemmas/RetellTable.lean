import Verif.Lemmas.Retell
import Verif.Lemmas.Insert
import Verif.Lemmas.Unsaved
import Verif.Gen.Silent
/-!
# Changing texts of a file: the elements whose text is not read
-/
namespace Verif.Lemmas
open Verif Verif.Model Verif.Spec

/-- a path can end where it starts -/
def stays : Path → Bool
  | .nil => true
  | .all _ _ | .pick _ _ => false
  | .first ts r => ts.isEmpty && stays r
  | .need _ r | .lack _ r => stays r
  | .alt p r => stays p || stays r

/-- the tags of the elements a path ends at -/
def endTags : Path → List Key
  | .nil => []
  | .all u r => (if stays r then [u] else []) ++ endTags r
  | .first ts r => (if stays r then ts.getLast?.toList else []) ++ endTags r
  | .pick ts r => (if stays r then ts else []) ++ endTags r
  | .need _ r | .lack _ r => endTags r
  | .alt p r => endTags p ++ endTags r

/-- the text of the element is read -/
def texty : Item → Bool
  | .prim _ | .name => true
  | _ => false

/-- a method reads the text of the element it is called with -/
def ownText (k : Key) : Bool := match readers k with
  | none => false
  | some b => b.slots.any fun s => texty s.item && stays s.path

/-- what is checked for one slot: no text is read of an element of the list, and the tags of objects and of the elements on the way are in the list -/
def slotSilent (s : RSlot) : Bool := (!texty s.item || (endTags s.path).all fun u => u != 0 && (Gen.silentTags.find? u).isNone) &&
  ((stepsOf s.path).all fun u => textual.contains u || (Gen.silentTags.find? u).isSome) && match s.item with
  | .objs alts => alts.all fun a => textual.contains a.1 || ((Gen.silentTags.find? a.1).isSome)
  | _ => true

/-- what is checked for one slot: no method that reads the text of its element is called for an element of the list -/
def slotHush (s : RSlot) : Bool := match s.item with
  | .objs alts => alts.all fun a => (Gen.silentTags.find? a.1).isNone || !ownText a.2
  | _ => true

set_option maxRecDepth 100000 in
theorem silent_table : (Gen.readTable.all fun _ b => b.slots.all slotSilent) = true := by decide +kernel

set_option maxRecDepth 100000 in
theorem hush_table : (Gen.readTable.all fun _ b => b.slots.all slotHush) = true := by decide +kernel

theorem silent_load : (loadBody.slots.all fun s => slotSilent s && slotHush s) = true := by decide +kernel

theorem silent_slot {k : Key} {b : RBody} (hb : readers k = some b) {s : RSlot} (hs : s ∈ b.slots) : slotSilent s = true ∧ slotHush s = true := by
  unfold readers at hb
  split at hb
  · cases hb
    have := List.all_eq_true.1 silent_load s hs
    rwa [Bool.and_eq_true] at this
  · exact ⟨List.all_eq_true.1 ((Bst.all_toList _ _).1 silent_table _ (Bst.find?_mem hb)) s hs,
      List.all_eq_true.1 ((Bst.all_toList _ _).1 hush_table _ (Bst.find?_mem hb)) s hs⟩

/-- the elements of the property are in the list -/
theorem silent_listed {t : Key} (h : Silent t) : (Gen.silentTags.find? t).isSome = true := by
  obtain ⟨h, ht⟩ := h
  have key : (textual.contains t || (Gen.silentTags.find? t).isSome) = true → (Gen.silentTags.find? t).isSome = true := by
    intro h
    rw [Bool.or_eq_true] at h
    exact h.resolve_left fun h => ht (List.contains_iff_mem.1 h)
  rcases h with ⟨k, b, s, alts, k', hb, hs, hi, ha⟩ | ⟨k, b, s, hb, hs, hu⟩
  · have h1 := (silent_slot hb hs).1
    simp only [slotSilent, hi, Bool.and_eq_true, List.all_eq_true] at h1
    exact key (h1.2 _ ha)
  · have h1 := (silent_slot hb hs).1
    simp only [slotSilent, Bool.and_eq_true, List.all_eq_true] at h1
    exact key (h1.1.2 _ hu)

theorem tagIs_either {u : Key} {y : Xml} (h : tagIs u y = true) : y.tag = u ∨ u = 0 := by
  simp only [tagIs, Bool.or_eq_true, beq_iff_eq] at h
  exact h.symm.imp (fun h => by simp [h]) id

theorem walk_last (ts : List Key) {x y : Xml} (h : y ∈ walk ts x) : (ts = [] ∧ y = x) ∨ ∃ u ∈ ts.getLast?.toList, y.tag = u ∨ u = 0 := by
  induction ts generalizing x with
  | nil => exact .inl ⟨rfl, by simpa [walk] using h⟩
  | cons u ts ih =>
    simp only [walk, List.mem_flatMap] at h
    obtain ⟨z, hz, hy⟩ := h
    right
    rcases ih hy with ⟨rfl, rfl⟩ | ⟨v, hv, h⟩
    · exact ⟨u, by simp, tagIs_either (List.mem_filter.1 hz).2⟩
    · refine ⟨v, ?_, h⟩
      cases ts with
      | nil => simp at hv
      | cons w ts => simpa [List.getLast?_cons_cons] using hv

theorem pick_last (ts : List Key) {x y : Xml} (h : pickKid ts x = some y) : ∃ u ∈ ts, y.tag = u ∨ u = 0 := by
  induction ts with
  | nil => cases h
  | cons u ts ih =>
    simp only [pickKid] at h
    split at h
    · rename_i z hz
      cases h
      exact ⟨u, by simp, tagIs_either (List.find?_some hz)⟩
    · obtain ⟨v, hv, h⟩ := ih h
      exact ⟨v, by simp [hv], h⟩

/-- where a path ends -/
theorem select_last (p : Path) {x y : Xml} (h : y ∈ select p x) : (stays p = true ∧ y = x) ∨ ∃ u ∈ endTags p, y.tag = u ∨ u = 0 := by
  induction p generalizing x with
  | nil => exact .inl ⟨rfl, by simpa [select] using h⟩
  | all u r ih =>
    simp only [select, List.mem_flatMap] at h
    obtain ⟨z, hz, hy⟩ := h
    rcases ih hy with ⟨hr, rfl⟩ | ⟨v, hv, h⟩
    · exact .inr ⟨u, by simp [endTags, hr], tagIs_either (List.mem_filter.1 hz).2⟩
    · exact .inr ⟨v, by simp [endTags, hv], h⟩
  | first ts r ih =>
    simp only [select] at h
    split at h
    · cases h
    · rename_i z l hw
      rcases ih h with ⟨hr, rfl⟩ | ⟨v, hv, h⟩
      · rcases walk_last ts (x := x) (y := y) (by rw [hw]; simp) with ⟨rfl, rfl⟩ | ⟨u, hu, h⟩
        · exact .inl ⟨by simp [stays, hr], rfl⟩
        · exact .inr ⟨u, by simp only [endTags, hr, if_true, List.mem_append]; exact .inl hu, h⟩
      · exact .inr ⟨v, by simp [endTags, hv], h⟩
  | pick ts r ih =>
    simp only [select] at h
    split at h
    · cases h
    · rename_i z hw
      rcases ih h with ⟨hr, rfl⟩ | ⟨v, hv, h⟩
      · obtain ⟨u, hu, h⟩ := pick_last ts hw
        exact .inr ⟨u, by simp [endTags, hr, hu], h⟩
      · exact .inr ⟨v, by simp [endTags, hv], h⟩
  | need p r ihp ih =>
    simp only [select] at h
    split at h
    · cases h
    · exact ih h
  | lack p r ihp ih =>
    simp only [select] at h
    split at h
    · exact ih h
    · cases h
  | alt p r ihp ih =>
    simp only [select] at h
    split at h
    · rcases ih h with ⟨hr, rfl⟩ | ⟨v, hv, h⟩
      · exact .inl ⟨by simp [stays, hr], rfl⟩
      · exact .inr ⟨v, by simp [endTags, hv], h⟩
    · rcases ihp h with ⟨hr, rfl⟩ | ⟨v, hv, h⟩
      · exact .inl ⟨by simp [stays, hr], rfl⟩
      · exact .inr ⟨v, by simp [endTags, hv], h⟩

section
variable {py : Py} {strict : Bool}

/-- files that differ in the space between elements -/
abbrev Spaced : Xml → Xml → Prop := Retold fun t _ _ => Silent t

theorem spaced_text {y y' : Xml} (h : Spaced y y') (hn : ¬ Silent y.tag) : y.text = y'.text := by
  cases h with
  | node t as s s' ks ks' hs _ => exact hs.resolve_right hn

theorem readItem_spaced {i : Item} {rd : Key → Xml → Except RErr (MObj py.F)}
    (hrd : ∀ alts, i = .objs alts → ∀ k y y', Spaced y y' → (y.tag, k) ∈ alts → rd k y = rd k y')
    {y y' : Xml} (hl : Spaced y y') (ht : texty i = true → y.text = y'.text) : readItem py strict rd i y = readItem py strict rd i y' := by
  cases i with
  | prim k =>
    have ht := ht rfl
    cases hl with
    | node t as s s' ks ks' _ _ =>
      simp only [Xml.text] at ht
      subst ht
      simp only [readItem, readKind_bare k t as]
  | attr n k => simp only [readItem, Xml.attr, retold_attrs hl]
  | name => simp only [readItem, ht rfl]
  | objs alts =>
    simp only [readItem, ← retold_tag hl]
    split
    · rfl
    · rename_i k ha
      rw [hrd alts rfl k y y' hl (alt_listed ha)]
  | guard tags g => simp only [readItem, ← retold_tag hl]
  | want t er =>
    have : y.kids.any (tagIs t) = y'.kids.any (tagIs t) := by
      have h := retold_kids hl
      revert h
      generalize y.kids = l
      generalize y'.kids = m
      intro h
      induction h with
      | nil => rfl
      | cons h1 _ ih => simp only [List.any_cons, ih, tagIs, retold_tag h1]
    simp only [readItem, this]
  | crash er => rfl

theorem read_spaced (n : Nat) (k : Key) {x x' : Xml} (h : Spaced x x') (ho : ownText k = true → ¬ Silent x.tag) :
    readObj py strict readers n k x = readObj py strict readers n k x' := by
  induction n generalizing k x x' with
  | zero => rfl
  | succ n ih =>
    simp only [readObj]
    cases hb : readers k with
    | none => rfl
    | some b =>
      have : mapE (readSlot py strict (readObj py strict readers n) x) b.slots = mapE (readSlot py strict (readObj py strict readers n) x') b.slots := by
        refine mapE_congr fun s hs => ?_
        obtain ⟨h1, h2⟩ := silent_slot hb hs
        have : mapE (readItem py strict (readObj py strict readers n) s.item) (select s.path x) =
            mapE (readItem py strict (readObj py strict readers n) s.item) (select s.path x') := by
          refine mapE_rel (R := fun y y' => readItem py strict (readObj py strict readers n) s.item y =
            readItem py strict (readObj py strict readers n) s.item y') (fun _ _ h => h) ?_
          refine forall₂_there (select_retold s.path h) fun y hy y' hyy => ?_
          refine readItem_spaced (fun alts hi k y y' hyy ha => ih k hyy fun hk hq => ?_) hyy fun hx => spaced_text hyy fun hq => ?_
          · simp only [slotHush, hi, List.all_eq_true, Bool.or_eq_true] at h2
            have h3 := silent_listed hq
            rcases h2 _ ha with h4 | h4
            · simp only at h4
              rw [Option.isNone_iff_eq_none] at h4
              rw [h4] at h3; cases h3
            · simp [hk] at h4
          · rcases select_last s.path hy with ⟨hr, rfl⟩ | ⟨u, hu, ht⟩
            · refine ho ?_ hq
              simp only [ownText, hb, List.any_eq_true]
              exact ⟨s, hs, by simp [hx, hr]⟩
            · simp only [slotSilent, hx, Bool.not_true, Bool.false_or, Bool.and_eq_true, List.all_eq_true, bne_iff_ne] at h1
              obtain ⟨g0, g1⟩ := h1.1.1 u hu
              rcases ht with rfl | ht
              · have h3 := silent_listed hq
                rw [Option.isNone_iff_eq_none] at g1
                rw [g1] at h3; cases h3
              · exact g0 ht
        simp only [readSlot, this]
      simp only [readBody, this]

theorem spaced_depth (n : Nat) {x x' : Xml} (hn : x.depth ≤ n) (h : Spaced x x') : x.depth = x'.depth := by
  induction n generalizing x x' with
  | zero => have := depth_pos x; omega
  | succ n ih =>
    cases h with
    | node t as s s' ks ks' _ hk =>
      have hlt : ∀ y ∈ ks, y.depth ≤ n := fun y hy => by
        have : y.depth < (Xml.node t as s ks).depth := depth_kid hy
        omega
      clear hn
      have : Xml.depths ks = Xml.depths ks' := by
        induction hk with
        | nil => rfl
        | cons h1 _ ih2 => simp only [Xml.depths, ih (hlt _ (by simp)) h1, ih2 fun y hy => hlt y (by simp [hy])]
      simp only [Xml.depth, this]

theorem load_spaced {x x' : Xml} (h : Spaced x x') : load py strict x = load py strict x' := by
  unfold load
  rw [← retold_tag h, ← spaced_depth _ le_rfl h, read_spaced _ _ h fun hk => absurd hk (by decide +kernel)]

end

end Verif.Lemmas
