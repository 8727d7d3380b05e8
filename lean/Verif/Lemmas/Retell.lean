import Verif.Spec.Retell
import Verif.Lemmas.Exchange
/-!
# Changing texts of a file: lemmas
-/
namespace Verif.Lemmas
open Verif Verif.Model Verif.Spec

section
variable {P : Key → Str → Str → Prop}

theorem retold_tag {x x' : Xml} (h : Retold P x x') : x.tag = x'.tag := by cases h; rfl

theorem retold_attrs {x x' : Xml} (h : Retold P x x') : x.attrs = x'.attrs := by cases h; rfl

theorem retold_kids {x x' : Xml} (h : Retold P x x') : List.Forall₂ (Retold P) x.kids x'.kids := by cases h; assumption

theorem retold_named (u : Key) {x x' : Xml} (h : Retold P x x') : List.Forall₂ (Retold P) (x.kids.filter (tagIs u)) (x'.kids.filter (tagIs u)) :=
  filter_rel (fun a b hab => by unfold tagIs; rw [retold_tag hab]) (retold_kids h)

theorem head_rel {α β : Type} {R : α → β → Prop} {l : List α} {m : List β} (h : List.Forall₂ R l m) :
    List.Forall₂ R l.head?.toList m.head?.toList := by
  cases h with
  | nil => exact .nil
  | cons h1 _ => exact .cons h1 .nil

theorem walk_retold (ts : List Key) {x x' : Xml} (h : Retold P x x') : List.Forall₂ (Retold P) (walk ts x) (walk ts x') := by
  induction ts generalizing x x' with
  | nil => exact .cons h .nil
  | cons u ts ih => exact forall₂_flat (retold_named u h) fun a b hab => ih hab

theorem pick_retold (ts : List Key) {x x' : Xml} (h : Retold P x x') :
    List.Forall₂ (Retold P) (pickKid ts x).toList (pickKid ts x').toList := by
  induction ts with
  | nil => exact .nil
  | cons u ts ih =>
    have hk := retold_named u h
    simp only [pickKid, find?_filter_head]
    cases hf : x.kids.filter (tagIs u) with
    | nil =>
      rw [hf] at hk; cases hf' : x'.kids.filter (tagIs u) with
      | nil => exact ih
      | cons b m => rw [hf'] at hk; cases hk
    | cons a l =>
      rw [hf] at hk; cases hf' : x'.kids.filter (tagIs u) with
      | nil => rw [hf'] at hk; cases hk
      | cons b m =>
        rw [hf'] at hk
        cases hk with
        | cons h1 _ => exact .cons h1 .nil

theorem select_retold (p : Path) {x x' : Xml} (h : Retold P x x') : List.Forall₂ (Retold P) (select p x) (select p x') := by
  induction p generalizing x x' with
  | nil => exact .cons h .nil
  | all u r ih => exact forall₂_flat (retold_named u h) fun a b hab => ih hab
  | first ts r ih =>
    have := walk_retold ts h
    simp only [select]
    cases hw : walk ts x with
    | nil => rw [hw] at this; cases hw' : walk ts x' with
      | nil => exact .nil
      | cons b m => rw [hw'] at this; cases this
    | cons a l => rw [hw] at this; cases hw' : walk ts x' with
      | nil => rw [hw'] at this; cases this
      | cons b m => rw [hw'] at this; cases this with | cons h1 _ => exact ih h1
  | pick ts r ih =>
    have hp := pick_retold ts h
    simp only [select]
    cases hw : pickKid ts x with
    | none => rw [hw] at hp; cases hw' : pickKid ts x' with
      | none => exact .nil
      | some b => rw [hw'] at hp; cases hp
    | some a => rw [hw] at hp; cases hw' : pickKid ts x' with
      | none => rw [hw'] at hp; cases hp
      | some b => rw [hw'] at hp; cases hp with | cons h1 _ => exact ih h1
  | need p r ihp ih =>
    simp only [select, rel_isEmpty (ihp h)]
    split
    · exact .nil
    · exact ih h
  | lack p r ihp ih =>
    simp only [select, rel_isEmpty (ihp h)]
    split
    · exact ih h
    · exact .nil
  | alt p r ihp ih =>
    simp only [select, rel_isEmpty (ihp h)]
    split
    · exact ih h
    · exact ihp h

end

section
variable {py : Py} {strict : Bool} {P : Key → Str → Str → Prop}

theorem readKind_bare (k : RKind) (t : Key) (as : List (Key × Str)) (s : Str) (ks : List Xml) :
    readKind py k (.node t as s ks) = readKind py k (.node t as s []) := by cases k <;> rfl

/-- whether there is a value at all does not depend on the text, if it is not blank -/
theorem readKind_some (k : RKind) {x : Xml} (hb : blank py x.text = false) {r : Option (Scalar py.F)} (h1 : readKind py k x = .ok r) :
    r.isSome = true := by
  have hn : x.text ≠ [] := by intro h; rw [h] at hb; cases hb
  cases k <;> simp only [readKind, hn, hb, if_false, Bool.false_eq_true] at h1 <;> (repeat' split at h1) <;> cases h1 <;> rfl

theorem readItem_retold (hP : ∀ t s s', P t s s' → blank py s = false ∧ blank py s' = false) {i : Item}
    {rd rd' : Key → Xml → Except RErr (MObj py.F)}
    (hrd : ∀ k y y' v v', Retold P y y' → rd k y = .ok v → rd' k y' = .ok v' → Renewed (ValueFrom py P) v v')
    {y y' : Xml} (hl : Retold P y y') {vs vs' : List (MObj py.F)} (h1 : readItem py strict rd i y = .ok vs)
    (h2 : readItem py strict rd' i y' = .ok vs') : List.Forall₂ (Renewed (ValueFrom py P)) vs vs' := by
  cases i with
  | prim k =>
    cases hl with
    | node t as s s' ks ks' hs _ =>
    simp only [readItem, readKind_bare k t as] at h1 h2
    rcases hs with rfl | hs
    · rw [h1] at h2; cases h2
      exact forall₂_same _ fun v hv => by obtain ⟨s, rfl⟩ := scalars_only h1 v hv; exact .scal s
    · have hp : ∀ r, readKind py k (.node t as s []) = .ok r → r.isSome = true := fun r => readKind_some k (hP _ _ _ hs).1
      have hp' : ∀ r, readKind py k (.node t as s' []) = .ok r → r.isSome = true := fun r => readKind_some k (hP _ _ _ hs).2
      cases ha : readKind py k (.node t as s []) with
      | error e => rw [ha] at h1; cases h1
      | ok r =>
        cases ha' : readKind py k (.node t as s' []) with
        | error e => rw [ha'] at h2; cases h2
        | ok r' =>
          rw [ha] at h1; rw [ha'] at h2
          obtain ⟨a, rfl⟩ := Option.isSome_iff_exists.1 (hp r ha)
          obtain ⟨b, rfl⟩ := Option.isSome_iff_exists.1 (hp' r' ha')
          cases h1; cases h2
          exact .cons (.here _ _ ⟨t, as, s, s', k, a, b, hs, ha, ha', rfl, rfl⟩) .nil
  | attr n k =>
    simp only [readItem, Xml.attr, retold_attrs hl] at h1 h2
    rw [h1] at h2; cases h2
    split at h1
    · cases h1; exact .nil
    · exact forall₂_same _ fun v hv => by obtain ⟨s, rfl⟩ := scalars_only h1 v hv; exact .scal s
  | name =>
    cases hl with
    | node t as s s' ks ks' hs _ =>
    simp only [readItem] at h1 h2
    split at h1
    · cases h1
    · rename_i hn
      split at h2
      · cases h2
      · rename_i hn'
        cases h1; cases h2
        rcases hs with rfl | hs
        · exact .cons (.scal _) .nil
        · exact .cons (.here _ _ ⟨t, as, s, s', .raw, .str s, .str s', hs, if_neg hn, if_neg hn', rfl, rfl⟩) .nil
  | objs alts =>
    simp only [readItem, ← retold_tag hl] at h1 h2
    split at h1
    · rename_i ha; rw [ha] at h2; cases h1; cases h2; exact .nil
    · rename_i k ha
      rw [ha] at h2
      simp only at h2
      split at h1
      · cases h1
      · rename_i v hv
        split at h2
        · cases h2
        · rename_i v' hv'
          cases h1; cases h2
          exact .cons (hrd k y y' v v' hl hv hv') .nil
  | guard tags g =>
    have hz : ∀ {rd : Key → Xml → Except RErr (MObj py.F)} {y vs}, readItem py strict rd (.guard tags g) y = .ok vs → vs = [] := by
      intro rd y vs h
      simp only [readItem] at h
      split at h
      · cases h; rfl
      · split at h <;> cases h <;> rfl
    rw [hz h1, hz h2]; exact .nil
  | want t er =>
    have hz : ∀ {rd : Key → Xml → Except RErr (MObj py.F)} {y vs}, readItem py strict rd (.want t er) y = .ok vs → vs = [] := by
      intro rd y vs h
      simp only [readItem] at h
      split at h <;> cases h; rfl
    rw [hz h1, hz h2]; exact .nil
  | crash er => cases h1

theorem read_retold (hP : ∀ t s s', P t s s' → blank py s = false ∧ blank py s' = false) (n n' : Nat) (k : Key) {x x' : Xml} (h : Retold P x x')
    {v v' : MObj py.F} (h1 : readObj py strict readers n k x = .ok v) (h2 : readObj py strict readers n' k x' = .ok v') :
    Renewed (ValueFrom py P) v v' := by
  induction n generalizing n' k x x' v v' with
  | zero => cases h1
  | succ n ih =>
    cases n' with
    | zero => cases h2
    | succ n' =>
      simp only [readObj] at h1 h2
      cases hb : readers k with
      | none => rw [hb] at h1; cases h1
      | some b =>
        rw [hb] at h1 h2
        simp only [readBody] at h1 h2
        split at h1
        · cases h1
        · rename_i vs hvs
          split at h2
          · cases h2
          · rename_i vs' hvs'
            split at h1
            · split at h2
              · cases h1; cases h2
                refine .inside _ _ _ (renewedIn_zip ?_)
                refine mapE_pairs (R := fun s s' => s = s') (fun s s' ws ws' hs g1 g2 => ?_) (forall₂_same _ fun s _ => rfl) hvs hvs'
                subst hs
                obtain ⟨ls, f1, rfl, _⟩ := readSlot_ok g1
                obtain ⟨ls', f2, rfl, _⟩ := readSlot_ok g2
                have hls : List.Forall₂ (List.Forall₂ (Renewed (ValueFrom py P))) ls ls' := by
                  refine mapE_pairs (fun y y' us us' hy q1 q2 => ?_) (select_retold s.path h) f1 f2
                  exact readItem_retold hP (fun k y y' v v' hy hv hv' => ih n' k hy hv hv') hy q1 q2
                have := List.rel_flatten hls
                split
                · exact keepLast_rel this
                · exact this
              · cases h2
            · cases h1

theorem load_retold (hP : ∀ t s s', P t s s' → blank py s = false ∧ blank py s' = false) {x x' : Xml} (h : Retold P x x') {d d' : MObj py.F}
    (h1 : load py strict x = .ok d) (h2 : load py strict x' = .ok d') : Renewed (ValueFrom py P) d d' := by
  unfold load at h1 h2
  split at h1
  · cases h1
  · split at h2
    · cases h2
    · exact read_retold hP _ _ _ h h1 h2

end

end Verif.Lemmas
