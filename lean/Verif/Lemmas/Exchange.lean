import Verif.Spec.Exchange
import Verif.Lemmas.Change
import Verif.Lemmas.Rows
/-!
# Exchanging one element of a file: lemmas
-/
namespace Verif.Lemmas
open Verif Verif.Model Verif.Spec

/-- the tags of the elements a path steps through -/
def thru : Path → List Key
  | .nil => []
  | .all u r => if r = .nil then [] else u :: thru r
  | .first ts r => if r = .nil then ts.dropLast else ts ++ thru r
  | .pick ts r => if r = .nil then [] else ts ++ thru r
  | .need p r | .lack p r | .alt p r => thru p ++ thru r

/-- the tags of the elements a path ends at -/
def lasts : Path → List Key
  | .nil => []
  | .all u r => if r = .nil then [u] else lasts r
  | .first ts r => if r = .nil then ts.getLast?.toList else lasts r
  | .pick ts r => if r = .nil then ts else lasts r
  | .need _ r | .lack _ r => lasts r
  | .alt p r => lasts p ++ lasts r

/-- an object is made, or only the presence is tested -/
def setApart : Item → Bool
  | .objs _ | .guard _ _ | .want _ _ | .crash _ => true
  | _ => false

/-- the tags of the elements a slot reads something of itself -/
def uses (s : RSlot) : List Key := thru s.path ++ if setApart s.item then [] else lasts s.path

/-- no method reads anything of elements with this tag but the method that makes an object of it -/
def Whole (t : Key) : Prop := ∀ k b, readers k = some b → ∀ s ∈ b.slots, t ∉ uses s ∧ 0 ∉ uses s

/-- two elements that are the same but for what is inside -/
structure Like (e e' x x' : Xml) : Prop where
  tag : x.tag = x'.tag
  attrs : x.attrs = x'.attrs
  text : x.text = x'.text
  kids : List.Forall₂ (Exchanged e e') x.kids x'.kids

section
variable {e e' : Xml}

theorem ex_cases {x x' : Xml} (h : Exchanged e e' x x') : (x = e ∧ x' = e') ∨ Like e e' x x' := by
  cases h with
  | here => exact .inl ⟨rfl, rfl⟩
  | inside t as s ks ks' hk => exact .inr ⟨rfl, rfl, rfl, hk⟩

theorem ex_tag (ht : e.tag = e'.tag) {x x' : Xml} (h : Exchanged e e' x x') : x.tag = x'.tag := by
  rcases ex_cases h with ⟨rfl, rfl⟩ | h
  · exact ht
  · exact h.tag

theorem ex_tagIs (ht : e.tag = e'.tag) (u : Key) {x x' : Xml} (h : Exchanged e e' x x') : tagIs u x = tagIs u x' := by
  unfold tagIs; rw [ex_tag ht h]

theorem forall₂_there {α β : Type} {R S : α → β → Prop} {l : List α} {m : List β} (h : List.Forall₂ R l m)
    (hS : ∀ a ∈ l, ∀ b, R a b → S a b) : List.Forall₂ S l m := by
  induction h with
  | nil => exact .nil
  | cons h1 _ ih => exact .cons (hS _ (by simp) _ h1) (ih fun a ha b => hS a (by simp [ha]) b)

theorem forall₂_flat {α β γ δ : Type} {R : α → β → Prop} {S : γ → δ → Prop} {f : α → List γ} {g : β → List δ} {l : List α} {m : List β}
    (h : List.Forall₂ R l m) (hS : ∀ a b, R a b → List.Forall₂ S (f a) (g b)) : List.Forall₂ S (l.flatMap f) (m.flatMap g) := by
  induction h with
  | nil => exact .nil
  | cons h1 _ ih => simp only [List.flatMap_cons]; exact List.rel_append (hS _ _ h1) ih

/-- the children with a tag that is not the tag of the exchanged element -/
theorem kids_like (ht : e.tag = e'.tag) {u : Key} (h0 : u ≠ 0) (hu : u ≠ e.tag) {x x' : Xml} (h : Like e e' x x') :
    List.Forall₂ (Like e e') (x.kids.filter (tagIs u)) (x'.kids.filter (tagIs u)) := by
  refine forall₂_there (filter_rel (fun a b hab => ex_tagIs ht u hab) h.kids) fun a ha b hab => ?_
  rcases ex_cases hab with ⟨rfl, rfl⟩ | hl
  · have := (List.mem_filter.1 ha).2
    simp [tagIs, h0] at this
    exact absurd this.symm hu
  · exact hl

/-- what a path leads to: elements that are the same but for what is inside, or the exchanged element at the end -/
def EndAt (e e' : Xml) (us : List Key) (y y' : Xml) : Prop := Like e e' y y' ∨ (y = e ∧ y' = e' ∧ (e.tag ∈ us ∨ 0 ∈ us))

theorem EndAt.mono {us vs : List Key} (h : ∀ u ∈ us, u ∈ vs) {y y' : Xml} (hy : EndAt e e' us y y') : EndAt e e' vs y y' :=
  hy.imp id fun ⟨a, b, c⟩ => ⟨a, b, c.imp (h _) (h _)⟩

theorem kids_at (ht : e.tag = e'.tag) (u : Key) {x x' : Xml} (h : Like e e' x x') :
    List.Forall₂ (EndAt e e' [u]) (x.kids.filter (tagIs u)) (x'.kids.filter (tagIs u)) := by
  refine forall₂_there (filter_rel (fun a b hab => ex_tagIs ht u hab) h.kids) fun a ha b hab => ?_
  rcases ex_cases hab with ⟨rfl, rfl⟩ | hl
  · have := (List.mem_filter.1 ha).2
    simp only [tagIs, Bool.or_eq_true, beq_iff_eq] at this
    exact .inr ⟨rfl, rfl, this.symm.imp (fun h => by simp [h]) fun h => by simp [h]⟩
  · exact .inl hl

theorem walk_like (ht : e.tag = e'.tag) (ts : List Key) (h0 : 0 ∉ ts) (hu : e.tag ∉ ts) {x x' : Xml} (h : Like e e' x x') :
    List.Forall₂ (Like e e') (walk ts x) (walk ts x') := by
  induction ts generalizing x x' with
  | nil => exact .cons h .nil
  | cons u ts ih =>
    simp only [List.mem_cons, not_or] at h0 hu
    exact forall₂_flat (kids_like ht (fun h => h0.1 h.symm) (fun h => hu.1 h.symm) h) fun a b hab => ih h0.2 hu.2 hab

theorem walk_end (ht : e.tag = e'.tag) (ts : List Key) (h0 : 0 ∉ ts.dropLast) (hu : e.tag ∉ ts.dropLast) {x x' : Xml} (h : Like e e' x x') :
    List.Forall₂ (EndAt e e' ts.getLast?.toList) (walk ts x) (walk ts x') := by
  induction ts generalizing x x' with
  | nil => exact .cons (.inl h) .nil
  | cons u ts ih =>
    cases ts with
    | nil =>
      refine forall₂_flat (kids_at ht u h) fun a b hab => ?_
      exact .cons hab .nil
    | cons v ts =>
      simp only [List.dropLast_cons_cons, List.mem_cons, not_or] at h0 hu
      have : (u :: v :: ts).getLast? = (v :: ts).getLast? := by simp [List.getLast?_cons_cons]
      rw [this]
      exact forall₂_flat (kids_like ht (fun h => h0.1 h.symm) (fun h => hu.1 h.symm) h) fun a b hab => ih h0.2 hu.2 hab

theorem find?_filter_head {α : Type} (p : α → Bool) (l : List α) : l.find? p = (l.filter p).head? := by
  rw [List.head?_filter]

theorem pick_at (ht : e.tag = e'.tag) (ts : List Key) {x x' : Xml} (h : Like e e' x x') :
    List.Forall₂ (EndAt e e' ts) (pickKid ts x).toList (pickKid ts x').toList := by
  induction ts with
  | nil => exact .nil
  | cons u ts ih =>
    have hk := kids_at ht u h
    simp only [pickKid, find?_filter_head]
    cases hf : x.kids.filter (tagIs u) with
    | nil =>
      rw [hf] at hk; cases hf' : x'.kids.filter (tagIs u) with
      | nil => exact ih.imp fun a b hab => hab.mono (by simp +contextual)
      | cons b m => rw [hf'] at hk; cases hk
    | cons a l =>
      rw [hf] at hk; cases hf' : x'.kids.filter (tagIs u) with
      | nil => rw [hf'] at hk; cases hk
      | cons b m =>
        rw [hf'] at hk
        cases hk with
        | cons h1 _ => exact .cons (h1.mono (by simp +contextual)) .nil

theorem at_like {us : List Key} (h0 : 0 ∉ us) (hu : e.tag ∉ us) {y y' : Xml} (h : EndAt e e' us y y') : Like e e' y y' := by
  rcases h with h | ⟨_, _, h | h⟩
  · exact h
  · exact absurd h hu
  · exact absurd h h0

theorem select_end (ht : e.tag = e'.tag) (p : Path) (h0 : 0 ∉ thru p) (hu : e.tag ∉ thru p) {x x' : Xml} (h : Like e e' x x') :
    List.Forall₂ (EndAt e e' (lasts p)) (select p x) (select p x') := by
  induction p generalizing x x' with
  | nil => exact .cons (.inl h) .nil
  | all u r ih =>
    by_cases hr : r = .nil
    · subst hr
      simp only [lasts, if_true, select]
      exact forall₂_flat (kids_at ht u h) fun a b hab => .cons hab .nil
    · simp only [thru, if_neg hr, List.mem_cons, not_or] at h0 hu
      simp only [lasts, if_neg hr, select]
      exact forall₂_flat (kids_like ht (fun h => h0.1 h.symm) (fun h => hu.1 h.symm) h) fun a b hab => ih h0.2 hu.2 hab
  | first ts r ih =>
    by_cases hr : r = .nil
    · subst hr
      simp only [thru, if_true] at h0 hu
      simp only [lasts, if_true, select]
      have := walk_end ht ts h0 hu h
      cases hw : walk ts x with
      | nil => rw [hw] at this; cases hw' : walk ts x' with
        | nil => exact .nil
        | cons b m => rw [hw'] at this; cases this
      | cons a l => rw [hw] at this; cases hw' : walk ts x' with
        | nil => rw [hw'] at this; cases this
        | cons b m => rw [hw'] at this; cases this with | cons h1 _ => exact .cons h1 .nil
    · simp only [thru, if_neg hr, List.mem_append, not_or] at h0 hu
      simp only [lasts, if_neg hr, select]
      have := walk_like ht ts h0.1 hu.1 h
      cases hw : walk ts x with
      | nil => rw [hw] at this; cases hw' : walk ts x' with
        | nil => exact .nil
        | cons b m => rw [hw'] at this; cases this
      | cons a l => rw [hw] at this; cases hw' : walk ts x' with
        | nil => rw [hw'] at this; cases this
        | cons b m => rw [hw'] at this; cases this with | cons h1 _ => exact ih h0.2 hu.2 h1
  | pick ts r ih =>
    have hp := pick_at ht ts h
    by_cases hr : r = .nil
    · subst hr
      simp only [lasts, if_true, select]
      cases hw : pickKid ts x with
      | none => rw [hw] at hp; cases hw' : pickKid ts x' with
        | none => exact .nil
        | some b => rw [hw'] at hp; cases hp
      | some a => rw [hw] at hp; cases hw' : pickKid ts x' with
        | none => rw [hw'] at hp; cases hp
        | some b => rw [hw'] at hp; cases hp with | cons h1 _ => exact .cons h1 .nil
    · simp only [thru, if_neg hr, List.mem_append, not_or] at h0 hu
      simp only [lasts, if_neg hr, select]
      cases hw : pickKid ts x with
      | none => rw [hw] at hp; cases hw' : pickKid ts x' with
        | none => exact .nil
        | some b => rw [hw'] at hp; cases hp
      | some a => rw [hw] at hp; cases hw' : pickKid ts x' with
        | none => rw [hw'] at hp; cases hp
        | some b => rw [hw'] at hp; cases hp with | cons h1 _ => exact ih h0.2 hu.2 (at_like h0.1 hu.1 h1)
  | need p r ihp ih =>
    simp only [thru, List.mem_append, not_or] at h0 hu
    simp only [select, rel_isEmpty (ihp h0.1 hu.1 h), lasts]
    split
    · exact .nil
    · exact ih h0.2 hu.2 h
  | lack p r ihp ih =>
    simp only [thru, List.mem_append, not_or] at h0 hu
    simp only [select, rel_isEmpty (ihp h0.1 hu.1 h), lasts]
    split
    · exact ih h0.2 hu.2 h
    · exact .nil
  | alt p r ihp ih =>
    simp only [thru, List.mem_append, not_or] at h0 hu
    simp only [select, rel_isEmpty (ihp h0.1 hu.1 h), lasts]
    split
    · exact (ih h0.2 hu.2 h).imp fun a b hab => hab.mono (by simp +contextual)
    · exact (ihp h0.1 hu.1 h).imp fun a b hab => hab.mono (by simp +contextual)

end

theorem keepLast_rel {α β : Type} {R : α → β → Prop} {l : List α} {m : List β} (h : List.Forall₂ R l m) : List.Forall₂ R (keepLast l) (keepLast m) := by
  have : ∀ {l : List α} {m : List β}, List.Forall₂ R l m → List.Forall₂ R l.getLast?.toList m.getLast?.toList := by
    intro l m h
    induction h with
    | nil => exact .nil
    | @cons a b l m h1 h2 ih =>
      cases h2 with
      | nil => exact .cons h1 .nil
      | cons h3 h4 => simpa [List.getLast?_cons_cons] using ih
  have := this h
  unfold keepLast
  cases hl : l.getLast? <;> cases hm : m.getLast? <;> rw [hl, hm] at this <;> simpa using this

section
variable {py : Py} {strict : Bool} {e e' : Xml}

theorem forall₂_same {α : Type} {R : α → α → Prop} (l : List α) (h : ∀ a ∈ l, R a a) : List.Forall₂ R l l := by
  induction l with
  | nil => exact .nil
  | cons a l ih => exact .cons (h a (by simp)) (ih fun b hb => h b (by simp [hb]))

theorem scalars_only {r : Except PyErr (Option (Scalar py.F))} {vs : List (MObj py.F)} (h : scalars r = .ok vs) : ∀ v ∈ vs, ∃ s, v = .scal s := by
  unfold scalars at h
  split at h <;> cases h <;> simp

theorem readItem_like {i : Item} {us : List Key} (hi : setApart i = true ∨ (e.tag ∉ us ∧ 0 ∉ us)) (ht : e.tag = e'.tag)
    {rd rd' : Key → Xml → Except RErr (MObj py.F)}
    {P : MObj py.F → MObj py.F → Prop} (hrd : ∀ k y y' v v', Exchanged e e' y y' → rd k y = .ok v → rd' k y' = .ok v' → Renewed P v v')
    {y y' : Xml} (h : EndAt e e' us y y') (hx : Exchanged e e' y y') {vs vs' : List (MObj py.F)} (h1 : readItem py strict rd i y = .ok vs)
    (h2 : readItem py strict rd' i y' = .ok vs') : List.Forall₂ (Renewed P) vs vs' := by
  have hl : setApart i = true ∨ Like e e' y y' := hi.imp id fun h' => at_like h'.2 h'.1 h
  cases i with
  | prim k =>
    have hl := hl.resolve_left (by simp [setApart])
    have : readKind py k y = readKind py k y' := by
      obtain ⟨t, as, s, ks⟩ := y
      obtain ⟨t', as', s', ks'⟩ := y'
      obtain ⟨q1, q2, q3, _⟩ := hl
      simp only [Xml.tag, Xml.attrs, Xml.text] at q1 q2 q3
      subst q1 q2 q3
      cases k <;> rfl
    simp only [readItem] at h1 h2
    rw [← this] at h2
    rw [h1] at h2; cases h2
    exact forall₂_same _ fun v hv => by obtain ⟨s, rfl⟩ := scalars_only h1 v hv; exact .scal s
  | attr n k =>
    have hl := hl.resolve_left (by simp [setApart])
    simp only [readItem, Xml.attr, hl.attrs] at h1 h2
    rw [h1] at h2; cases h2
    split at h1
    · cases h1; exact .nil
    · exact forall₂_same _ fun v hv => by obtain ⟨s, rfl⟩ := scalars_only h1 v hv; exact .scal s
  | name =>
    have hl := hl.resolve_left (by simp [setApart])
    simp only [readItem, hl.text] at h1 h2
    split at h1
    · cases h1
    · rename_i hn
      rw [if_neg hn] at h2
      cases h1; cases h2
      exact .cons (.scal _) .nil
  | objs alts =>
    simp only [readItem, ex_tag ht hx] at h1 h2
    split at h1
    · rename_i ha; rw [ha] at h2; cases h1; cases h2; exact .nil
    · rename_i k ha
      rw [ha] at h2
      simp only at h2
      split at h1
      · cases h1
      · rename_i v hv
        split at h2
        · cases h2
        · rename_i v' hv'
          cases h1; cases h2
          exact .cons (hrd k y y' v v' hx hv hv') .nil
  | guard tags g =>
    have hz : ∀ {rd : Key → Xml → Except RErr (MObj py.F)} {y vs}, readItem py strict rd (.guard tags g) y = .ok vs → vs = [] := by
      intro rd y vs h
      simp only [readItem] at h
      split at h
      · cases h; rfl
      · split at h <;> cases h <;> rfl
    rw [hz h1, hz h2]; exact .nil
  | want t er =>
    have hz : ∀ {rd : Key → Xml → Except RErr (MObj py.F)} {y vs}, readItem py strict rd (.want t er) y = .ok vs → vs = [] := by
      intro rd y vs h
      simp only [readItem] at h
      split at h <;> cases h; rfl
    rw [hz h1, hz h2]; exact .nil
  | crash er => cases h1

theorem at_ex {us : List Key} {y y' : Xml} (h : EndAt e e' us y y') : Exchanged e e' y y' := by
  rcases h with h | ⟨rfl, rfl, _⟩
  · obtain ⟨t, as, s, ks⟩ := y
    obtain ⟨t', as', s', ks'⟩ := y'
    obtain ⟨h1, h2, h3, h4⟩ := h
    simp only [Xml.tag, Xml.attrs, Xml.text, Xml.kids] at h1 h2 h3 h4
    subst h1 h2 h3
    exact .inside _ _ _ _ _ h4
  · exact .here

theorem renewedIn_zip {F : Type} {P : MObj F → MObj F → Prop} {ks : List (Key × Bool)} {vs vs' : List (List (MObj F))}
    (h : List.Forall₂ (List.Forall₂ (Renewed P)) vs vs') : RenewedIn P (ks.zip vs) (ks.zip vs') := by
  induction h generalizing ks with
  | nil => cases ks <;> exact .nil
  | cons h1 _ ih => cases ks with
    | nil => exact .nil
    | cons k ks => exact .cons _ _ _ _ _ h1 ih

theorem body_exchanged (ht : e.tag = e'.tag) (hw : Whole e.tag) (n n' : Nat) (k : Key) {x x' : Xml} (hl : Like e e' x x')
    (ih : ∀ k y y' v v', Exchanged e e' y y' → readObj py strict readers n k y = .ok v → readObj py strict readers n' k y' = .ok v' →
      Renewed (MadeFrom py strict e e') v v') {v v' : MObj py.F}
    (h1 : readObj py strict readers (n + 1) k x = .ok v) (h2 : readObj py strict readers (n' + 1) k x' = .ok v') :
    ∃ c fs fs', v = .mk c fs ∧ v' = .mk c fs' ∧ RenewedIn (MadeFrom py strict e e') fs fs' := by
  simp only [readObj] at h1 h2
  cases hb : readers k with
  | none => rw [hb] at h1; cases h1
  | some b =>
    rw [hb] at h1 h2
    simp only [readBody] at h1 h2
    split at h1
    · cases h1
    · rename_i vs hvs
      split at h2
      · cases h2
      · rename_i vs' hvs'
        split at h1
        · split at h2
          · cases h1; cases h2
            refine ⟨_, _, _, rfl, rfl, renewedIn_zip ?_⟩
            refine mapE_pairs (R := fun s s' => s = s' ∧ s ∈ b.slots) (fun s s' ws ws' hs g1 g2 => ?_) (forall₂_same _ fun s hs => ⟨rfl, hs⟩) hvs hvs'
            obtain ⟨rfl, hs⟩ := hs
            obtain ⟨ls, f1, rfl, _⟩ := readSlot_ok g1
            obtain ⟨ls', f2, rfl, _⟩ := readSlot_ok g2
            obtain ⟨w1, w0⟩ := hw k b hb s hs
            simp only [uses, List.mem_append, not_or] at w1 w0
            have hsel := select_end ht s.path w0.1 w1.1 hl
            have hls : List.Forall₂ (List.Forall₂ (Renewed (MadeFrom py strict e e'))) ls ls' := by
              refine mapE_pairs (fun y y' us us' hy q1 q2 => ?_) hsel f1 f2
              refine readItem_like (us := lasts s.path) ?_ ht ih hy (at_ex hy) q1 q2
              cases ha : setApart s.item with
              | true => exact .inl rfl
              | false => rw [ha] at w1 w0; exact .inr ⟨w1.2, w0.2⟩
            have := List.rel_flatten hls
            split
            · exact keepLast_rel this
            · exact this
          · cases h2
        · cases h1

theorem read_exchanged (ht : e.tag = e'.tag) (hw : Whole e.tag) (n n' : Nat) (k : Key) {x x' : Xml} (h : Exchanged e e' x x') {v v' : MObj py.F}
    (h1 : readObj py strict readers n k x = .ok v) (h2 : readObj py strict readers n' k x' = .ok v') : Renewed (MadeFrom py strict e e') v v' := by
  induction n generalizing n' k x x' v v' with
  | zero => cases h1
  | succ n ih =>
    rcases ex_cases h with ⟨rfl, rfl⟩ | hl
    · exact .here _ _ ⟨n + 1, n', k, h1, h2⟩
    · cases n' with
      | zero => cases h2
      | succ n' =>
        obtain ⟨c, fs, fs', rfl, rfl, hf⟩ := body_exchanged ht hw n n' k hl (fun k y y' v v' hy hv hv' => ih n' k hy hv hv') h1 h2
        exact .inside _ _ _ hf

theorem load_exchanged (ht : e.tag = e'.tag) (hw : Whole e.tag) {x x' : Xml} (h : Exchanged e e' x x') {d d' : MObj py.F}
    (h1 : load py strict x = .ok d) (h2 : load py strict x' = .ok d') : Renewed (MadeFrom py strict e e') d d' := by
  unfold load at h1 h2
  split at h1
  · cases h1
  · split at h2
    · cases h2
    · exact read_exchanged ht hw _ _ _ h h1 h2

end

end Verif.Lemmas
