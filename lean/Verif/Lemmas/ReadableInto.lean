import Verif.Lemmas.Readable
/-!
# Which files can be loaded into a document: lemmas
-/
namespace Verif.Lemmas
open Verif Verif.Model Verif.Spec

theorem zipE_all {α β γ ε : Type} {f : α → β → Except ε γ} {l : List α} {bs : List β} {r : List γ} (hl : bs.length = l.length)
    (h : zipE f l bs = .ok r) {a : α} (ha : a ∈ l) : ∃ b c, f a b = .ok c := by
  induction l generalizing bs r with
  | nil => cases ha
  | cons a' l ih =>
    obtain ⟨b, bs', c, r', -, -, hf, hz, hl'⟩ := zipE_cons hl h
    rcases List.mem_cons.1 ha with rfl | ha
    · exact ⟨b, c, hf⟩
    · exact ih hl' hz ha

theorem zipE_err {α β γ ε : Type} {f : α → β → Except ε γ} {l : List α} {bs : List β} {e : ε} (h : zipE f l bs = .error e) :
    ∃ a ∈ l, ∃ b, f a b = .error e := by
  induction l generalizing bs with
  | nil => cases h
  | cons a l ih =>
    cases bs with
    | nil => cases h
    | cons b bs =>
      simp only [zipE] at h
      split at h
      · rename_i e' he'; cases h; exact ⟨a, by simp, b, he'⟩
      · split at h
        · rename_i e' he'
          cases h
          obtain ⟨a', h1, b', h2⟩ := ih he'
          exact ⟨a', by simp [h1], b', h2⟩
        · cases h

theorem foldE_all {α β ε : Type} {f : β → α → Except ε β} {l : List α} {v w : β} (h : foldE f v l = .ok w) {a : α} (ha : a ∈ l) :
    ∃ u u', f u a = .ok u' := by
  induction l generalizing v with
  | nil => cases ha
  | cons a' l ih =>
    simp only [foldE] at h
    split at h
    · cases h
    · rename_i b hb
      rcases List.mem_cons.1 ha with rfl | ha
      · exact ⟨v, b, hb⟩
      · exact ih h ha

theorem foldE_err {α β ε : Type} {f : β → α → Except ε β} {l : List α} {v : β} {e : ε} (h : foldE f v l = .error e) : ∃ a ∈ l, ∃ u, f u a = .error e := by
  induction l generalizing v with
  | nil => cases h
  | cons a' l ih =>
    simp only [foldE] at h
    split at h
    · rename_i e' he'; cases h; exact ⟨a', by simp, v, he'⟩
    · obtain ⟨a, h1, u, h2⟩ := ih h
      exact ⟨a, by simp [h1], u, h2⟩

theorem replaceE_err {α ε : Type} {p : α → Bool} {f : α → Except ε α} {l : List α} {e : ε} (h : replaceE p f l = .error e) : ∃ v, f v = .error e := by
  induction l with
  | nil => cases h
  | cons v l ih =>
    simp only [replaceE] at h
    split at h
    · split at h
      · rename_i e' he'; cases h; exact ⟨v, he'⟩
      · cases h
    · split at h
      · rename_i e' he'; cases h; exact ih he'
      · cases h

theorem replaceE_some {α ε : Type} {p : α → Bool} {f : α → Except ε α} {l r : List α} (hp : l.any p = true) (h : replaceE p f l = .ok r) : ∃ v w, f v = .ok w := by
  induction l generalizing r with
  | nil => cases hp
  | cons v l ih =>
    simp only [replaceE] at h
    split at h
    · split at h
      · cases h
      · rename_i w hw; exact ⟨v, w, hw⟩
    · rename_i hv
      split at h
      · cases h
      · rename_i l' hl'
        simp only [List.any_cons, Bool.or_eq_true] at hp
        exact ih (hp.resolve_left hv) hl'

section
variable {py : Py} {strict : Bool} {over : Key → List Key}

theorem into_slot_cases {into : Key → Option (MObj py.F) → Xml → Except RErr (MObj py.F)} {ov : List Key} {x : Xml} {s : RSlot}
    {old : List (MObj py.F)} (hs : slotOk readers s = true) :
    (s.named = true ∧ ∃ alts, s.item = .objs alts ∧ s.req = .no ∧ intoSlot py strict readers into ov x s old =
      match foldE (putNamed py readers into s alts) old (select s.path x) with
      | .error e => .error e
      | .ok vs => if s.path.single && Nat.blt 1 vs.length then .error .outside else .ok vs) ∨
    (s.named = false ∧ intoSlot py strict readers into ov x s old = match readSlot py strict (fun k y => into k none y) x s with
      | .error e => .error e
      | .ok vs =>
        if s.isList then .ok (old ++ vs)
        else if vs.isEmpty && !ov.contains s.field then .ok old
        else .ok vs) := by
  cases hn : s.named with
  | true =>
    obtain ⟨alts, hi, -, hr, -, -⟩ := slotOk_named hs hn
    exact .inl ⟨rfl, alts, hi, hr, by simp only [intoSlot, hn, hi]; cases foldE (putNamed py readers into s alts) old (select s.path x) <;> rfl⟩
  | false => exact .inr ⟨rfl, by simp only [intoSlot, hn]; cases readSlot py strict (fun k y => into k none y) x s <;> rfl⟩

/-- what a slot reads into can be read, and so can the objects in it -/
theorem into_slot_ok {into : Key → Option (MObj py.F) → Xml → Except RErr (MObj py.F)} {ov : List Key} {x : Xml} {s : RSlot}
    {old r : List (MObj py.F)} (hs : slotOk readers s = true) (h : intoSlot py strict readers into ov x s old = .ok r) :
    (∀ z ∈ select s.path x, ItemFine py strict s.item z) ∧
    (s.req = .always ∨ (s.req = .strict ∧ strict = true) → ∃ z ∈ select s.path x, Gives py s.item z) ∧
    ∀ alts, s.item = .objs alts → ∀ z ∈ select s.path x, ∀ k, altOf alts z.tag = some k → ∃ o u, into k o z = .ok u := by
  rcases into_slot_cases (py := py) (strict := strict) (into := into) (ov := ov) (x := x) (old := old) hs with ⟨hn, alts, hi, hr, he⟩ | ⟨hn, he⟩
  · rw [he] at h
    refine ⟨fun z _ => by rw [hi]; trivial, fun hq => ?_, fun alts' hi' z hz k hk => ?_⟩
    · rw [hr] at hq; rcases hq with h | ⟨h, _⟩ <;> cases h
    · rw [hi] at hi'; cases hi'
      split at h
      · cases h
      rename_i vs hvs
      obtain ⟨u, u', hp⟩ := foldE_all hvs hz
      unfold putNamed at hp
      rw [hk] at hp
      simp only at hp
      split at hp
      · cases hp
      · split at hp
        · rename_i ha
          split at hp
          · cases hp
          · obtain ⟨v, w, hw⟩ := replaceE_some ha hp
            exact ⟨some v, w, hw⟩
        · split at hp
          · cases hp
          · rename_i o ho
            exact ⟨none, o, ho⟩
  · rw [he] at h
    split at h
    · cases h
    rename_i vs hvs
    have hs' := slot_iff.1 ⟨vs, hvs⟩
    refine ⟨fun z hz => (item_iff.1 (hs'.1 z hz)).1, hs'.2, fun alts hi z hz k hk => ?_⟩
    obtain ⟨o, ho⟩ := (item_iff.1 (hs'.1 z hz)).2 alts k hi hk
    exact ⟨none, o, ho⟩

theorem into_all {n : Nat} {k : Key} {x : Xml} {o : Option (MObj py.F)} {r : MObj py.F} (h : intoObj py strict readers over n k o x = .ok r) {b : RBody}
    (hb : readers k = some b) {s : RSlot} (hs : s ∈ b.slots) :
    ∃ m old l, intoSlot py strict readers (intoObj py strict readers over m) (over k) x s old = .ok l := by
  obtain ⟨m, b', rfl, hb', h⟩ := intoObj_succ h
  rw [hb] at hb'; cases hb'
  obtain ⟨olds, rs, _, hlen, hz, -, -⟩ := intoBody_ok h
  obtain ⟨old, l, hl⟩ := zipE_all hlen hz hs
  exact ⟨m, old, l, hl⟩

theorem readable_of_into {n : Nat} {k : Key} {x : Xml} {o : Option (MObj py.F)} {r : MObj py.F} (h : intoObj py strict readers over n k o x = .ok r)
    {b : RBody} (hb : readers k = some b) : Readable py strict b x := by
  refine ⟨fun s hs => ?_, fun s hs => ?_⟩
  all_goals
    obtain ⟨m, old, l, hl⟩ := into_all h hb hs
    have := into_slot_ok (slotsOk k b hb s hs) hl
  · exact this.1
  · exact this.2.1

theorem visits_into {k k' : Key} {x y : Xml} (hv : Visits readers k x k' y) {n : Nat} {o : Option (MObj py.F)} {r : MObj py.F}
    (h : intoObj py strict readers over n k o x = .ok r) : ∃ m o' r', intoObj py strict readers over m k' o' y = .ok r' := by
  induction hv generalizing n o r with
  | self => exact ⟨n, o, r, h⟩
  | step k x b s alts y j k' z hb hs hi hy hj _ ih =>
    obtain ⟨m, old, l, hl⟩ := into_all h hb hs
    obtain ⟨o', u, hu⟩ := (into_slot_ok (slotsOk k b hb s hs) hl).2.2 alts hi y hy j hj
    exact ih hu

/-- if all elements that are read can be read, they are read into any object (as far as this is modelled) -/
theorem into_of_readable {n : Nat} {k : Key} {x : Xml} (hn : x.depth ≤ n) (hk : (readers k).isSome = true)
    (h : ∀ k' y b, Visits readers k x k' y → readers k' = some b → Readable py strict b y) (o : Option (MObj py.F)) :
    (∃ r, intoObj py strict readers over n k o x = .ok r) ∨ intoObj py strict readers over n k o x = .error .outside := by
  induction n generalizing k x o with
  | zero => have := depth_pos x; omega
  | succ n ih =>
    obtain ⟨b, hb⟩ := Option.isSome_iff_exists.1 hk
    have hr := h k x b (.self k x) hb
    have step : ∀ s ∈ b.slots, ∀ alts, s.item = .objs alts → ∀ z ∈ select s.path x, ∀ k', altOf alts z.tag = some k' → ∀ o,
        (∃ r, intoObj py strict readers over n k' o z = .ok r) ∨ intoObj py strict readers over n k' o z = .error .outside := by
      intro s hs alts hi z hz k' hk' o
      have hd := (select_depth hz).2 (moving k b hb s hs (by rw [hi]; rfl))
      exact ih (k := k') (x := z) (by omega) (slot_closed hb hs hi hk') (fun k'' y b' hv => h k'' y b' (.step k x b s alts z k' k'' y hb hs hi hz hk' hv)) o
    have err : ∀ s ∈ b.slots, ∀ alts, s.item = .objs alts → ∀ z ∈ select s.path x, ∀ k', altOf alts z.tag = some k' → ∀ o e,
        intoObj py strict readers over n k' o z = .error e → e = .outside := by
      intro s hs alts hi z hz k' hk' o e he
      rcases step s hs alts hi z hz k' hk' o with ⟨r, h'⟩ | h' <;> rw [h'] at he <;> cases he
      rfl
    simp only [intoObj, hb, intoBody]
    split
    · exact .inr rfl
    split
    swap
    · exact .inr rfl
    split
    swap
    · split
      · exact .inl ⟨_, rfl⟩
      · exact .inr rfl
    rename_i e he
    right
    obtain ⟨s, hs, old, hse⟩ := zipE_err he
    rcases into_slot_cases (py := py) (strict := strict) (into := intoObj py strict readers over n) (ov := over k) (x := x) (old := old)
      (slotsOk k b hb s hs) with ⟨-, alts, hi, -, heq⟩ | ⟨-, heq⟩
    · rw [heq] at hse
      split at hse
      · rename_i e' he'
        cases hse
        obtain ⟨z, hz, u, hu⟩ := foldE_err he'
        unfold putNamed at hu
        split at hu
        · cases hu
        rename_i k' hk'
        split at hu
        · rename_i hno
          have := slot_closed hb hs hi hk'
          rw [hno] at this; cases this
        split at hu
        · split at hu
          · cases hu; rfl
          · obtain ⟨v, hv⟩ := replaceE_err hu
            rw [err s hs alts hi z hz k' hk' _ _ hv]
        · split at hu
          · rename_i e'' he''
            cases hu
            rw [err s hs alts hi z hz k' hk' _ _ he'']
          · cases hu
      · split at hse <;> cases hse
        rfl
    · rw [heq] at hse
      split at hse
      swap
      · split at hse
        · cases hse
        · split at hse <;> cases hse
      rename_i e' he'
      cases hse
      have hnot : ¬ ∃ l, readSlot py strict (fun k y => intoObj py strict readers over n k none y) x s = .ok l := by rw [he']; rintro ⟨l, hl⟩; cases hl
      rw [slot_iff] at hnot
      have hz : ¬ ∀ z ∈ select s.path x, ∃ l, readItem py strict (fun k y => intoObj py strict readers over n k none y) s.item z = .ok l :=
        fun h' => hnot ⟨h', hr.there s hs⟩
      simp only [readSlot] at he'
      split at he'
      swap
      · rename_i vs hvs
        exact absurd (mapE_oks.1 ⟨vs, hvs⟩) hz
      rename_i e'' he''
      cases he'
      obtain ⟨z, hzs, hze⟩ := mapE_err he''
      have hno : ¬ ∃ l, readItem py strict (fun k y => intoObj py strict readers over n k none y) s.item z = .ok l := by rw [hze]; rintro ⟨l, hl⟩; cases hl
      rw [item_iff] at hno
      have hob : ¬ ∀ alts k', s.item = .objs alts → altOf alts z.tag = some k' → ∃ o, intoObj py strict readers over n k' none z = .ok o :=
        fun h' => hno ⟨hr.fine s hs z hzs, h'⟩
      push Not at hob
      obtain ⟨alts, k', hi, hk', hno'⟩ := hob
      rcases step s hs alts hi z hzs k' hk' none with ⟨o, ho⟩ | ho
      · exact absurd ho (hno' o)
      · rw [hi] at hze
        simp only [readItem, hk', ho] at hze
        cases hze
        rfl

end
end Verif.Lemmas
