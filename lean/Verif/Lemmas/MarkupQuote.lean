import Verif.Lemmas.MarkupMain
/-!
# A quotation mark in an attribute value

What the parser has read is never taken back (`run_grows`), so an attribute value that ends too early is in the tree that is
read, if any is read at all.
-/
namespace Verif.Lemmas
open Verif Verif.Model Verif.Spec

/-! ### What was read stays -/

mutual
/-- a tree that may get more attributes at the end and more children at the end -/
def Grows : Xml → Xml → Prop
  | .node _ as _ kids, .node _ as' _ kids' => as <+: as' ∧ GrowsAll kids kids'
def GrowsAll : List Xml → List Xml → Prop
  | [], _ => True
  | _ :: _, [] => False
  | x :: l, y :: l' => Grows x y ∧ GrowsAll l l'
end

mutual
theorem grows_refl : (x : Xml) → Grows x x
  | .node _ _ _ kids => by rw [Grows]; exact ⟨List.prefix_refl _, growsAll_refl kids⟩
theorem growsAll_refl : (l : List Xml) → GrowsAll l l
  | [] => by simp [GrowsAll]
  | x :: l => by rw [GrowsAll]; exact ⟨grows_refl x, growsAll_refl l⟩
end

mutual
theorem grows_trans : {x y z : Xml} → Grows x y → Grows y z → Grows x z
  | .node _ _ _ k, .node _ _ _ k', .node _ _ _ k'', h, h' => by
    rw [Grows] at h h' ⊢
    exact ⟨h.1.trans h'.1, growsAll_trans h.2 h'.2⟩
theorem growsAll_trans : {x y z : List Xml} → GrowsAll x y → GrowsAll y z → GrowsAll x z
  | [], _, _, _, _ => by simp [GrowsAll]
  | _ :: _, [], _, h, _ => by simp [GrowsAll] at h
  | _ :: _, _ :: _, [], _, h => by simp [GrowsAll] at h
  | x :: l, y :: l', z :: l'', h, h' => by
    rw [GrowsAll] at h h' ⊢
    exact ⟨grows_trans h.1 h'.1, growsAll_trans h.2 h'.2⟩
end

theorem growsAll_append (l : List Xml) {a b : List Xml} (h : GrowsAll a b) : GrowsAll (l ++ a) (l ++ b) := by
  induction l with
  | nil => exact h
  | cons x l ih => rw [List.cons_append, List.cons_append, GrowsAll]; exact ⟨grows_refl x, ih⟩

theorem growsAll_cancel (l : List Xml) {a b : List Xml} (h : GrowsAll (l ++ a) (l ++ b)) : GrowsAll a b := by
  induction l with
  | nil => exact h
  | cons x l ih => rw [List.cons_append, List.cons_append, GrowsAll] at h; exact ih h.2

/-- the attributes that are read -/
def readAttrs (as : List (Str × Str)) : List (Key × Str) := (as.filter fun a => !isXmlns a.1).map fun a => (keyOf a.1, a.2)

theorem readAttrs_append (as bs : List (Str × Str)) : readAttrs (as ++ bs) = readAttrs as ++ readAttrs bs := by
  simp [readAttrs]

/-- the tree made of the open elements, with the children `x` at the end of the innermost one -/
def snapGo : List Frame → List Xml → List Xml
  | [], x => x
  | f :: l, x => snapGo l [.node (keyOf f.name) (readAttrs f.attrs) [] (El.toXmls f.kids.reverse ++ x)]

/-- the element whose start tag is being read -/
def inTag : Mode → List Xml
  | .tag n as | .attr n as _ | .eq n as _ | .quote n as _ | .value n as _ _ _ | .closed n as | .slash n as => [.node (keyOf n) (readAttrs as) [] []]
  | _ => []

/-- what was read so far -/
def snap (st : PState) : List Xml :=
  match st.stack, st.root with
  | [], some e => [e.toXml]
  | l, _ => snapGo l (inTag st.mode)

theorem snap_nil (e : El) (m : Mode) : snap ⟨[], some e, m⟩ = [e.toXml] := rfl
theorem snap_none (l : List Frame) (m : Mode) : snap ⟨l, none, m⟩ = snapGo l (inTag m) := by cases l <;> rfl
theorem snap_cons (f : Frame) (l : List Frame) (r : Option El) (m : Mode) : snap ⟨f :: l, r, m⟩ = snapGo (f :: l) (inTag m) := rfl

theorem snapGo_mono (l : List Frame) {x y : List Xml} (h : GrowsAll x y) : GrowsAll (snapGo l x) (snapGo l y) := by
  induction l generalizing x y with
  | nil => exact h
  | cons f l ih =>
    refine ih ?_
    rw [GrowsAll, Grows]
    exact ⟨⟨List.prefix_refl _, growsAll_append _ h⟩, by simp [GrowsAll]⟩

theorem toXmls_map (l : List El) : El.toXmls l = l.map El.toXml := by
  induction l with
  | nil => rfl
  | cons x l ih => simp [El.toXmls, ih]

theorem snapGo_addText (f : Frame) (t : Str) (l : List Frame) (x : List Xml) : snapGo (f.addText t :: l) x = snapGo (f :: l) x := by
  obtain ⟨n, as, tx, kids⟩ := f
  cases kids with
  | nil => rfl
  | cons e k => simp [snapGo, Frame.addText, toXmls_map, toXml_withTail]

/-- a step that only changes the mode -/
theorem snap_mode (l : List Frame) (r : Option El) {m m' : Mode} (h : GrowsAll (inTag m) (inTag m')) : GrowsAll (snap ⟨l, r, m⟩) (snap ⟨l, r, m'⟩) := by
  cases l with
  | nil =>
    cases r with
    | some e => exact growsAll_refl _
    | none => exact h
  | cons f l => exact snapGo_mono (f :: l) h

theorem snap_open {l : List Frame} {r : Option El} {n : Str} {as : List (Str × Str)} {st' : PState} (h : openEl l r n as = some st') (m : Mode)
    (hm : GrowsAll (inTag m) [.node (keyOf n) (readAttrs as) [] []]) : GrowsAll (snap ⟨l, r, m⟩) (snap st') := by
  unfold openEl at h
  split at h
  · cases h
  · rename_i hc
    cases h
    rw [snap_cons]
    have hs : snap ⟨l, r, m⟩ = snapGo l (inTag m) := by
      cases l with
      | nil => cases r with
        | none => rfl
        | some e => simp at hc
      | cons f l => rfl
    rw [hs]
    exact snapGo_mono l hm

theorem snap_close {l : List Frame} {r : Option El} {n : Str} {st' : PState} (h : closeEl l r n = some st') (m : Mode) (hm : inTag m = []) :
    GrowsAll (snap ⟨l, r, m⟩) (snap st') := by
  cases l with
  | nil => cases h
  | cons f l =>
    simp only [closeEl] at h
    split at h
    · rename_i hn
      rw [snap_cons, hm, snapGo]
      have hg : GrowsAll [.node (keyOf f.name) (readAttrs f.attrs) [] (El.toXmls f.kids.reverse ++ [])]
          [(El.mk f.name f.attrs f.text f.kids.reverse []).toXml] := by
        rw [El.toXml, GrowsAll, Grows, List.append_nil]
        exact ⟨⟨List.prefix_refl _, growsAll_refl _⟩, by simp [GrowsAll]⟩
      cases l with
      | nil => cases h; exact hg
      | cons g r =>
        cases h
        rw [snap_cons, snapGo, snapGo]
        have : El.toXmls (El.mk f.name f.attrs f.text f.kids.reverse [] :: g.kids).reverse ++ inTag (.content []) =
            El.toXmls g.kids.reverse ++ [(El.mk f.name f.attrs f.text f.kids.reverse []).toXml] := by
          simp [toXmls_map, inTag]
        simp only [this]
        exact snapGo_mono (g :: r) hg
    · cases h

theorem growsAll_nil (l : List Xml) : GrowsAll [] l := by simp [GrowsAll]

theorem step_grows {nc : NameChars} {st st' : PState} {c : Char} (h : step nc st c = some st') : GrowsAll (snap st) (snap st') := by
  obtain ⟨l, r, m⟩ := st
  cases m with
  | content raw =>
    simp only [step] at h
    split at h
    · cases l with
      | nil =>
        simp only [flush] at h
        split at h
        · cases h; exact snap_mode _ _ (growsAll_refl _)
        · cases h
      | cons f l =>
        simp only [flush] at h
        cases hd : decodeText raw.reverse with
        | none => rw [hd] at h; cases h
        | some t =>
          rw [hd] at h
          cases h
          rw [snap_cons, snap_cons, snapGo_addText]
          exact growsAll_refl _
    · cases h; exact snap_mode _ _ (growsAll_refl _)
  | lt =>
    simp only [step] at h
    repeat' split at h
    all_goals cases h
    all_goals exact snap_mode _ _ (growsAll_nil _)
  | name n =>
    simp only [step] at h
    split at h
    · cases h; exact snap_mode _ _ (growsAll_nil _)
    split at h
    · cases h; exact snap_mode _ _ (growsAll_nil _)
    split at h
    · exact snap_open h _ (growsAll_nil _)
    split at h
    · cases h; exact snap_mode _ _ (growsAll_nil _)
    · cases h
  | tag n as =>
    simp only [step] at h
    split at h
    · cases h; exact snap_mode _ _ (growsAll_refl _)
    split at h
    · exact snap_open h _ (growsAll_refl _)
    split at h
    · cases h; exact snap_mode _ _ (growsAll_refl _)
    split at h
    · cases h; exact snap_mode _ _ (growsAll_refl _)
    · cases h
  | attr n as a =>
    simp only [step] at h
    repeat' split at h
    all_goals cases h
    all_goals exact snap_mode _ _ (growsAll_refl _)
  | eq n as a =>
    simp only [step] at h
    repeat' split at h
    all_goals cases h
    all_goals exact snap_mode _ _ (growsAll_refl _)
  | quote n as a =>
    simp only [step] at h
    repeat' split at h
    all_goals cases h
    all_goals exact snap_mode _ _ (growsAll_refl _)
  | value n as a q raw =>
    simp only [step] at h
    split at h
    · cases h
    split at h
    · split at h
      · cases h
      · cases hd : decodeAttr raw.reverse with
        | none => rw [hd] at h; cases h
        | some v =>
          rw [hd] at h
          cases h
          refine snap_mode _ _ ?_
          simp only [inTag, GrowsAll, Grows, readAttrs_append]
          exact ⟨⟨List.prefix_append _ _, trivial⟩, trivial⟩
    · cases h; exact snap_mode _ _ (growsAll_refl _)
  | closed n as =>
    simp only [step] at h
    split at h
    · cases h; exact snap_mode _ _ (growsAll_refl _)
    split at h
    · exact snap_open h _ (growsAll_refl _)
    split at h
    · cases h; exact snap_mode _ _ (growsAll_refl _)
    · cases h
  | slash n as =>
    simp only [step] at h
    split at h
    · cases ho : openEl l r n as with
      | none => rw [ho] at h; cases h
      | some s =>
        rw [ho] at h
        have h1 := snap_open ho (.slash n as) (growsAll_refl _)
        have hm : ∃ l' r', s = ⟨l', r', .content []⟩ := by
          unfold openEl at ho
          split at ho
          · cases ho
          · cases ho; exact ⟨_, _, rfl⟩
        obtain ⟨l', r', rfl⟩ := hm
        exact growsAll_trans h1 (snap_close (st' := st') h (.content []) rfl)
    · cases h
  | cname n =>
    simp only [step] at h
    split at h
    · cases h; exact snap_mode _ _ (growsAll_refl _)
    split at h
    · cases h; exact snap_mode _ _ (growsAll_refl _)
    split at h
    · exact snap_close h _ rfl
    · cases h
  | cend n =>
    simp only [step] at h
    split at h
    · cases h; exact snap_mode _ _ (growsAll_refl _)
    split at h
    · exact snap_close h _ rfl
    · cases h
  | bang =>
    simp only [step] at h
    repeat' split at h
    all_goals cases h
    all_goals exact snap_mode _ _ (growsAll_nil _)
  | dash =>
    simp only [step] at h
    repeat' split at h
    all_goals cases h
    all_goals exact snap_mode _ _ (growsAll_nil _)
  | comment k =>
    simp only [step] at h
    repeat' split at h
    all_goals cases h
    all_goals exact snap_mode _ _ (growsAll_nil _)
  | target n =>
    simp only [step] at h
    repeat' split at h
    all_goals cases h
    all_goals exact snap_mode _ _ (growsAll_nil _)
  | inst q =>
    simp only [step] at h
    repeat' split at h
    all_goals cases h
    all_goals exact snap_mode _ _ (growsAll_nil _)
  | instEnd =>
    simp only [step] at h
    repeat' split at h
    all_goals cases h
    all_goals exact snap_mode _ _ (growsAll_nil _)
  | «section» m =>
    simp only [step] at h
    repeat' split at h
    all_goals cases h
    all_goals exact snap_mode _ _ (growsAll_nil _)
  | cdata raw =>
    simp only [step] at h
    split at h
    · cases l with
      | nil => cases h
      | cons f l =>
        cases h
        rw [snap_cons, snap_cons, snapGo_addText]
        exact growsAll_refl _
    · cases h; exact snap_mode _ _ (growsAll_nil _)

/-- **What was read stays.** -/
theorem run_grows {nc : NameChars} (s : Str) {st st' : PState} (h : run nc st s = some st') : GrowsAll (snap st) (snap st') := by
  induction s generalizing st with
  | nil => cases h; exact growsAll_refl _
  | cons c s ih =>
    rw [run_cons] at h
    cases hs : step nc st c with
    | none => rw [hs] at h; cases h
    | some st1 => rw [hs] at h; exact growsAll_trans (step_grows hs) (ih h)

theorem finish_snap {st : PState} {e : El} (h : finish st = some e) : snap st = [e.toXml] := by
  obtain ⟨l, r, m⟩ := st
  unfold finish at h
  split at h
  · rename_i h1 h2 h3
    split at h
    · cases h
      simp only at h1 h2 h3
      subst h1 h2
      rfl
    · cases h
  · cases h

/-! ### The first quotation mark -/

/-- values with a quotation mark are not those of the namespaces -/
inductive QuotesRead : El → Prop
  | mk (n : Str) (as : List (Str × Str)) (tx : Str) (kids : List El) (tl : Str) : (∀ a ∈ as, '"' ∈ a.2 → isXmlns a.1 = false) →
      (∀ k ∈ kids, QuotesRead k) → QuotesRead (.mk n as tx kids tl)

theorem etText_dom {s : Str} (h : '"' ∉ s) : etText s = domData s := by
  rw [etText_eq, domData_eq]
  induction s with
  | nil => rfl
  | cons c s ih =>
    simp only [List.mem_cons, not_or] at h
    rw [List.flatMap_cons, List.flatMap_cons, ih h.2]
    have : escEt c = escDom c := by unfold escDom escEt; rw [if_neg (c := c = '"') (Ne.symm h.1)]
    rw [this]

theorem attrText_dom {as : List (Str × Str)} (h : ∀ a ∈ as, '"' ∉ a.2) : attrText etText as = attrText domData as := by
  induction as with
  | nil => rfl
  | cons a as ih =>
    have := ih fun b hb => h b (by simp [hb])
    simp only [attrText, List.flatMap_cons] at this ⊢
    rw [this, etText_dom (h a (by simp))]

mutual
theorem flat_dom {sc : Str → Bool → Bool} : (e : El) → Valued (fun v => '"' ∉ v) e → flat etText etText sc e = flat etText domData sc e
  | .mk n as tx kids tl, h => by
    cases h with
    | mk _ _ _ _ _ h1 h2 => rw [flat, flat, attrText_dom h1, flats_dom kids h2]
theorem flats_dom {sc : Str → Bool → Bool} : (l : List El) → (∀ e ∈ l, Valued (fun v => '"' ∉ v) e) → flats etText etText sc l = flats etText domData sc l
  | [], _ => rfl
  | e :: l, h => by rw [flats, flats, flat_dom e (h e (by simp)), flats_dom l fun x hx => h x (by simp [hx])]
end

theorem split_quote {v : Str} (h : '"' ∈ v) : ∃ a b, v = a ++ '"' :: b ∧ '"' ∉ a := by
  induction v with
  | nil => cases h
  | cons c v ih =>
    by_cases hc : c = '"'
    · exact ⟨[], v, by rw [hc]; rfl, by simp⟩
    · have : '"' ∈ v := by
        rcases List.mem_cons.1 h with h | h
        · exact absurd h.symm hc
        · exact h
      obtain ⟨a, b, rfl, ha⟩ := ih this
      exact ⟨c :: a, b, rfl, by simp [ha, Ne.symm hc]⟩

theorem split_attrs {as : List (Str × Str)} (h : ¬ ∀ a ∈ as, '"' ∉ a.2) :
    ∃ bs a v ds, as = bs ++ (a, v) :: ds ∧ (∀ b ∈ bs, '"' ∉ b.2) ∧ '"' ∈ v := by
  induction as with
  | nil => exact absurd (by simp) h
  | cons a as ih =>
    by_cases ha : '"' ∈ a.2
    · exact ⟨[], a.1, a.2, as, rfl, by simp, ha⟩
    · have : ¬ ∀ b ∈ as, '"' ∉ b.2 := fun hb => h (by simpa [ha] using hb)
      obtain ⟨bs, x, v, ds, rfl, h1, h2⟩ := ih this
      refine ⟨a :: bs, x, v, ds, rfl, ?_, h2⟩
      intro b hb
      rcases List.mem_cons.1 hb with rfl | hb
      · exact ha
      · exact h1 b hb

/-- the values that are read -/
abbrev blankEl : El → El := El.map id (·.map toBlank)

theorem step_lt {nc : NameChars} {stk stk' : List Frame} {root : Option El} {raw : Str} (hf : flush ⟨stk, root, .content raw⟩ raw = some stk') :
    step nc ⟨stk, root, .content raw⟩ '<' = some ⟨stk', root, .lt⟩ := by
  simp only [step]
  rw [if_pos trivial, hf]
  rfl

mutual
theorem bad_flat {nc : NameChars} (sc : Str → Bool → Bool) : (e : El) → Named nc e → QuotesRead e → ¬ Valued (fun v => '"' ∉ v) e →
    ∀ (stk stk' : List Frame) (root : Option El) (raw : Str), flush ⟨stk, root, .content raw⟩ raw = some stk' → (stk' = [] → root = none) →
    ∃ pre suf st E, flat etText etText sc e = pre ++ suf ∧ run nc ⟨stk, root, .content raw⟩ pre = some st ∧ snap st = snapGo stk' [E] ∧
      ¬ Grows E (blankEl e).toXml
  | .mk n as tx kids tl, hN, hQ, hV => by
    intro stk stk' root raw hf hroot
    have hsnap : ∀ m, snap ⟨stk', root, m⟩ = snapGo stk' (inTag m) := by
      intro m
      cases stk' with
      | nil => rw [hroot rfl]; rfl
      | cons f l => rfl
    cases hN with
    | mk _ _ _ _ _ hn ha hd hk _ _ _ =>
    cases hQ with
    | mk _ _ _ _ _ hq hqk =>
    by_cases hown : ∀ a ∈ as, '"' ∉ a.2
    · have hkids : ¬ ∀ k ∈ kids, Valued (fun v => '"' ∉ v) k := fun h => hV (.mk _ _ _ _ _ hown h)
      have hne : (sc n as.isEmpty && tx.isEmpty && kids.isEmpty) = false := by
        cases kids with
        | nil => exact absurd (by simp) hkids
        | cons k l => simp
      obtain ⟨pre, suf, st, K, h1, h2, h3, h4⟩ :=
        bad_flats sc kids hk hqk hkids ⟨n, as.map fun a => (a.1, a.2.map toBlank), [], []⟩ stk' root tx
      refine ⟨'<' :: (n ++ (attrText domData as ++ ('>' :: (etText tx ++ pre)))), suf ++ ('<' :: ('/' :: n ++ ['>'])), st,
        .node (keyOf n) (readAttrs (as.map fun a => (a.1, a.2.map toBlank))) [] K, ?_, ?_, ?_, ?_⟩
      · have := flat_decompose (eT := etText) (eA := etText) (sc := sc) n as tx kids tl [] hne
        rw [List.append_nil] at this
        rw [this, attrText_dom hown, h1]
        simp
      · rw [run_cons, step_lt hf]
        show run nc ⟨stk', root, .lt⟩ _ = _
        rw [run_name hn]
        show run nc ⟨stk', root, afterAttrs n []⟩ _ = _
        rw [run_attrs coding_q as ha _ _ _ _ (by simpa using hd), run_cons, step_attrs_gt, openEl_ok hroot]
        show run nc ⟨⟨n, _, [], []⟩ :: stk', root, .content []⟩ _ = _
        rw [run_content (coding_q.text tx).1, List.append_nil]
        exact h2
      · rw [h3]
        simp [El.toXmls]
      · intro hg
        rw [blankEl, El.map, El.toXml, Grows] at hg
        exact h4 hg.2
    · obtain ⟨bs, a, v, ds, rfl, hb, hv⟩ := split_attrs hown
      obtain ⟨v1, v2, rfl, hv1⟩ := split_quote hv
      have haN : XmlName nc a := ha (a, v1 ++ '"' :: v2) (by simp)
      have hd' : (bs.map Prod.fst ++ a :: ds.map Prod.fst).Nodup := by simpa using hd
      refine ⟨'<' :: (n ++ (attrText domData bs ++ (' ' :: a ++ '=' :: '"' :: domData v1 ++ ['"']))), ?_,
        ⟨stk', root, .closed n ((bs.map fun a => (a.1, a.2.map toBlank)) ++ [(a, v1.map toBlank)])⟩, _, ?_, ?_, hsnap _, ?_⟩
      · exact etText v2 ++ '"' :: (attrText etText ds ++
          (if sc n (bs ++ (a, v1 ++ '"' :: v2) :: ds).isEmpty && tx.isEmpty && kids.isEmpty then ['/', '>']
            else '>' :: etText tx ++ flats etText etText sc kids ++ '<' :: '/' :: n ++ ['>']))
      · rw [flat]
        have e1 : attrText etText (bs ++ (a, v1 ++ '"' :: v2) :: ds) = attrText domData bs ++ (' ' :: a ++ '=' :: '"' :: domData v1 ++ ['"']) ++
            (etText v2 ++ '"' :: attrText etText ds) := by
          have e2 : etText (v1 ++ '"' :: v2) = domData v1 ++ '"' :: etText v2 := by
            rw [← etText_dom hv1, etText_eq, etText_eq, etText_eq, List.flatMap_append]
            rfl
          rw [← attrText_dom hb]
          simp [attrText, e2]
        rw [e1]
        simp only [List.append_assoc, List.cons_append]
      · rw [run_cons, step_lt hf]
        show run nc ⟨stk', root, .lt⟩ _ = _
        rw [run_name hn]
        show run nc ⟨stk', root, afterAttrs n []⟩ _ = _
        have hd2 : (bs.map Prod.fst).Nodup := (List.nodup_append.1 hd').1
        have hd3 : a ∉ bs.map Prod.fst := fun hm => (List.nodup_append.1 hd').2.2 a hm a (by simp) rfl
        rw [run_attrs coding_q bs (fun b hb => ha b (by simp [hb])) _ _ _ _ (by simpa using hd2)]
        have h2 := run_attr (nc := nc) coding_q (v := v1) haN stk' root n ([] ++ bs.map fun a => (a.1, a.2.map toBlank)) (by simpa using hd3) []
        rw [h2, afterAttrs_snoc]
        rfl
      · intro hg
        have hx : isXmlns a = false := hq (a, v1 ++ '"' :: v2) (by simp) hv
        rw [blankEl, El.map, El.toXml, Grows] at hg
        have h1 := hg.1
        change readAttrs _ <+: readAttrs _ at h1
        rw [List.map_append, List.map_cons, readAttrs_append, readAttrs_append] at h1
        have h2 := (List.prefix_append_right_inj _).1 h1
        simp only [readAttrs, List.filter_cons, hx, Bool.not_false, if_true, List.filter_nil, List.map_cons, List.map_nil, List.cons_prefix_cons] at h2
        have h3 := congrArg (fun p : Key × Str => p.2.length) h2.1
        simp at h3
theorem bad_flats {nc : NameChars} (sc : Str → Bool → Bool) : (l : List El) → (∀ e ∈ l, Named nc e) → (∀ e ∈ l, QuotesRead e) →
    (¬ ∀ e ∈ l, Valued (fun v => '"' ∉ v) e) →
    ∀ (f : Frame) (stk : List Frame) (root : Option El) (t : Str),
    ∃ pre suf st K, flats etText etText sc l = pre ++ suf ∧ run nc ⟨f :: stk, root, .content (etText t).reverse⟩ pre = some st ∧
      snap st = snapGo stk [.node (keyOf f.name) (readAttrs f.attrs) [] (El.toXmls f.kids.reverse ++ K)] ∧
      ¬ GrowsAll K (El.toXmls (El.maps id (·.map toBlank) l))
  | [], _, _, hV => absurd (by simp) hV
  | e :: l, hN, hQ, hV => by
    intro f stk root t
    have hfl : flush ⟨f :: stk, root, .content (etText t).reverse⟩ (etText t).reverse = some (f.addText t :: stk) := by
      simp [flush, (coding_q.text t).2]
    by_cases he : Valued (fun v => '"' ∉ v) e
    · have hl : ¬ ∀ x ∈ l, Valued (fun v => '"' ∉ v) x := fun h => hV (by simpa [he] using h)
      obtain ⟨pre, suf, st, K, h1, h2, h3, h4⟩ := bad_flats sc l (fun x hx => hN x (by simp [hx])) (fun x hx => hQ x (by simp [hx])) hl
        { f.addText t with kids := (blankEl e).withTail [] :: (f.addText t).kids } stk root e.tail
      refine ⟨flat etText domData sc e ++ (etText e.tail ++ pre), suf, st, (blankEl e).toXml :: K, ?_, ?_, ?_, ?_⟩
      · rw [flats, flat_dom e he, h1]; simp
      · rw [run_flat coding_q sc e (hN e (by simp)) _ _ _ _ _ hfl (by simp)]
        show run nc ⟨_ :: stk, root, .content []⟩ _ = _
        rw [run_content (coding_q.text e.tail).1, List.append_nil]
        exact h2
      · rw [h3]
        have h5 : El.toXmls ((blankEl e).withTail [] :: (f.addText t).kids).reverse = El.toXmls f.kids.reverse ++ [(blankEl e).toXml] := by
          rw [List.reverse_cons, toXmls_map, toXmls_map, List.map_append]
          have : (f.addText t).kids.reverse.map El.toXml = f.kids.reverse.map El.toXml := by
            obtain ⟨n, as, tx, kids⟩ := f
            cases kids with
            | nil => rfl
            | cons x k => simp [Frame.addText, toXml_withTail]
          rw [this]
          simp [toXml_withTail]
        have h6 : (f.addText t).name = f.name ∧ (f.addText t).attrs = f.attrs := by
          obtain ⟨n, as, tx, kids⟩ := f
          cases kids <;> exact ⟨rfl, rfl⟩
        simp only [h5, h6.1, h6.2, List.append_assoc, List.singleton_append]
      · intro hg
        rw [El.maps, El.toXmls, GrowsAll] at hg
        exact h4 hg.2
    · obtain ⟨pre, suf, st, E, h1, h2, h3, h4⟩ := bad_flat sc e (hN e (by simp)) (hQ e (by simp)) he _ _ root _ hfl (by simp)
      refine ⟨pre, suf ++ (etText e.tail ++ flats etText etText sc l), st, [E], ?_, h2, ?_, ?_⟩
      · rw [flats, h1]; simp
      · rw [h3, snapGo_addText]; rfl
      · intro hg
        rw [El.maps, El.toXmls, GrowsAll] at hg
        exact h4 hg.1
end

/-! ### The whole file -/

theorem amp2_attrText {nc : NameChars} {R eA eA' : Str → Str} (hR : ∀ u r, '&' ∉ u → R (u ++ r) = u ++ R r)
    (hA : ∀ s r, R (eA s ++ r) = eA' s ++ R r) (as : List (Str × Str)) (ha : ∀ a ∈ as, XmlName nc a.1) (r : Str) :
    R (attrText eA as ++ r) = attrText eA' as ++ R r := by
  induction as with
  | nil => rfl
  | cons a as ih =>
    have e : ∀ eA r, attrText eA (a :: as) ++ r = (' ' :: a.1 ++ ['=', '"']) ++ (eA a.2 ++ (['"'] ++ (attrText eA as ++ r))) := by
      intro eA r; simp [attrText]
    have h1 : '&' ∉ ' ' :: a.1 ++ ['=', '"'] := by
      have := (ha a (by simp)).not_mem (c := '&') (by simp)
      simp [this]
    rw [e, hR _ _ h1, hA, hR _ _ (by simp), ih (fun b hb => ha b (by simp [hb])), e]

mutual
theorem amp2_flat {nc : NameChars} {R e1 e2 : Str → Str} {sc : Str → Bool → Bool} (hR : ∀ u r, '&' ∉ u → R (u ++ r) = u ++ R r)
    (hT : ∀ s r, R (e1 s ++ r) = e2 s ++ R r) : (e : El) → Named nc e → (rest : Str) → R (flat e1 e1 sc e ++ rest) = flat e2 e2 sc e ++ R rest
  | .mk n as tx kids tl, hN, rest => by
    cases hN with
    | mk _ _ _ _ _ hn ha hd hk _ _ _ =>
    have hamp : '&' ∉ n := hn.not_mem (by simp)
    cases hsc : (sc n as.isEmpty && tx.isEmpty && kids.isEmpty) with
    | true =>
      have e : ∀ eT r, flat eT eT sc (.mk n as tx kids tl) ++ r = ('<' :: n) ++ (attrText eT as ++ (['/', '>'] ++ r)) := by
        intro eT r; rw [flat, if_pos hsc]; simp
      rw [e, hR _ _ (by simp [hamp]), amp2_attrText hR hT as ha, hR _ _ (by simp), e]
    | false =>
      have e : ∀ eT r, flat eT eT sc (.mk n as tx kids tl) ++ r =
          ('<' :: n) ++ (attrText eT as ++ (['>'] ++ (eT tx ++ (flats eT eT sc kids ++ (('<' :: '/' :: n ++ ['>']) ++ r))))) := by
        intro eT r; rw [flat, hsc]; simp
      rw [e, hR _ _ (by simp [hamp]), amp2_attrText hR hT as ha, hR _ _ (by simp), hT, amp2_flats hR hT kids hk, hR _ _ (by simp [hamp]), e]
theorem amp2_flats {nc : NameChars} {R e1 e2 : Str → Str} {sc : Str → Bool → Bool} (hR : ∀ u r, '&' ∉ u → R (u ++ r) = u ++ R r)
    (hT : ∀ s r, R (e1 s ++ r) = e2 s ++ R r) : (l : List El) → (∀ e ∈ l, Named nc e) → (rest : Str) →
    R (flats e1 e1 sc l ++ rest) = flats e2 e2 sc l ++ R rest
  | [], _, rest => by simp [flats]
  | e :: l, h, rest => by
    have e3 : ∀ eT r, flats eT eT sc (e :: l) ++ r = flat eT eT sc e ++ (eT e.tail ++ (flats eT eT sc l ++ r)) := by intro eT r; rw [flats]; simp
    rw [e3, amp2_flat hR hT e (h e (by simp)), hT, amp2_flats hR hT l (fun x hx => h x (by simp [hx])), e3]
end

/-- what `patch_xml` makes of a file with the option `unescape_entities` -/
theorem patch_quoted {py : Py} {nc : NameChars} (e : El) (he : Named nc e) :
    patchXml py true (domHead ++ (flat domData domData always e ++ ['\n'])) = domHead ++ (flat etText etText (unpatched py) e ++ ['\n']) := by
  have h1 := patch_flat (py := py) false e he (by simp)
  have h0 : patchXml py true (domHead ++ (flat domData domData always e ++ ['\n'])) = replaceAll "&apos;".toList ['\'']
      (replaceAll "&quot;".toList ['"'] (patchXml py false (domHead ++ (flat domData domData always e ++ ['\n'])))) := rfl
  have hR : ∀ (x y u r : Str), '&' ∉ u → replaceAll ('&' :: x) y (u ++ r) = u ++ replaceAll ('&' :: x) y r := fun x y u r h => replaceAll_plain h r
  rw [h0, h1]
  simp only [Bool.false_eq_true, if_false]
  rw [show "&quot;".toList = '&' :: "quot;".toList from rfl, hR _ _ _ _ (by decide)]
  rw [amp2_flat (R := replaceAll ('&' :: "quot;".toList) ['"']) (hR _ _) quot_text e he]
  have e2 : replaceAll ('&' :: "quot;".toList) ['"'] ['\n'] = ['\n'] := rfl
  rw [e2, show "&apos;".toList = '&' :: "apos;".toList from rfl, hR _ _ _ _ (by decide)]
  rw [amp2_flat (R := replaceAll ('&' :: "apos;".toList) ['\'']) (hR _ _) apos_text e he]
  rfl

/-- a quotation mark in an attribute value: the tree is not read -/
theorem parse_quoted {nc : NameChars} (sc : Str → Bool → Bool) (e : El) (he : Named nc e) (hQ : QuotesRead (El.map newlines newlines e))
    (hV : ¬ Valued (fun v => '"' ∉ v) (El.map newlines newlines e)) :
    parseFile nc (domHead ++ (flat etText etText sc e ++ ['\n'])) ≠ some (blankEl (El.map newlines newlines e)).toXml := by
  have hN := named_map newlines_chars newlines_chars e he
  have hnl : newlines (domHead ++ (flat etText etText sc e ++ ['\n'])) = domHead ++ (flat etText etText sc (El.map newlines newlines e) ++ ['\n']) := by
    rw [newlines_prefix (by decide), newlines_flat newlines_etText (fun s => newlines_nil) newlines_etText e he]
    rfl
  have hall : (domHead ++ (flat etText etText sc (El.map newlines newlines e) ++ ['\n'])).all xmlChar = true := by
    rw [List.all_append, List.all_append]
    simp only [Bool.and_eq_true]
    refine ⟨by decide, ?_, by decide⟩
    rw [List.all_eq_true]; exact flat_chars etText_chars etText_chars _ hN
  have hsk : skipDecl (domHead ++ (flat etText etText sc (El.map newlines newlines e) ++ ['\n'])) =
      some ('\n' :: (flat etText etText sc (El.map newlines newlines e) ++ ['\n'])) := rfl
  intro h
  unfold parseFile parseXml at h
  simp only at h
  rw [hnl, if_pos hall, hsk] at h
  change ((run nc ⟨[], none, .content []⟩ ('\n' :: _)).bind finish).map El.toXml = _ at h
  have h1 := run_content (nc := nc) (u := ['\n']) (by decide) [] none [] (flat etText etText sc (El.map newlines newlines e) ++ ['\n'])
  rw [List.singleton_append] at h1
  rw [h1] at h
  obtain ⟨pre, suf, st, E, h2, h3, h4, h5⟩ := bad_flat (nc := nc) sc _ hN hQ hV [] [] none (['\n'].reverse ++ []) (by rfl) (fun _ => rfl)
  rw [h2, List.append_assoc, run_append, h3, Option.bind_some] at h
  cases hr : run nc st (suf ++ ['\n']) with
  | none => rw [hr] at h; cases h
  | some st' =>
    rw [hr, Option.bind_some] at h
    cases hfin : finish st' with
    | none => rw [hfin] at h; cases h
    | some r =>
      rw [hfin, Option.map_some] at h
      have h6 := run_grows _ hr
      rw [h4, finish_snap hfin, Option.some.inj h] at h6
      simp only [snapGo, GrowsAll] at h6
      exact h5 h6.1

/-! ### From the tree -/

mutual
theorem quotesRead_map {f g : Str → Str} (hg : ∀ s, '"' ∈ g s → '"' ∈ s) : (e : El) → QuotesRead e → QuotesRead (El.map f g e)
  | .mk n as tx kids tl, h => by
    cases h with
    | mk _ _ _ _ _ h1 h2 =>
      rw [El.map]
      refine .mk _ _ _ _ _ ?_ (quotesRead_maps hg kids h2)
      intro a ha hq
      obtain ⟨b, hb, rfl⟩ := List.mem_map.1 ha
      exact h1 b hb (hg _ hq)
theorem quotesRead_maps {f g : Str → Str} (hg : ∀ s, '"' ∈ g s → '"' ∈ s) : (l : List El) → (∀ e ∈ l, QuotesRead e) → ∀ e ∈ El.maps f g l, QuotesRead e
  | [], _ => by intro e he; cases he
  | x :: l, h => by
    intro e he
    rcases List.mem_cons.1 he with rfl | he
    · exact quotesRead_map hg x (h x (by simp))
    · exact quotesRead_maps hg l (fun y hy => h y (by simp [hy])) e he
end

mutual
theorem quotesRead_lay {ind : Str} : (e : El) → QuotesRead e → QuotesRead (lay ind e)
  | .mk n as tx [] tl, h => by
    rw [lay]
    cases h with
    | mk _ _ _ _ _ h1 h2 => exact .mk _ _ _ _ _ h1 h2
  | .mk n as tx (e :: l) tl, h => by
    rw [lay]
    cases h with
    | mk _ _ _ _ _ h1 h2 => exact .mk _ _ _ _ _ h1 (quotesRead_lays (e :: l) h2)
theorem quotesRead_lays {ind out : Str} : (l : List El) → (∀ e ∈ l, QuotesRead e) → ∀ e ∈ lays ind out l, QuotesRead e
  | [], _ => by intro e he; cases he
  | x :: l, h => by
    intro e he
    rw [lays] at he
    rcases List.mem_cons.1 he with rfl | he
    · have := quotesRead_lay (ind := ind) x (h x (by simp))
      generalize lay ind x = y at this
      cases this with
      | mk _ _ _ _ _ h1 h2 => exact .mk _ _ _ _ _ h1 h2
    · exact quotesRead_lays l (fun y hy => h y (by simp [hy])) e he
end

theorem quotesRead_toEl {nc : NameChars} {x : Xml} (h : Every (GoodNames nc) x) : QuotesRead x.toEl := by
  induction h with
  | node t as s kids hp hk ih =>
    rw [Xml.toEl]
    refine .mk _ _ _ _ _ ?_ ?_
    · intro a ha _
      obtain ⟨b, hb, rfl⟩ := List.mem_map.1 ha
      exact isXmlns_false (hp.2.1 b hb).2.1 (hp.2.1 b hb).2.2
    · intro k h
      rw [toEls_map] at h
      obtain ⟨y, hy, rfl⟩ := List.mem_map.1 h
      exact ih y hy

theorem quotesRead_namespaces {e : El} (h : QuotesRead e) : QuotesRead e.withNamespaces := by
  cases h with
  | mk n as tx kids tl h1 h2 =>
    refine .mk _ _ _ _ _ ?_ h2
    intro a ha hq
    rcases List.mem_append.1 ha with ha | ha
    · have : ∀ a ∈ namespaces, '"' ∉ a.2 := by decide
      exact absurd hq (this a ha)
    · exact h1 a ha hq

theorem newlines_quote {s : Str} (h : '"' ∈ s) : '"' ∈ newlines s := by
  fun_induction newlines s with
  | case1 => cases h
  | case2 s ih =>
    simp only [List.mem_cons] at h ⊢
    rcases h with h | h | h
    · exact absurd h (by decide)
    · exact absurd h (by decide)
    · exact .inr (ih h)
  | case3 s _ ih =>
    simp only [List.mem_cons] at h ⊢
    rcases h with h | h
    · exact absurd h (by decide)
    · exact .inr (ih h)
  | case4 d s _ hd ih =>
    simp only [List.mem_cons] at h ⊢
    rcases h with h | h
    · exact .inl h
    · exact .inr (ih h)

mutual
theorem unvalued_map {f g : Str → Str} (hg : ∀ s, '"' ∈ s → '"' ∈ g s) : (e : El) → Valued (fun v => '"' ∉ v) (El.map f g e) → Valued (fun v => '"' ∉ v) e
  | .mk n as tx kids tl, h => by
    rw [El.map] at h
    cases h with
    | mk _ _ _ _ _ h1 h2 =>
      refine .mk _ _ _ _ _ ?_ (unvalued_maps hg kids h2)
      intro a ha hq
      exact h1 (a.1, g a.2) (List.mem_map.2 ⟨a, ha, rfl⟩) (hg _ hq)
theorem unvalued_maps {f g : Str → Str} (hg : ∀ s, '"' ∈ s → '"' ∈ g s) : (l : List El) → (∀ e ∈ El.maps f g l, Valued (fun v => '"' ∉ v) e) →
    ∀ e ∈ l, Valued (fun v => '"' ∉ v) e
  | [], _ => by intro e he; cases he
  | x :: l, h => by
    intro e he
    rw [El.maps] at h
    rcases List.mem_cons.1 he with he | he
    · rw [he]; exact unvalued_map (f := f) hg x (h _ (by simp))
    · exact unvalued_maps (f := f) hg l (fun y hy => h y (by simp [hy])) e he
end

mutual
theorem unvalued_lay {P : Str → Prop} {ind : Str} : (e : El) → Valued P (lay ind e) → Valued P e
  | .mk n as tx [] tl, h => by
    rw [lay] at h
    cases h with
    | mk _ _ _ _ _ h1 h2 => exact .mk _ _ _ _ _ h1 h2
  | .mk n as tx (e :: l) tl, h => by
    rw [lay] at h
    cases h with
    | mk _ _ _ _ _ h1 h2 => exact .mk _ _ _ _ _ h1 (unvalued_lays (e :: l) h2)
theorem unvalued_lays {P : Str → Prop} {ind out : Str} : (l : List El) → (∀ e ∈ lays ind out l, Valued P e) → ∀ e ∈ l, Valued P e
  | [], _ => by intro e he; cases he
  | x :: l, h => by
    intro e he
    rw [lays] at h
    rcases List.mem_cons.1 he with he | he
    · rw [he]
      have h1 := h _ (List.mem_cons_self ..)
      refine unvalued_lay (ind := ind) x ?_
      generalize lay ind x = y at h1 ⊢
      obtain ⟨n, as, tx, kids, tl⟩ := y
      cases h1 with
      | mk _ _ _ _ _ h1 h2 => exact .mk _ _ _ _ _ h1 h2
    · exact unvalued_lays (ind := ind) (out := out) l (fun y hy => h y (by simp [hy])) e he
end

mutual
theorem unvalued_toEl : (x : Xml) → Valued (fun v => '"' ∉ v) x.toEl → Every Unquoted x
  | .node t as s kids, h => by
    rw [Xml.toEl] at h
    cases h with
    | mk _ _ _ _ _ h1 h2 =>
      refine .node _ _ _ _ ?_ (unvalued_toEls kids h2)
      intro a ha
      exact h1 (keyName a.1, a.2) (List.mem_map.2 ⟨a, ha, rfl⟩)
theorem unvalued_toEls : (l : List Xml) → (∀ e ∈ Xml.toEls l, Valued (fun v => '"' ∉ v) e) → ∀ x ∈ l, Every Unquoted x
  | [], _ => by intro e he; cases he
  | y :: l, h => by
    intro x hx
    rw [Xml.toEls] at h
    rcases List.mem_cons.1 hx with hx | hx
    · rw [hx]; exact unvalued_toEl y (h _ (by simp))
    · exact unvalued_toEls l (fun z hz => h z (by simp [hz])) x hx
end

/-- **A quotation mark in an attribute value.**  With the option `unescape_entities`, another tree is read, or none. -/
theorem file_quoted {py : Py} {nc : NameChars} {x : Xml} (h : Writable nc x) (hq : ¬ Every Unquoted x) :
    (saveToFile py nc true x).bind (parseFile nc) ≠ some (laid 0 x) := by
  have hN := named_map (g := id) newlines_chars (fun s hs => hs) _ (named_namespaces h)
  have hL := named_lay (ind := []) (by simp) _ hN
  have hw := domWrite_eq [] (by simp) (El.map newlines id x.toEl.withNamespaces)
  have hQ : QuotesRead (El.map newlines newlines (lay [] (El.map newlines id x.toEl.withNamespaces))) := by
    refine quotesRead_map (fun s hs => ?_) _ (quotesRead_lay _ (quotesRead_map (fun s hs => hs) _ (quotesRead_namespaces (quotesRead_toEl h.1))))
    rcases newlines_mem hs with h | h
    · exact absurd h (by decide)
    · exact h
  have hV : ¬ Valued (fun v => '"' ∉ v) (El.map newlines newlines (lay [] (El.map newlines id x.toEl.withNamespaces))) := by
    intro hv
    have h1 := unvalued_map (fun s hs => hs) _ (unvalued_lay _ (unvalued_map (fun s hs => newlines_quote hs) _ hv))
    refine hq (unvalued_toEl x ?_)
    generalize x.toEl = e at h1
    obtain ⟨n, as, tx, kids, tl⟩ := e
    cases h1 with
    | mk _ _ _ _ _ h2 h3 => exact .mk _ _ _ _ _ (fun a ha => h2 a (List.mem_append.2 (.inr ha))) h3
  have hp := parse_quoted (nc := nc) (unpatched py) _ hL hQ hV
  have hgood := file_read (py := py) false h (by simp)
  have hsame : parseFile nc (domHead ++ (flat domData domData (unpatched py) (lay [] (El.map newlines id x.toEl.withNamespaces)) ++ ['\n'])) =
      some (blankEl (El.map newlines newlines (lay [] (El.map newlines id x.toEl.withNamespaces)))).toXml := by
    unfold parseFile
    rw [parse_flat coding_dom _ newlines_domData (fun s => newlines_nil) newlines_domData domData_chars domData_chars newlines_chars newlines_chars
        (.inr rfl) (.inr rfl) _ hL, Option.map_some, toXml_withTail]
  unfold saveToFile at hgood ⊢
  rw [dom_read h, Option.map_some, Option.bind_some, hw, List.nil_append] at hgood ⊢
  rw [patch_flat false _ hL (by simp)] at hgood
  simp only [Bool.false_eq_true, if_false] at hgood
  rw [patch_quoted _ hL, ← hgood, hsame]
  exact hp

end Verif.Lemmas
