import Verif.Lemmas.FormatRun
/-!
# Formatting: the tree that is read again
-/
namespace Verif.Lemmas
open Verif Verif.Model Verif.Spec

/-! ### Attributes in the order of `minidom` -/

theorem nsAttrs_perm (as : List (Str × Str)) : (nsAttrs as).Perm as := by
  unfold nsAttrs
  have h := List.filter_append_perm (fun a : Str × Str => isXmlns a.1) as
  simpa using h

theorem nsAttrs_map (g : Str → Str) (as : List (Str × Str)) : nsAttrs (as.map fun a => (a.1, g a.2)) = (nsAttrs as).map fun a => (a.1, g a.2) := by
  unfold nsAttrs
  rw [List.map_append, List.filter_map, List.filter_map]
  rfl

theorem nsAttrs_idem (as : List (Str × Str)) : nsAttrs (nsAttrs as) = nsAttrs as := by
  unfold nsAttrs
  simp only [List.filter_append, List.filter_filter]
  simp

theorem doms_map (l : List El) : El.doms l = l.map El.dom := by
  induction l with
  | nil => rfl
  | cons e l ih => simp [El.doms, ih]

theorem dom_tail (e : El) : e.dom.tail = e.tail := by cases e; rfl

mutual
theorem named_dom {nc : NameChars} : (e : El) → Named nc e → Named nc e.dom
  | .mk n as tx kids tl, h => by
    cases h with
    | mk _ _ _ _ _ h1 h2 h3 h4 h5 h6 h7 =>
      rw [El.dom]
      refine .mk _ _ _ _ _ h1 ?_ ?_ (named_doms kids h4) ?_ h6 h7
      · exact fun a ha => h2 a ((nsAttrs_perm as).mem_iff.1 ha)
      · exact (((nsAttrs_perm as).map Prod.fst).nodup_iff).2 h3
      · exact fun a ha => h5 a ((nsAttrs_perm as).mem_iff.1 ha)
theorem named_doms {nc : NameChars} : (l : List El) → (∀ e ∈ l, Named nc e) → ∀ e ∈ El.doms l, Named nc e
  | [], _ => by intro e he; cases he
  | x :: l, h => by
    intro e he
    rw [El.doms] at he
    rcases List.mem_cons.1 he with rfl | he
    · exact named_dom x (h x (by simp))
    · exact named_doms l (fun y hy => h y (by simp [hy])) e he
end

theorem dom_withTail (e : El) (t : Str) : (e.withTail t).dom = e.dom.withTail t := by cases e; rfl

mutual
theorem dom_map (f g : Str → Str) : (e : El) → (El.map f g e).dom = El.map f g e.dom
  | .mk n as tx kids tl => by
    rw [El.map, El.dom, El.dom, El.map, nsAttrs_map, doms_maps f g kids]
theorem doms_maps (f g : Str → Str) : (l : List El) → El.doms (El.maps f g l) = El.maps f g (El.doms l)
  | [] => rfl
  | e :: l => by rw [El.maps, El.doms, El.doms, El.maps, dom_map f g e, doms_maps f g l]
end

mutual
theorem dom_lay (ind : Str) : (e : El) → (lay ind e).dom = lay ind e.dom
  | .mk n as tx [] tl => by rw [lay, El.dom, El.dom, El.doms, lay]
  | .mk n as tx (e :: l) tl => by
    rw [lay, El.dom, doms_lays, El.dom, El.doms, lay]
theorem doms_lays (ind out : Str) : (l : List El) → El.doms (lays ind out l) = lays ind out (El.doms l)
  | [] => rfl
  | e :: l => by
    have : (El.doms l).isEmpty = l.isEmpty := by cases l <;> rfl
    rw [lays, El.doms, dom_withTail, dom_lay, doms_lays, El.doms, lays, dom_tail, this]
end

mutual
theorem dom_dom : (e : El) → e.dom.dom = e.dom
  | .mk n as tx kids tl => by rw [El.dom, El.dom, nsAttrs_idem, doms_doms kids]
theorem doms_doms : (l : List El) → El.doms (El.doms l) = El.doms l
  | [] => rfl
  | e :: l => by rw [El.doms, El.doms, dom_dom e, doms_doms l]
end

/-! ### The file and the tree that is read from it -/

/-- the tree of the formatted file -/
def formatted (py : Py) (ind : Str) (e : El) : El := El.map (squeezed py) (squeezed py) (lay ind e.dom)

theorem formatXml_eq {py : Py} {nc : NameChars} (hnc : OneLineNames nc) {s : Str} {e : El} (h : parseXml nc.plain s = some e) :
    formatXml py nc s = some (domHead ++ (flat domData domData (unpatched py) (formatted py [] e) ++ ['\n'])) := by
  have hN := named_lay (nc := nc) (ind := []) (by simp) _ (named_dom e (named_of_plain (parsed_named h)))
  unfold formatXml
  rw [h, Option.map_some, domWrite_eq [] (by simp), List.nil_append, patch_flat false _ hN (fun h => by cases h)]
  simp only [Bool.false_eq_true, if_false]
  rw [trim_file hnc _ _ hN]
  rfl

theorem formatted_named {py : Py} {nc : NameChars} {e : El} (h : Named nc e) : Named nc (formatted py [] e) :=
  named_map (squeezed_chars py) (squeezed_chars py) _ (named_lay (by simp) _ (named_dom e h))

theorem newlines_squeezed (py : Py) (s : Str) : newlines (squeezed py s) = squeezed py s := by
  refine newlines_plain fun h => ?_
  have := squeezed_ends py s _ h (by decide)
  revert this
  decide

mutual
theorem map_map (f g f' g' : Str → Str) : (e : El) → El.map f g (El.map f' g' e) = El.map (f ∘ f') (g ∘ g') e
  | .mk n as tx kids tl => by
    rw [El.map, El.map, El.map, maps_maps f g f' g' kids, List.map_map]
    rfl
theorem maps_maps (f g f' g' : Str → Str) : (l : List El) → El.maps f g (El.maps f' g' l) = El.maps (f ∘ f') (g ∘ g') l
  | [] => rfl
  | e :: l => by rw [El.maps, El.maps, El.maps, map_map f g f' g' e, maps_maps f g f' g' l]
end

theorem lay_tail (ind : Str) (e : El) : (lay ind e).tail = [] := by
  obtain ⟨n, as, tx, kids, tl⟩ := e
  cases kids <;> rw [lay] <;> rfl

theorem withTail_self {e : El} {t : Str} (h : e.tail = t) : e.withTail t = e := by
  cases e; cases h; rfl

/-- what is read from the formatted file -/
theorem parse_formatted {py : Py} {nc : NameChars} {e : El} (h : Named nc e) :
    parseXml nc (domHead ++ (flat domData domData (unpatched py) (formatted py [] e) ++ ['\n'])) =
      some (El.map (squeezed py) (fun v => flatValue (squeezed py v)) (lay [] e.dom)) := by
  rw [parse_flat coding_dom (unpatched py) newlines_domData (fun _ => newlines_nil) newlines_domData domData_chars domData_chars newlines_chars newlines_chars
    (.inr rfl) (.inr rfl) _ (formatted_named h), formatted, map_map, map_map]
  have h1 : (id ∘ newlines) ∘ squeezed py = squeezed py := by funext s; exact newlines_squeezed py s
  have h2 : ((·.map toBlank) ∘ newlines) ∘ squeezed py = fun v => flatValue (squeezed py v) := by
    funext v; simp only [Function.comp]; exact flatValue_eq _
  rw [h1, h2]
  rw [withTail_self]
  rw [El.map_tail, lay_tail]
  rfl

/-! ### Compared to the tree before -/

theorem indent_eq (d : Nat) : List.replicate (2 * d) ' ' ++ [' ', ' '] = List.replicate (2 * (d + 1)) ' ' := by
  have : 2 * (d + 1) = 2 * d + 2 := by omega
  rw [this, List.replicate_add]
  rfl

theorem replicate_blank (n : Nat) : ∀ c ∈ List.replicate n ' ', c = ' ' := fun _ h => List.eq_of_mem_replicate h

theorem lays_length (ind out : Str) (l : List El) : (lays ind out l).length = l.length := by
  induction l with
  | nil => rfl
  | cons e l ih => simp [lays, ih]

theorem lays_get (ind out : Str) (l : List El) (i : Nat) (k : El) (h : l[i]? = some k) :
    (lays ind out l)[i]? = some ((lay ind k).withTail ('\n' :: textPart ind k.tail ++ (if i + 1 = l.length then out else ind))) := by
  induction l generalizing i with
  | nil => cases h
  | cons e l ih =>
    cases i with
    | zero =>
      simp only [List.getElem?_cons_zero, Option.some.injEq] at h
      subst h
      rw [lays, List.getElem?_cons_zero]
      cases l with
      | nil => rfl
      | cons a l => simp
    | succ i =>
      rw [List.getElem?_cons_succ] at h
      rw [lays, List.getElem?_cons_succ, ih i h]
      simp

theorem maps_eq (f g : Str → Str) (l : List El) : El.maps f g l = l.map (El.map f g) := by
  induction l with
  | nil => rfl
  | cons e l ih => simp [El.maps, ih]

theorem map_withTail (f g : Str → Str) (e : El) (t : Str) : El.map f g (e.withTail t) = (El.map f g e).withTail (f t) := by cases e; rfl

theorem formatted_withTail {py : Py} {d : Nat} {e e' : El} (h : Formatted py d e e') (t : Str) : Formatted py d e (e'.withTail t) := by
  cases h with
  | leaf _ n as as' tx tl tl' h => exact .leaf _ _ _ _ _ _ _ h
  | node _ n as as' tx tx' kids kids' tl tl' h1 h2 h3 h4 h5 h6 h7 h8 => exact .node _ _ _ _ _ _ _ _ _ _ h1 h2 h3 h4 h5 h6 h7 h8

/-- induction over elements -/
theorem el_induct {P : El → Prop} (h : ∀ n as tx kids tl, (∀ k ∈ kids, P k) → P (.mk n as tx kids tl)) (e : El) : P e := by
  have key : ∀ m : Nat, ∀ e : El, sizeOf e < m → P e := by
    intro m
    induction m with
    | zero => intro e he; omega
    | succ m ih =>
      rintro ⟨n, as, tx, kids, tl⟩ he
      refine h n as tx kids tl fun k hk => ih k ?_
      have := List.sizeOf_lt_of_mem hk
      simp only [El.mk.sizeOf_spec] at he
      omega
  exact key _ e (Nat.lt_succ_self _)

theorem formatted_read (py : Py) (e : El) : ∀ d : Nat,
    Formatted py d e (El.map (squeezed py) (fun v => flatValue (squeezed py v)) (lay (List.replicate (2 * d) ' ') e.dom)) := by
  induction e using el_induct with
  | h n as tx kids tl ih =>
    intro d
    have hattr : (as.map fun a => (a.1, flatValue (squeezed py a.2))).Perm ((nsAttrs as).map fun a => (a.1, flatValue (squeezed py a.2))) :=
      (nsAttrs_perm as).symm.map _
    cases kids with
    | nil =>
      rw [El.dom, El.doms, lay, El.map, El.maps]
      exact .leaf _ _ _ _ _ _ _ hattr
    | cons e l =>
      have hi := replicate_blank (2 * d)
      have hi' := replicate_blank (2 * (d + 1))
      rw [El.dom]
      have hl : lay (List.replicate (2 * d) ' ') (El.mk n (nsAttrs as) tx (El.doms (e :: l)) tl) =
          .mk n (nsAttrs as) ('\n' :: textPart (List.replicate (2 * (d + 1)) ' ') tx ++ List.replicate (2 * (d + 1)) ' ')
            (lays (List.replicate (2 * (d + 1)) ' ') (List.replicate (2 * d) ' ') ((e :: l).map El.dom)) [] := by
        rw [← doms_map, El.doms, lay, indent_eq]
      rw [hl, El.map, maps_eq]
      have get : ∀ (i : Nat) (k k' : El), (e :: l)[i]? = some k →
          ((lays (List.replicate (2 * (d + 1)) ' ') (List.replicate (2 * d) ' ') ((e :: l).map El.dom)).map
            (El.map (squeezed py) fun v => flatValue (squeezed py v)))[i]? = some k' →
          k' = (El.map (squeezed py) (fun v => flatValue (squeezed py v)) (lay (List.replicate (2 * (d + 1)) ' ') k.dom)).withTail
            (squeezed py ('\n' :: textPart (List.replicate (2 * (d + 1)) ' ') k.tail ++
              (if i + 1 = (e :: l).length then List.replicate (2 * d) ' ' else List.replicate (2 * (d + 1)) ' '))) := by
        intro i k k' hk hk'
        have := lays_get (List.replicate (2 * (d + 1)) ' ') (List.replicate (2 * d) ' ') ((e :: l).map El.dom) i k.dom (by rw [List.getElem?_map, hk]; rfl)
        rw [List.getElem?_map, this, Option.map_some, Option.some.injEq, map_withTail, dom_tail, List.length_map] at hk'
        exact hk'.symm
      refine .node _ _ _ _ _ _ _ _ _ _ hattr (visible_around py hi' hi' tx) ?_ (by simp) ?_ ?_ ?_ ?_
      · intro h
        rw [around_blank py hi' hi' h]
        rfl
      · rw [List.length_map, lays_length, List.length_map]
      · intro i k k' hk hk'
        rw [get i k k' hk hk']
        exact formatted_withTail (ih k (List.mem_of_getElem? hk) (d + 1)) _
      · intro i k k' hk hk'
        rw [get i k k' hk hk', withTail_tail]
        split
        · exact visible_around py hi' hi _
        · exact visible_around py hi' hi' _
      · intro i k k' hk hk' hv
        rw [get i k k' hk hk', withTail_tail]
        split
        · exact around_blank py hi' hi hv
        · exact around_blank py hi' hi' hv

/-! ### Formatting twice -/

mutual
theorem lay_again (py : Py) {ind : Str} (hi : ∀ c ∈ ind, c = ' ') : (e : El) →
    El.map (squeezed py) (squeezed py) (lay ind (El.map (squeezed py) (squeezed py) (lay ind e))) = El.map (squeezed py) (squeezed py) (lay ind e)
  | .mk n as tx [] tl => by
    simp only [lay, El.map, El.maps, List.map_map, squeezed_idem]
    congr 1
    refine List.map_congr_left fun a _ => ?_
    simp [squeezed_idem]
  | .mk n as tx (e :: l) tl => by
    have h := lays_again py (deeper hi) hi (e :: l)
    rw [lay, El.map]
    rw [lays, El.maps] at h ⊢
    rw [lay, El.map, h, around_again py (deeper hi) (deeper hi)]
    have : ∀ a : List (Str × Str), (a.map fun a => (a.1, squeezed py a.2)).map (fun a => (a.1, squeezed py a.2)) = a.map fun a => (a.1, squeezed py a.2) := by
      intro a
      rw [List.map_map]
      refine List.map_congr_left fun a _ => ?_
      simp [squeezed_idem]
    rw [this]
theorem lays_again (py : Py) {ind out : Str} (hi : ∀ c ∈ ind, c = ' ') (ho : ∀ c ∈ out, c = ' ') : (l : List El) →
    El.maps (squeezed py) (squeezed py) (lays ind out (El.maps (squeezed py) (squeezed py) (lays ind out l))) = El.maps (squeezed py) (squeezed py) (lays ind out l)
  | [] => rfl
  | e :: l => by
    have h1 := lay_again py hi e
    have h2 := lays_again py hi ho l
    have hemp : (El.maps (squeezed py) (squeezed py) (lays ind out l)).isEmpty = l.isEmpty := by
      rw [maps_isEmpty]; cases l <;> rfl
    rw [lays, El.maps, lays, El.maps, h2, hemp, map_withTail, map_withTail, withTail_tail]
    have hl : ∀ (x : El) (t : Str), lay ind (x.withTail t) = lay ind x := by
      rintro ⟨n, as, tx, kids, tl⟩ t
      cases kids <;> rw [El.withTail, lay, lay]
    rw [hl, h1]
    congr 2
    split
    · exact around_again py hi ho _
    · exact around_again py hi hi _
end

theorem formatted_again (py : Py) (e : El) : formatted py [] (formatted py [] e) = formatted py [] e := by
  unfold formatted
  rw [dom_map, dom_lay, dom_dom]
  exact lay_again py (by simp) _

/-! ### Documents whose texts stay the same -/

theorem flatValue_oneLine {v : Str} (h : OneLine v) : flatValue v = v := by
  unfold flatValue
  rw [newlines_plain fun hc => (h _ hc).2 (by decide)]
  conv => rhs; rw [← List.map_id v]
  refine List.map_congr_left fun c hc => ?_
  have h1 := (h c hc).1
  have h2 : c ≠ '\n' := fun e => (h c hc).2 (by rw [e]; decide)
  simp [h1, h2]

theorem everyEl_attrs {e : El} (h : EveryEl PlainAttrs e) : EveryEl PlainAttrs e.dom := by
  induction h with
  | mk n as tx kids tl h1 _ ih =>
    rw [El.dom]
    refine .mk _ _ _ _ _ (fun a ha => h1 a ((nsAttrs_perm as).mem_iff.1 ha)) ?_
    intro k hk
    rw [doms_map] at hk
    obtain ⟨x, hx, rfl⟩ := List.mem_map.1 hk
    exact ih x hx

theorem everyEl_withTail {P : El → Prop} (hP : ∀ e t, P e → P (e.withTail t)) {e : El} (h : EveryEl P e) (t : Str) : EveryEl P (e.withTail t) := by
  cases h with
  | mk n as tx kids tl h1 h2 => exact .mk _ _ _ _ _ (hP _ t h1) h2

mutual
theorem everyEl_lay {ind : Str} : (e : El) → EveryEl PlainAttrs e → EveryEl PlainAttrs (lay ind e)
  | .mk n as tx [] tl, h => by
    rw [lay]
    cases h with
    | mk _ _ _ _ _ h1 h2 => exact .mk _ _ _ _ _ h1 h2
  | .mk n as tx (e :: l) tl, h => by
    rw [lay]
    cases h with
    | mk _ _ _ _ _ h1 h2 => exact .mk _ _ _ _ _ h1 (everyEl_lays (e :: l) h2)
theorem everyEl_lays {ind out : Str} : (l : List El) → (∀ e ∈ l, EveryEl PlainAttrs e) → ∀ e ∈ lays ind out l, EveryEl PlainAttrs e
  | [], _ => by intro e he; cases he
  | x :: l, h => by
    intro e he
    rw [lays] at he
    rcases List.mem_cons.1 he with rfl | he
    · exact everyEl_withTail (fun e t h => by cases e; exact h) (everyEl_lay x (h x (by simp))) _
    · exact everyEl_lays l (fun y hy => h y (by simp [hy])) e he
end

mutual
theorem map_attrs {f g g' : Str → Str} (hg : ∀ v, OneLine v → g v = g' v) : (e : El) → EveryEl PlainAttrs e → El.map f g e = El.map f g' e
  | .mk n as tx kids tl, h => by
    cases h with
    | mk _ _ _ _ _ h1 h2 =>
      rw [El.map, El.map, maps_attrs hg kids h2]
      congr 1
      refine List.map_congr_left fun a ha => ?_
      rw [hg a.2 (h1 a ha)]
theorem maps_attrs {f g g' : Str → Str} (hg : ∀ v, OneLine v → g v = g' v) : (l : List El) → (∀ e ∈ l, EveryEl PlainAttrs e) → El.maps f g l = El.maps f g' l
  | [], _ => rfl
  | e :: l, h => by rw [El.maps, El.maps, map_attrs hg e (h e (by simp)), maps_attrs hg l fun x hx => h x (by simp [hx])]
end

theorem read_plain {py : Py} {e : El} (h : EveryEl PlainAttrs e) :
    El.map (squeezed py) (fun v => flatValue (squeezed py v)) (lay [] e.dom) = formatted py [] e := by
  refine map_attrs (fun v hv => ?_) _ (everyEl_lay _ (everyEl_attrs h))
  rw [squeezed_oneLine py fun c hc => (hv c hc).2, flatValue_oneLine hv]

theorem sameData_of {py : Py} {d : Nat} {e e' : El} (h : Formatted py d e e') : EveryEl PlainAttrs e → EveryEl (PlainLeaf py) e → SameData e e' := by
  have attrs : ∀ {as as' : List (Str × Str)}, (as.map fun a => (a.1, flatValue (squeezed py a.2))).Perm as' → (∀ a ∈ as, OneLine a.2) → as.Perm as' := by
    intro as as' hp ha
    have : (as.map fun a => (a.1, flatValue (squeezed py a.2))) = as := by
      conv => rhs; rw [← List.map_id as]
      refine List.map_congr_left fun a h => ?_
      rw [squeezed_oneLine py fun c hc => (ha a h c hc).2, flatValue_oneLine (ha a h)]
      rfl
    rwa [this] at hp
  induction h with
  | leaf d n as as' tx tl tl' hp =>
    intro ha hl
    cases ha with
    | mk _ _ _ _ _ h1 _ =>
    cases hl with
    | mk _ _ _ _ _ h2 _ =>
    exact .mk _ _ _ _ _ _ _ _ _ (attrs hp h1) (fun _ => (even_iff py tx).2 (h2 rfl)) .nil
  | node d n as as' tx tx' kids kids' tl tl' hp _ _ hne hlen _ _ _ ih =>
    intro ha hl
    cases ha with
    | mk _ _ _ _ _ h1 h3 =>
    cases hl with
    | mk _ _ _ _ _ h2 h4 =>
    refine .mk _ _ _ _ _ _ _ _ _ (attrs hp h1) (fun h => absurd h hne) ?_
    refine List.forall₂_iff_get.2 ⟨hlen.symm, ?_⟩
    intro i h5 h6
    simp only [List.get_eq_getElem]
    exact ih i kids[i] kids'[i] (List.getElem?_eq_getElem h5) (List.getElem?_eq_getElem h6) (h3 _ (List.getElem_mem h5)) (h4 _ (List.getElem_mem h5))

end Verif.Lemmas
