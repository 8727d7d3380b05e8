import Verif.Lemmas.AdminLoad
import Verif.Lemmas.Ignore
import Verif.Spec.Markup
/-!
# The documents `arxml-format` works on
-/
namespace Verif.Lemmas
open Verif Verif.Model Verif.Gen Verif.Spec

section
variable {py : Py} {repr : py.F → Str} {strict : Bool}

theorem admin_key {s : RSlot} (h : adminSlot s = true) : s.key = (k!"adminData", false) := by
  simp only [adminSlot, Bool.and_eq_true, beq_iff_eq] at h
  exact h.1.1.1

/-- where the values of a field of a package come from -/
theorem field_read {rd : Key → Xml → Except RErr (MObj py.F)} {x : Xml} {s : RSlot} (hs : PkgSlot s) {vs : List (MObj py.F)}
    (h : readSlot py strict rd x s = .ok vs) :
    (s.key.1 = k!"arPackages" → ∀ v ∈ vs, ∃ y, rd k!"readARPackages_ARPackage" y = .ok v) ∧
    (isMember s.key = true → ∀ v ∈ vs, ∃ a ∈ elementAlts, ∃ y, rd a.2 y = .ok v) := by
  have hobj : ∀ alts, s.item = .objs alts → ∀ v ∈ vs, ∃ a ∈ alts, ∃ y, rd a.2 y = .ok v := by
    intro alts hi v hv
    have horg := readSlot_origin h v hv
    rw [hi] at horg
    obtain ⟨t, k', y, hk', hy⟩ := horg.objs
    obtain ⟨t', ht'⟩ := altOf_mem hk'
    exact ⟨_, ht', y, hy⟩
  cases hs with
  | admin h1 =>
    have := admin_key h1
    exact ⟨fun hk => absurd (this ▸ hk) (by decide), fun hm => by rw [this] at hm; cases hm⟩
  | off h1 h2 h3 => exact ⟨fun hk => absurd hk h2, fun hm => by rw [h3] at hm; cases hm⟩
  | elems hp hi hk hl hq => exact ⟨fun h => absurd (hk ▸ h) (by decide), fun _ => hobj _ hi⟩
  | pkgs hp hi hk hl hq =>
    refine ⟨fun _ v hv => ?_, fun hm => by rw [hk] at hm; cases hm⟩
    obtain ⟨a, ha, y, hy⟩ := hobj _ hi v hv
    simp only [List.mem_singleton] at ha
    subst ha
    exact ⟨y, hy⟩
  | guardE hp hi hk hl hq => exact ⟨fun h => absurd (hk ▸ h) (by decide), fun hm => by rw [hk] at hm; cases hm⟩
  | guardP hp hi hk hl hq => exact ⟨fun h => absurd (hk ▸ h) (by decide), fun hm => by rw [hk] at hm; cases hm⟩

theorem mem_get {F : Type} {o v : MObj F} {f : Key} (h : v ∈ o.get f) : ∃ e ∈ o.fields, hits f e.1 = true ∧ v ∈ e.2 := by
  obtain ⟨e, he, h⟩ := List.mem_flatMap.1 h
  by_cases hh : hits f e.1 = true
  · rw [if_pos hh] at h; exact ⟨e, he, hh, h⟩
  · rw [if_neg hh] at h; cases h

/-- an element that was read has its admin data in the usual place -/
theorem element_key {n : Nat} {k : Key} (hk : elementReader k = true) {x : Xml} {e : MObj py.F} (h : readObj py strict readers n k x = .ok e) :
    ∀ f ∈ e.fields, f.1 ≠ (k!"adminData", true) := by
  obtain ⟨m, b, fs, _, hb, rfl, hf⟩ := read_fields h
  simp only [elementReader, hb, Bool.and_eq_true, List.all_eq_true, Bool.or_eq_true] at hk
  intro f hf' e
  obtain ⟨s, hs, hk', _⟩ := hf f hf'
  rw [e] at hk'
  rcases hk.1 s hs with h1 | h1
  · rw [admin_key h1] at hk'; cases hk'
  · simp only [slotOff, Bool.and_eq_true, bne_iff_ne] at h1
    exact h1.1 (congrArg Prod.fst hk')

theorem pkg_field {n : Nat} {x : Xml} {p : MObj py.F} (h : readObj py strict readers n k!"readARPackages_ARPackage" x = .ok p)
    {e : (Key × Bool) × List (MObj py.F)} (he : e ∈ p.fields) : ∃ m, n = m + 1 ∧
    (e.1.1 = k!"arPackages" → ∀ v ∈ e.2, ∃ y, readObj py strict readers m k!"readARPackages_ARPackage" y = .ok v) ∧
    (isMember e.1 = true → ∀ v ∈ e.2, ∃ a ∈ elementAlts, ∃ y, readObj py strict readers m a.2 y = .ok v) := by
  obtain ⟨m, b, fs, hm, hb, rfl, hf⟩ := read_fields h
  rw [pkgBody] at hb
  cases hb
  obtain ⟨s, hs, hk, hr⟩ := hf e he
  have := field_read (pkgSlot_sound (List.all_eq_true.1 pkg_slots s hs)) hr
  rw [hk] at this
  exact ⟨m, hm, this⟩

theorem doc_field {n : Nat} {x : Xml} {d : MObj py.F} (h : readObj py strict readers n k!"load" x = .ok d)
    {e : (Key × Bool) × List (MObj py.F)} (he : e ∈ d.fields) : ∃ m, n = m + 1 ∧
    (e.1.1 = k!"arPackages" → ∀ v ∈ e.2, ∃ y, readObj py strict readers m k!"readARPackages_ARPackage" y = .ok v) := by
  obtain ⟨m, b, fs, hm, hb, rfl, hf⟩ := read_fields h
  rw [readers_load] at hb
  cases hb
  obtain ⟨s, hs, hk, hr⟩ := hf e he
  have hs' := List.all_eq_true.1 doc_slots s hs
  rw [Bool.and_eq_true] at hs'
  have := field_read (pkgSlot_sound hs'.1) hr
  rw [hk] at this
  exact ⟨m, hm, this.1⟩

/-- packages that were read are regular -/
theorem read_regular (path : List Nat) : ∀ (n : Nat) (x : Xml) (p q : MObj py.F), readObj py strict readers n k!"readARPackages_ARPackage" x = .ok p →
    pkgAt p path = some q → (∀ f ∈ q.fields, f.1.2 = true → f.1.1 = k!"elements") ∧
      ∀ e ∈ q.get k!"elements", ∀ f ∈ e.fields, f.1 ≠ (k!"adminData", true) := by
  induction path with
  | nil =>
    intro n x p q h hq
    cases hq
    refine ⟨pkg_members h, ?_⟩
    intro e he
    obtain ⟨g, hg, hh, hv⟩ := mem_get he
    obtain ⟨m, _, _, h2⟩ := pkg_field h hg
    rw [hits_elements] at hh
    obtain ⟨a, ha, y, hy⟩ := h2 hh e hv
    exact element_key (List.all_eq_true.1 alts_right a ha) hy
  | cons i path ih =>
    intro n x p q h hq
    simp only [pkgAt] at hq
    cases hr : (p.get k!"arPackages")[i]? with
    | none => rw [hr] at hq; cases hq
    | some r =>
      rw [hr] at hq
      obtain ⟨g, hg, hh, hv⟩ := mem_get (List.mem_of_getElem? hr)
      obtain ⟨m, _, h1, _⟩ := pkg_field h hg
      rw [hits_pkgs, beq_iff_eq] at hh
      obtain ⟨y, hy⟩ := h1 hh r hv
      exact ih m y r q hy hq

theorem load_regular {x : Xml} {d : MObj py.F} (h : load py strict x = .ok d) : Regular d := by
  intro i path p hp
  simp only [pkgAt] at hp
  cases hr : (d.get k!"arPackages")[i]? with
  | none => rw [hr] at hp; cases hp
  | some r =>
    rw [hr] at hp
    obtain ⟨g, hg, hh, hv⟩ := mem_get (List.mem_of_getElem? hr)
    obtain ⟨m, _, h1⟩ := doc_field (load_eq h) hg
    rw [hits_pkgs, beq_iff_eq] at hh
    obtain ⟨y, hy⟩ := h1 hh r hv
    exact read_regular path m y r p hy hp

/-! ## the defects stay away -/

/-- the condition does not mention the admin data -/
def needOff : Need → Bool
  | .empty f | .never f _ | .single f | .full f | .plain f | .inside f _ => f != k!"adminData"
  | .oneOf fs => fs.all fun f => f != k!"adminData"
  | .notBoth f g | .along f g | .same f g => f != k!"adminData" && g != k!"adminData"
  | .strict n => needOff n

theorem need_off {o o' : MObj py.F} (hg : ∀ f, f ≠ k!"adminData" → o'.get f = o.get f) {n : Need} (h : needOff n = true) (ho : n.ok strict o) : n.ok strict o' := by
  induction n with
  | empty f | never f _ | single f | full f | plain f | inside f _ =>
    simp only [needOff, bne_iff_ne] at h
    simp only [Need.ok, hg f h] at ho ⊢
    exact ho
  | oneOf fs =>
    obtain ⟨f, hf, ho⟩ := ho
    have := List.all_eq_true.1 h f hf
    rw [bne_iff_ne] at this
    exact ⟨f, hf, by rw [hg f this]; exact ho⟩
  | notBoth f g | along f g | same f g =>
    simp only [needOff, Bool.and_eq_true, bne_iff_ne] at h
    simp only [Need.ok, hg f h.1, hg g h.2] at ho ⊢
    exact ho
  | strict n ih => intro hs; exact ih h (ho hs)

theorem defects_off : defects.all (fun e => needOff e.2) = true := by decide +kernel

theorem lossy_off {c : Key} {n : Need} (h : n ∈ lossy c) : needOff n = true := by
  obtain ⟨e, he, h⟩ := List.mem_filterMap.1 h
  split at h
  · cases h; exact List.all_eq_true.1 defects_off e he
  · cases h

theorem clean_element {e : MObj py.F} (hk : ∀ f ∈ e.fields, f.1 ≠ (k!"adminData", true)) (h : Clean lossy strict e) : Clean lossy strict (processElement e) := by
  have rem : Clean lossy strict e.removeAdminData := by
    cases e with
    | scal s => exact h
    | mk c fs =>
      refine .mk _ _ (fun n hn => need_off (fun f hf => removeAdminData_other hk hf) (lossy_off hn) (clean_needs h rfl n hn)) ?_
      intro g hg v hv
      obtain ⟨g, hg', rfl⟩ := List.mem_map.1 hg
      replace hg := hg'
      split at hv
      · cases hv
      · exact clean_kids h hg hv
  unfold processElement
  split
  · exact rem
  · split
    · exact rem
    · exact h

theorem lossy_pkg : lossy k!"ARPackage" = [.never k!"elements" k!"EcucValueCollection", .never k!"elements" k!"TriggerInterface"] := by decide +kernel

theorem clean_pkg (n : Nat) : ∀ (x : Xml) (p : MObj py.F), readObj py strict readers n k!"readARPackages_ARPackage" x = .ok p → Clean lossy strict p →
    Clean lossy strict (processPkg p) := by
  induction n with
  | zero => intro x p h; cases h
  | succ n ih =>
    intro x p h hc
    have hmem := pkg_members h
    have hel := processPkg_elems hmem
    have hcls : p.cls = k!"ARPackage" := by
      have := readObj_cls h
      rw [pkgBody] at this
      exact (Option.some.inj this).symm
    have hfl := fun e he => pkg_field (e := e) h he
    cases p with
    | scal s => rw [processPkg]; exact hc
    | mk c fs =>
      have hcls : c = k!"ARPackage" := hcls
      subst hcls
      have hneeds := clean_needs hc rfl
      rw [processPkg, processFields_map] at hel ⊢
      refine .mk _ _ ?_ ?_
      · intro m hm
        have h1 := hneeds m hm
        rw [lossy_pkg] at hm
        have key : ∀ z, (Need.never k!"elements" z).ok strict (MObj.mk k!"ARPackage" fs) → (Need.never k!"elements" z).ok strict (MObj.mk k!"ARPackage" (fs.map onField)) := by
          intro z hz v hv
          rw [hel] at hv
          obtain ⟨w, hw, rfl⟩ := List.mem_map.1 hv
          rw [processElement_cls]
          exact hz w hw
        simp only [List.mem_cons, List.not_mem_nil, or_false] at hm
        rcases hm with rfl | rfl
        · exact key _ h1
        · exact key _ h1
      · intro g hg v hv
        obtain ⟨g, hg', rfl⟩ := List.mem_map.1 hg
        replace hg := hg'
        obtain ⟨m, hm, h1, h2⟩ := hfl g hg
        obtain rfl : n = m := by omega
        simp only [onField] at hv
        split at hv
        · rename_i hk
          obtain ⟨w, hw, rfl⟩ := List.mem_map.1 hv
          obtain ⟨y, hy⟩ := h1 hk w hw
          exact ih y w hy (clean_kids hc hg hw)
        split at hv
        · cases hv
        split at hv
        · rename_i hk
          obtain ⟨w, hw, rfl⟩ := List.mem_map.1 hv
          obtain ⟨a, ha, y, hy⟩ := h2 hk w hw
          exact clean_element (element_key (List.all_eq_true.1 alts_right a ha) hy) (clean_kids hc hg hw)
        · exact clean_kids hc hg hv

theorem lossy_doc : lossy k!"AUTOSAR" = [] := by decide +kernel

theorem clean_removeAll {x : Xml} {d : MObj py.F} (h : load py strict x = .ok d) (hc : Clean lossy strict d) : Clean lossy strict (removeAll d) := by
  have h' := load_eq h
  have hcls : d.cls = k!"AUTOSAR" := by
    have := readObj_cls h'
    rw [readers_load] at this
    exact (Option.some.inj this).symm
  have hfl := fun e he => doc_field (e := e) h' he
  cases d with
  | scal s => exact hc
  | mk c fs =>
    have hcls : c = k!"AUTOSAR" := hcls
    subst hcls
    rw [removeAll]
    refine .mk _ _ (by rw [lossy_doc]; intro n hn; cases hn) ?_
    intro g hg v hv
    obtain ⟨g, hg', rfl⟩ := List.mem_map.1 hg
    replace hg := hg'
    obtain ⟨m, _, h1⟩ := hfl g hg
    split at hv
    · cases hv
    split at hv
    · rename_i hk
      rw [processPkgs_map] at hv
      obtain ⟨w, hw, rfl⟩ := List.mem_map.1 hv
      obtain ⟨y, hy⟩ := h1 hk w hw
      exact clean_pkg m y w hy (clean_kids hc hg hw)
    · exact clean_kids hc hg hv

/-- what can be saved in strict mode is saved in the same way in warning mode -/
theorem save_modes {d : MObj py.F} {x : Xml} (h : save py repr true d = .ok x) (strict : Bool) : save py repr strict d = .ok x := by
  cases strict with
  | true => exact h
  | false =>
    unfold save at h ⊢
    split at h
    · cases h
    · rename_i out hout
      rw [writeObj_modes writers hout]
      exact h

end

/-! ## the saved tree -/

theorem noAdmin_clean (x : Xml) : NoAdmin (cleanPkg x) := by
  have key : ∀ n (x : Xml), x.depth ≤ n → NoAdmin (cleanPkg x) := by
    intro n
    induction n with
    | zero => intro x h; cases x; simp [Xml.depth] at h
    | succ n ih =>
      intro x hn
      have h1 := cleanPkg_noAdmin x
      rw [cleanPkg_kids] at h1
      obtain ⟨t, as, s, kids⟩ := x
      rw [cleanPkg_node]
      refine .mk _ _ _ _ h1 ?_ ?_
      · intro y hy hyt e he z hz
        obtain ⟨w, hw, hyw⟩ := List.mem_flatMap.1 hy
        obtain ⟨u, bs, r, ks⟩ := w
        simp only [cleanPart] at hyw
        split at hyw
        · cases hyw
        split at hyw
        · simp only [List.mem_singleton] at hyw
          subst hyw
          obtain ⟨e, he', rfl⟩ := List.mem_map.1 he
          replace he := he'
          obtain ⟨v, cs, q, ls⟩ := e
          simp only [dropAdmin, Xml.kids, List.mem_filter, bne_iff_ne] at hz
          exact hz.2
        split at hyw
        · rename_i h2 h3
          simp only [List.mem_singleton] at hyw
          subst hyw
          have : u = k!"ELEMENTS" := hyt
          exact absurd this h2
        · rename_i h2 h3
          simp only [List.mem_singleton] at hyw
          subst hyw
          have : u = k!"ELEMENTS" := hyt
          exact absurd this h2
      · intro y hy hyt q hq
        obtain ⟨w, hw, hyw⟩ := List.mem_flatMap.1 hy
        have hd := depth_kid (x := .node t as s kids) hw
        obtain ⟨u, bs, r, ks⟩ := w
        simp only [cleanPart] at hyw
        split at hyw
        · cases hyw
        split at hyw
        · rename_i h2
          simp only [List.mem_singleton] at hyw
          subst hyw
          have : u = k!"AR-PACKAGES" := hyt
          rw [h2] at this
          exact absurd this (by decide)
        split at hyw
        · simp only [List.mem_singleton] at hyw
          subst hyw
          obtain ⟨q, hq', rfl⟩ := List.mem_map.1 hq
          replace hq := hq'
          have := depth_kid (x := .node u bs r ks) hq
          exact ih q (by omega)
        · rename_i h3
          simp only [List.mem_singleton] at hyw
          subst hyw
          exact absurd hyt h3
  exact key x.depth x (Nat.le_refl _)

theorem laid_tag (n : Nat) (x : Xml) : (laid n x).tag = x.tag := by
  obtain ⟨t, as, s, kids⟩ := x
  cases kids <;> rw [laid] <;> rfl

theorem laidAll_map (n : Nat) (l : List Xml) : laidAll n l = l.map (laid n) := by
  induction l with
  | nil => rw [laidAll]; rfl
  | cons x l ih => rw [laidAll, ih]; rfl

theorem laid_kids (n : Nat) (x : Xml) : (laid n x).kids = x.kids.map (laid (n + 1)) := by
  obtain ⟨t, as, s, kids⟩ := x
  cases kids with
  | nil => rw [laid]; rfl
  | cons y l => rw [laid, ← laidAll_map]; rfl

theorem noAdmin_laid {x : Xml} (h : NoAdmin x) (n : Nat) : NoAdmin (laid n x) := by
  have build : ∀ y : Xml, (∀ z ∈ y.kids, z.tag ≠ k!"ADMIN-DATA") →
      (∀ z ∈ y.kids, z.tag = k!"ELEMENTS" → ∀ e ∈ z.kids, ∀ u ∈ e.kids, u.tag ≠ k!"ADMIN-DATA") →
      (∀ z ∈ y.kids, z.tag = k!"AR-PACKAGES" → ∀ q ∈ z.kids, NoAdmin q) → NoAdmin y := by
    intro y h1 h2 h3
    obtain ⟨t, as, s, kids⟩ := y
    exact .mk _ _ _ _ h1 h2 h3
  induction h generalizing n with
  | mk t as s kids h1 h2 h3 ih =>
    refine build _ ?_ ?_ ?_ <;> rw [laid_kids] <;> intro y hy <;> obtain ⟨y, hy', rfl⟩ := List.mem_map.1 hy <;> replace hy := hy' <;> rw [laid_tag]
    · exact h1 y hy
    · intro ht e he z hz
      rw [laid_kids] at he
      obtain ⟨e, he', rfl⟩ := List.mem_map.1 he
      replace he := he'
      rw [laid_kids] at hz
      obtain ⟨z, hz', rfl⟩ := List.mem_map.1 hz
      replace hz := hz'
      rw [laid_tag]
      exact h2 y hy ht e he z hz
    · intro ht q hq
      rw [laid_kids] at hq
      obtain ⟨q, hq', rfl⟩ := List.mem_map.1 hq
      replace hq := hq'
      exact ih y hy ht q hq _

theorem dropAdmin_id {x : Xml} (h : ∀ y ∈ x.kids, y.tag ≠ k!"ADMIN-DATA") : dropAdmin x = x := by
  obtain ⟨t, as, s, kids⟩ := x
  rw [dropAdmin, List.filter_eq_self.2]
  intro y hy
  simpa using h y hy

theorem cleanPkg_id {x : Xml} (h : NoAdmin x) : cleanPkg x = x := by
  induction h with
  | mk t as s kids h1 h2 h3 ih =>
    rw [cleanPkg_node]
    congr 1
    have : ∀ l : List Xml, (∀ y ∈ l, cleanPart y = [y]) → l.flatMap cleanPart = l := by
      intro l hl
      induction l with
      | nil => rfl
      | cons y l ih => rw [List.flatMap_cons, hl y (by simp), ih fun y hy => hl y (by simp [hy])]; rfl
    refine this kids ?_
    intro y hy
    have g1 := h1 y hy
    have g2 := h2 y hy
    have g3 := ih y hy
    obtain ⟨u, bs, r, ks⟩ := y
    simp only [Xml.tag, Xml.kids] at g1 g2 g3
    have mapid : ∀ (g : Xml → Xml) (l : List Xml), (∀ z ∈ l, g z = z) → l.map g = l := by
      intro g l hl
      induction l with
      | nil => rfl
      | cons z l ih => rw [List.map_cons, hl z (by simp), ih fun z hz => hl z (by simp [hz])]
    simp only [cleanPart]
    rw [if_neg g1]
    split
    · rename_i hu
      rw [mapid _ _ fun e he => dropAdmin_id (g2 hu e he)]
    split
    · rename_i hu
      rw [mapid _ _ fun q hq => g3 hu q hq]
    · rfl

theorem unquoted_drop {x : Xml} (h : Every Unquoted x) : Every Unquoted (dropAdmin x) := by
  cases h with
  | node t as s kids h1 h2 => exact .node _ _ _ _ h1 fun k hk => h2 k (List.mem_filter.1 hk).1

theorem unquoted_clean {x : Xml} (h : Every Unquoted x) : Every Unquoted (cleanPkg x) := by
  have key : ∀ n (x : Xml), x.depth ≤ n → Every Unquoted x → Every Unquoted (cleanPkg x) := by
    intro n
    induction n with
    | zero => intro x h; cases x; simp [Xml.depth] at h
    | succ n ih =>
      intro x hn h
      cases h with
      | node t as s kids h1 h2 =>
        rw [cleanPkg_node]
        refine .node _ _ _ _ h1 ?_
        intro y hy
        obtain ⟨w, hw, hyw⟩ := List.mem_flatMap.1 hy
        have hd := depth_kid (x := .node t as s kids) hw
        have h3 := h2 w hw
        obtain ⟨u, bs, r, ks⟩ := w
        cases h3 with
        | node _ _ _ _ h4 h5 =>
          simp only [cleanPart] at hyw
          split at hyw
          · cases hyw
          split at hyw
          · simp only [List.mem_singleton] at hyw
            subst hyw
            refine .node _ _ _ _ h4 ?_
            intro e he
            obtain ⟨e, he', rfl⟩ := List.mem_map.1 he
            replace he := he'
            exact unquoted_drop (h5 e he)
          split at hyw
          · simp only [List.mem_singleton] at hyw
            subst hyw
            refine .node _ _ _ _ h4 ?_
            intro q hq
            obtain ⟨q, hq', rfl⟩ := List.mem_map.1 hq
            replace hq := hq'
            have := depth_kid (x := .node u bs r ks) hq
            exact ih q (by omega) (h5 q hq)
          · simp only [List.mem_singleton] at hyw
            subst hyw
            exact .node _ _ _ _ h4 h5
  exact key x.depth x (Nat.le_refl _) h

end Verif.Lemmas
