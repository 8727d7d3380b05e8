import Verif.Spec.ConnectorTool
import Verif.Lemmas.Built
/-!
# Lemmas about `connector-update` on documents
-/
namespace Verif.Lemmas
open Verif Verif.Model Verif.Spec

section
variable {F : Type} {f : MObj F → Except PyErr (MObj F)}

theorem locatePkgs_eq (vs : List (MObj F)) : locatePkgs f vs = mapE (locatePkg f) vs := by
  induction vs with
  | nil => simp only [locatePkgs, mapE]
  | cons v vs ih =>
    simp only [locatePkgs, mapE, ih]
    cases locatePkg f v with
    | error e => rfl
    | ok v => cases mapE (locatePkg f) vs <;> rfl

/-- what becomes of a value of a field of a package -/
def Located (f : MObj F → Except PyErr (MObj F)) (k : Key × Bool) (v v' : MObj F) : Prop :=
  if k.1 = k!"arPackages" then locatePkg f v = .ok v' else if isMember k = true then f v = .ok v' else v' = v

theorem forall₂_refl {α : Type} {R : α → α → Prop} (h : ∀ a, R a a) (l : List α) : List.Forall₂ R l l := by
  induction l with
  | nil => exact .nil
  | cons a l ih => exact .cons (h a) ih

theorem locateFields_ok {fs fs' : List ((Key × Bool) × List (MObj F))} (h : locateFields f fs = .ok fs') :
    List.Forall₂ (fun e e' => e'.1 = e.1 ∧ List.Forall₂ (Located f e.1) e.2 e'.2) fs fs' := by
  induction fs generalizing fs' with
  | nil => simp only [locateFields] at h; cases h; exact .nil
  | cons e fs ih =>
    obtain ⟨k, vs⟩ := e
    simp only [locateFields] at h
    split at h
    · cases h
    rename_i vs' hvs
    split at h
    · cases h
    rename_i fs1 hfs
    cases h
    refine .cons ⟨rfl, ?_⟩ (ih hfs)
    unfold Located
    by_cases hk : k.1 = k!"arPackages"
    · simp only [hk, if_true] at hvs ⊢
      rw [locatePkgs_eq] at hvs
      exact mapE_ok hvs
    · simp only [hk, if_false] at hvs ⊢
      by_cases hm : isMember k = true
      · simp only [hm, if_true] at hvs ⊢
        exact mapE_ok hvs
      · simp only [hm] at hvs ⊢
        cases hvs
        exact forall₂_refl (fun _ => by rw [if_neg (by simp)]) _

theorem locatePkg_ok {c : Key} {fs : List ((Key × Bool) × List (MObj F))} {o' : MObj F} (h : locatePkg f (.mk c fs) = .ok o') :
    ∃ fs', o' = .mk c fs' ∧ List.Forall₂ (fun e e' => e'.1 = e.1 ∧ List.Forall₂ (Located f e.1) e.2 e'.2) fs fs' := by
  simp only [locatePkg] at h
  split at h
  · cases h
  rename_i fs' hfs
  cases h
  exact ⟨fs', rfl, locateFields_ok hfs⟩

theorem get_rel {R : MObj F → MObj F → Prop} {g c : Key} {fs fs' : List ((Key × Bool) × List (MObj F))}
    (h : List.Forall₂ (fun e e' => e'.1 = e.1 ∧ (hits g e.1 = true → List.Forall₂ R e.2 e'.2)) fs fs') :
    List.Forall₂ R ((MObj.mk c fs).get g) ((MObj.mk c fs').get g) := by
  unfold MObj.get MObj.fields
  induction h with
  | nil => exact .nil
  | @cons e e' fs fs' h _ ih =>
    simp only [List.flatMap_cons]
    refine List.rel_append ?_ ih
    rw [h.1]
    by_cases hh : hits g e.1 = true
    · simp only [hh, if_true]; exact h.2 hh
    · simp only [hh]; exact .nil

end

section
variable {py : Py} {strict : Bool} {f : MObj py.F → Except PyErr (MObj py.F)}

/-- the methods that read documents and packages -/
def pkgMethods : List Key := [k!"load", k!"readARPackages_ARPackage"]

/-- what is known of their slots -/
def pkgSlotOk (s : RSlot) : Bool :=
  (s.field != k!"arPackages" || (!s.elems && s.item == .objs [(k!"AR-PACKAGE", k!"readARPackages_ARPackage")])) &&
  (s.field != k!"short_name" || !s.elems) && (!isMember s.key || match s.item with
    | .objs _ => true
    | _ => false)

theorem located_slots : ∀ k ∈ pkgMethods, (match readers k with
    | none => false
    | some b => b.slots.all pkgSlotOk && (invariants b.cls).isEmpty && (lossy b.cls).all fun n => match n with
      | .never _ _ => true
      | _ => false) = true := by decide +kernel

theorem pkg_body {k : Key} (hk : k ∈ pkgMethods) {b : RBody} (hb : readers k = some b) :
    (∀ s ∈ b.slots, pkgSlotOk s = true) ∧ invariants b.cls = [] ∧ ∀ n ∈ lossy b.cls, ∃ f c, n = .never f c := by
  have := located_slots k hk
  rw [hb] at this
  simp only [Bool.and_eq_true, List.all_eq_true, List.isEmpty_iff] at this
  refine ⟨this.1.1, this.1.2, fun n hn => ?_⟩
  have h := this.2 n hn
  cases n <;> first | exact ⟨_, _, rfl⟩ | cases h

theorem zip_located {P : RSlot → List (MObj py.F) → Prop} {slots : List RSlot} {vss : List (List (MObj py.F))} (hs : List.Forall₂ P slots vss)
    {fs' : List ((Key × Bool) × List (MObj py.F))}
    (h : List.Forall₂ (fun e e' => e'.1 = e.1 ∧ List.Forall₂ (Located f e.1) e.2 e'.2) ((slots.map RSlot.key).zip vss) fs') :
    ∃ vss', fs' = (slots.map RSlot.key).zip vss' ∧ List.Forall₂ (fun s vs' => ∃ vs, P s vs ∧ List.Forall₂ (Located f s.key) vs vs') slots vss' := by
  induction hs generalizing fs' with
  | nil => cases h; exact ⟨[], rfl, .nil⟩
  | cons h1 _ ih =>
    simp only [List.map_cons, List.zip_cons_cons] at h
    cases h with
    | @cons _ e' _ fs' ha hb =>
      obtain ⟨vss', rfl, h2⟩ := ih hb
      obtain ⟨k', vs'⟩ := e'
      obtain ⟨rfl, ha⟩ := ha
      exact ⟨vs' :: vss', rfl, .cons ⟨_, h1, ha⟩ h2⟩

theorem forall₂_right {α β : Type} {R : α → β → Prop} {l : List α} {r : List β} (h : List.Forall₂ R l r) {b : β} (hb : b ∈ r) : ∃ a ∈ l, R a b := by
  induction h with
  | nil => cases hb
  | cons h1 _ ih =>
    rcases List.mem_cons.1 hb with rfl | hb
    · exact ⟨_, by simp, h1⟩
    · obtain ⟨a, ha, h⟩ := ih hb
      exact ⟨a, by simp [ha], h⟩

theorem forall₂_left {α β : Type} {R : α → β → Prop} {l : List α} {r : List β} (h : List.Forall₂ R l r) {a : α} (ha : a ∈ l) : ∃ b ∈ r, R a b := by
  induction h with
  | nil => cases ha
  | cons h1 _ ih =>
    rcases List.mem_cons.1 ha with rfl | ha
    · exact ⟨_, by simp, h1⟩
    · obtain ⟨b, hb, h⟩ := ih ha
      exact ⟨b, by simp [hb], h⟩

/-- a package or document with what is in its fields -/
theorem pkg_fields {n : Nat} {k : Key} (hk : k ∈ pkgMethods) {o : MObj py.F} (ho : Shaped strict readers invariants n k o) :
    ∃ fs, o = .mk o.cls fs ∧ ∀ e ∈ fs, ∃ s m, n = m + 1 ∧ pkgSlotOk s = true ∧ s.key = e.1 ∧ SlotFits strict (Shaped strict readers invariants m) s e.2 := by
  cases n with
  | zero => exact ho.elim
  | succ n =>
    obtain ⟨b, vss, hb, rfl, hs, _⟩ := ho
    refine ⟨_, rfl, fun e he => ?_⟩
    obtain ⟨s, hs', hk', hf⟩ := forall₂_zip hs he
    exact ⟨s, n, rfl, (pkg_body hk hb).1 s hs', hk', hf⟩

theorem pkgSlotOk_pkgs {s : RSlot} (h : pkgSlotOk s = true) (hf : s.field = k!"arPackages") :
    s.elems = false ∧ s.item = .objs [(k!"AR-PACKAGE", k!"readARPackages_ARPackage")] := by
  simp only [pkgSlotOk, Bool.and_eq_true, Bool.or_eq_true, bne_iff_ne, ne_eq, hf, not_true, false_or, Bool.not_eq_true', beq_iff_eq] at h
  exact h.1.1

theorem pkgSlotOk_name {s : RSlot} (h : pkgSlotOk s = true) (hf : s.field = k!"short_name") : s.elems = false := by
  simp only [pkgSlotOk, Bool.and_eq_true, Bool.or_eq_true, bne_iff_ne, ne_eq, hf, not_true, false_or, Bool.not_eq_true'] at h
  exact h.1.2

theorem pkgSlotOk_member {s : RSlot} (h : pkgSlotOk s = true) (hm : isMember s.key = true) : ∃ alts, s.item = .objs alts := by
  simp only [pkgSlotOk, Bool.and_eq_true, hm, Bool.not_true, Bool.false_or] at h
  cases hi : s.item with
  | objs alts => exact ⟨alts, rfl⟩
  | _ => rw [hi] at h; cases h.2

theorem altOf_pkg {t k : Key} (h : altOf [(k!"AR-PACKAGE", k!"readARPackages_ARPackage")] t = some k) : k = k!"readARPackages_ARPackage" := by
  simp only [altOf] at h
  split at h
  · cases h; rfl
  · cases h

theorem pkgMethods_pkg : k!"readARPackages_ARPackage" ∈ pkgMethods := by decide

/-- a package among the values of a field -/
theorem pkg_of_value {n : Nat} {s : RSlot} (h : pkgSlotOk s = true) (hf : s.field = k!"arPackages") {v : MObj py.F}
    (hv : ValueOf (Shaped strict readers invariants n) s.item v) : Shaped strict readers invariants n k!"readARPackages_ARPackage" v := by
  rw [(pkgSlotOk_pkgs h hf).2] at hv
  obtain ⟨t, k, hk, hv⟩ := hv
  rwa [altOf_pkg hk] at hv

theorem name_eq_of_get {o o' : MObj py.F} (h : o'.get k!"short_name" = o.get k!"short_name") : o'.name = o.name := by
  unfold MObj.name
  rw [h]

theorem forall₂_eq {α : Type} {R : α → α → Prop} (hR : ∀ a b, R a b → b = a) {l r : List α} (h : List.Forall₂ R l r) : r = l := by
  induction h with
  | nil => rfl
  | cons h1 _ ih => rw [hR _ _ h1, ih]

/-- the name of a package stays -/
theorem locate_name {n : Nat} {k : Key} (hk : k ∈ pkgMethods) {o o' : MObj py.F} (ho : Shaped strict readers invariants n k o)
    (h : locatePkg f o = .ok o') : o'.name = o.name ∧ o'.cls = o.cls := by
  obtain ⟨fs, ho', hfs⟩ := pkg_fields hk ho
  rw [ho'] at h
  obtain ⟨fs', rfl, hr⟩ := locatePkg_ok h
  refine ⟨?_, rfl⟩
  rw [ho']
  refine name_eq_of_get (forall₂_eq (R := fun a b => b = a) (fun _ _ h => h) (get_rel ?_))
  rw [List.forall₂_iff_zip] at hr ⊢
  refine ⟨hr.1, fun {e e'} he => ?_⟩
  have h1 := hr.2 he
  refine ⟨h1.1, fun hh => ?_⟩
  obtain ⟨s, m, _, hs, hkey, _⟩ := hfs e (List.of_mem_zip he).1
  have hn : e.1.1 = k!"short_name" := by
    simp only [hits, Bool.or_eq_true, beq_iff_eq, Bool.and_eq_true] at hh
    rcases hh with hh | ⟨_, hh⟩
    · exact hh
    · exact absurd hh (by decide)
  have he2 : e.1.2 = false := by
    rw [← hkey] at hn ⊢
    exact pkgSlotOk_name hs hn
  refine h1.2.imp fun v v' hv => ?_
  unfold Located at hv
  rw [if_neg (by rw [hn]; decide), if_neg (by unfold isMember; rw [hn, he2]; decide)] at hv
  exact hv

/-- names and classes of what is in a package stay -/
theorem locate_kept (hname : ∀ v v', f v = .ok v' → v'.name = v.name ∧ v'.cls = v.cls) {n : Nat} {k : Key} (hk : k ∈ pkgMethods) {o o' : MObj py.F}
    (ho : Shaped strict readers invariants n k o) (h : locatePkg f o = .ok o') (g : Key) :
    List.Forall₂ (fun v v' => v'.name = v.name ∧ v'.cls = v.cls) (o.get g) (o'.get g) := by
  obtain ⟨fs, ho', hfs⟩ := pkg_fields hk ho
  rw [ho'] at h
  obtain ⟨fs', rfl, hr⟩ := locatePkg_ok h
  rw [ho']
  refine get_rel ?_
  rw [List.forall₂_iff_zip] at hr ⊢
  refine ⟨hr.1, fun {e e'} he => ?_⟩
  have h1 := hr.2 he
  refine ⟨h1.1, fun _ => ?_⟩
  obtain ⟨s, m, _, hs, hkey, hfit⟩ := hfs e (List.of_mem_zip he).1
  have h2 := h1.2
  rw [List.forall₂_iff_zip] at h2 ⊢
  refine ⟨h2.1, fun {v v'} hvv => ?_⟩
  have hv := h2.2 hvv
  unfold Located at hv
  by_cases hp : e.1.1 = k!"arPackages"
  · rw [if_pos hp] at hv
    exact locate_name pkgMethods_pkg (pkg_of_value hs (by rw [← hkey] at hp; exact hp) (hfit.kinds v (List.of_mem_zip hvv).1)) hv
  · rw [if_neg hp] at hv
    split at hv
    · exact hname v v' hv
    · rw [hv]; exact ⟨rfl, rfl⟩

/-- sub-packages and elements -/
theorem locate_get {n : Nat} {k : Key} (hk : k ∈ pkgMethods) {o o' : MObj py.F} (ho : Shaped strict readers invariants n k o) (h : locatePkg f o = .ok o') :
    List.Forall₂ (fun v v' => locatePkg f v = .ok v' ∧ ∃ m, Shaped strict readers invariants m k!"readARPackages_ARPackage" v)
      (o.get k!"arPackages") (o'.get k!"arPackages") ∧
    List.Forall₂ (fun v v' => f v = .ok v' ∧ ∃ m k, Shaped strict readers invariants m k v) (o.get k!"elements") (o'.get k!"elements") := by
  obtain ⟨fs, ho', hfs⟩ := pkg_fields hk ho
  rw [ho'] at h
  obtain ⟨fs', rfl, hr⟩ := locatePkg_ok h
  rw [ho']
  rw [List.forall₂_iff_zip] at hr
  constructor
  · refine get_rel ?_
    rw [List.forall₂_iff_zip]
    refine ⟨hr.1, fun {e e'} he => ?_⟩
    have h1 := hr.2 he
    refine ⟨h1.1, fun hh => ?_⟩
    obtain ⟨s, m, _, hs, hkey, hfit⟩ := hfs e (List.of_mem_zip he).1
    have hp : e.1.1 = k!"arPackages" := by
      simp only [hits, Bool.or_eq_true, beq_iff_eq, Bool.and_eq_true] at hh
      rcases hh with hh | ⟨_, hh⟩
      · exact hh
      · exact absurd hh (by decide)
    have h2 := h1.2
    rw [List.forall₂_iff_zip] at h2 ⊢
    refine ⟨h2.1, fun {v v'} hvv => ?_⟩
    have hv := h2.2 hvv
    unfold Located at hv
    rw [if_pos hp] at hv
    exact ⟨hv, m, pkg_of_value hs (by rw [← hkey] at hp; exact hp) (hfit.kinds v (List.of_mem_zip hvv).1)⟩
  · refine get_rel ?_
    rw [List.forall₂_iff_zip]
    refine ⟨hr.1, fun {e e'} he => ?_⟩
    have h1 := hr.2 he
    refine ⟨h1.1, fun hh => ?_⟩
    obtain ⟨s, m, _, hs, hkey, hfit⟩ := hfs e (List.of_mem_zip he).1
    have hm : isMember e.1 = true := by
      simp only [hits, Bool.or_eq_true, beq_iff_eq, Bool.and_eq_true] at hh
      unfold isMember
      rcases hh with hh | ⟨hh, _⟩
      · rw [hh]; simp
      · rw [hh]; simp
    have hp : e.1.1 ≠ k!"arPackages" := by
      intro hp
      rw [← hkey] at hp hm
      have := (pkgSlotOk_pkgs hs hp).1
      unfold isMember at hm
      simp only [RSlot.key, this] at hm hp
      rw [hp] at hm
      exact absurd hm (by decide)
    have h2 := h1.2
    rw [List.forall₂_iff_zip] at h2 ⊢
    refine ⟨h2.1, fun {v v'} hvv => ?_⟩
    have hv := h2.2 hvv
    unfold Located at hv
    rw [if_neg hp, if_pos hm] at hv
    rw [← hkey] at hm
    obtain ⟨alts, hi⟩ := pkgSlotOk_member hs hm
    have hval := hfit.kinds v (List.of_mem_zip hvv).1
    rw [hi] at hval
    obtain ⟨t, k', _, hval⟩ := hval
    exact ⟨hv, m, k', hval⟩

/-- packages fit after their elements were changed, if the elements do -/
theorem locate_shaped (hname : ∀ v v', f v = .ok v' → v'.name = v.name ∧ v'.cls = v.cls)
    (hf : ∀ n k v v', Shaped strict readers invariants n k v → f v = .ok v' → Shaped strict readers invariants (n + 1) k v')
    {n : Nat} {k : Key} (hk : k ∈ pkgMethods) {o o' : MObj py.F} (ho : Shaped strict readers invariants n k o) (h : locatePkg f o = .ok o') :
    Shaped strict readers invariants (n + 1) k o' := by
  induction n generalizing k o o' with
  | zero => exact ho.elim
  | succ n ih =>
    have hkept := locate_kept hname hk ho h
    obtain ⟨b, vss, hb, rfl, hs, hnames, hI⟩ := ho
    obtain ⟨fs', rfl, hr⟩ := locatePkg_ok h
    obtain ⟨vss', rfl, hs'⟩ := zip_located hs hr
    obtain ⟨hsl, hinv, _⟩ := pkg_body hk hb
    refine ⟨b, vss', hb, rfl, ?_, ?_, by rw [hinv]; intro m hm; cases hm⟩
    · rw [List.forall₂_iff_zip] at hs' ⊢
      refine ⟨hs'.1, fun {s vs'} hsv => ?_⟩
      obtain ⟨vs, hfit, hl⟩ := hs'.2 hsv
      have hsok := hsl s (List.of_mem_zip hsv).1
      refine ⟨fun v' hv' => ?_, fun h1 => by rw [← hl.length_eq]; exact hfit.one h1, fun h0 => ?_⟩
      · obtain ⟨v, hv, hvv⟩ := forall₂_right hl hv'
        have hval := hfit.kinds v hv
        unfold Located at hvv
        by_cases hp : s.key.1 = k!"arPackages"
        · rw [if_pos hp] at hvv
          have := ih pkgMethods_pkg (pkg_of_value hsok hp hval) hvv
          rw [(pkgSlotOk_pkgs hsok hp).2]
          exact ⟨k!"AR-PACKAGE", _, by rfl, this⟩
        · rw [if_neg hp] at hvv
          split at hvv
          · rename_i hm
            obtain ⟨alts, hi⟩ := pkgSlotOk_member hsok hm
            rw [hi] at hval ⊢
            obtain ⟨t, k', hk', hval⟩ := hval
            exact ⟨t, k', hk', hf n k' v v' hval hvv⟩
          · rw [hvv]
            exact valueOf_mono (fun k v h => fits_succ h) hval
      · subst h0
        cases hl
        exact hfit.set rfl
    · have hmap : ∀ g, ((MObj.mk b.cls ((b.slots.map RSlot.key).zip vss')).get g).map MObj.name =
          ((MObj.mk b.cls ((b.slots.map RSlot.key).zip vss)).get g).map MObj.name := by
        intro g
        have := hkept g
        generalize (MObj.mk b.cls ((b.slots.map RSlot.key).zip vss')).get g = l' at this
        generalize (MObj.mk b.cls ((b.slots.map RSlot.key).zip vss)).get g = l at this
        induction this with
        | nil => rfl
        | cons h1 _ ih => simp only [List.map_cons, h1.1, ih]
      have hlen : ∀ g, ((MObj.mk b.cls ((b.slots.map RSlot.key).zip vss')).get g).length =
          ((MObj.mk b.cls ((b.slots.map RSlot.key).zip vss)).get g).length := fun g => (hkept g).length_eq.symm
      unfold namesOk at hnames ⊢
      simp only [hmap, hlen]
      exact hnames

/-- nothing gets into packages that `save` is known to lose, if nothing gets into the elements -/
theorem locate_clean (hname : ∀ v v', f v = .ok v' → v'.name = v.name ∧ v'.cls = v.cls)
    (hf : ∀ n k v v', Shaped strict readers invariants n k v → Clean lossy strict v → f v = .ok v' → Clean lossy strict v')
    {n : Nat} {k : Key} (hk : k ∈ pkgMethods) {o o' : MObj py.F} (ho : Shaped strict readers invariants n k o) (hc : Clean lossy strict o)
    (h : locatePkg f o = .ok o') : Clean lossy strict o' := by
  induction n generalizing k o o' with
  | zero => exact ho.elim
  | succ n ih =>
    have hkept := locate_kept hname hk ho h
    obtain ⟨b, vss, hb, rfl, hs, hnames, hI⟩ := ho
    obtain ⟨fs', rfl, hr⟩ := locatePkg_ok h
    obtain ⟨vss', rfl, hs'⟩ := zip_located hs hr
    obtain ⟨hsl, hinv, hlossy⟩ := pkg_body hk hb
    refine .mk _ _ ?_ ?_
    · intro m hm
      obtain ⟨g, c, rfl⟩ := hlossy m hm
      intro v' hv'
      obtain ⟨v, hv, hvv⟩ := forall₂_right (hkept g) hv'
      rw [hvv.2]
      exact clean_needs hc rfl _ hm v hv
    · intro e' he' v' hv'
      obtain ⟨e, he, hee⟩ := forall₂_right hr he'
      obtain ⟨s, hs1, hkey, hfit⟩ := forall₂_zip hs he
      have hsok := hsl s hs1
      obtain ⟨v, hv, hvv⟩ := forall₂_right hee.2 hv'
      have hval := hfit.kinds v hv
      have hcv : Clean lossy strict v := clean_kids hc he hv
      unfold Located at hvv
      rw [← hkey] at hvv
      by_cases hp : s.key.1 = k!"arPackages"
      · rw [if_pos hp] at hvv
        exact ih pkgMethods_pkg (pkg_of_value hsok hp hval) hcv hvv
      · rw [if_neg hp] at hvv
        split at hvv
        · rename_i hm
          obtain ⟨alts, hi⟩ := pkgSlotOk_member hsok hm
          rw [hi] at hval
          obtain ⟨t, k', hk', hval⟩ := hval
          exact hf n k' v v' hval hcv hvv
        · rw [hvv]; exact hcv

/-! ## Paths -/

theorem elementAt_nil {d : MObj py.F} {n : Str} {w : MObj py.F} : ElementAt d [] n w ↔ w ∈ d.get k!"elements" ∧ w.name = n := by
  constructor
  · intro h
    cases h with
    | step o v w k p hv hr => cases hr; exact ⟨hv, rfl⟩
  · rintro ⟨h, rfl⟩
    exact .step d w w .element [] h (.here w)

theorem elementAt_cons {d : MObj py.F} {m : Str} {ns : List Str} {n : Str} {w : MObj py.F} :
    ElementAt d (m :: ns) n w ↔ ∃ p ∈ d.get k!"arPackages", p.name = m ∧ ElementAt p ns n w := by
  constructor
  · intro h
    cases h with
    | step o v w k p hv hr => exact ⟨v, hv, rfl, hr⟩
  · rintro ⟨p, hp, rfl, h⟩
    exact .step d p w .package _ hp h

/-- what happens with the elements of a document -/
theorem locate_elements (hname : ∀ v v', f v = .ok v' → v'.name = v.name ∧ v'.cls = v.cls) {m : Nat} {k : Key} (hk : k ∈ pkgMethods) {d d' : MObj py.F}
    (hd : Shaped strict readers invariants m k d) (h : locatePkg f d = .ok d') (ns : List Str) (n : Str) :
    (∀ w, ElementAt d ns n w → ∃ w', ElementAt d' ns n w' ∧ f w = .ok w' ∧ ∃ m k, Shaped strict readers invariants m k w) ∧
    (∀ w', ElementAt d' ns n w' → ∃ w, ElementAt d ns n w ∧ f w = .ok w' ∧ ∃ m k, Shaped strict readers invariants m k w) := by
  induction ns generalizing m k d d' with
  | nil =>
    obtain ⟨_, h2⟩ := locate_get hk hd h
    constructor
    · intro w hw
      obtain ⟨h3, rfl⟩ := elementAt_nil.1 hw
      obtain ⟨w', hw', hf⟩ := forall₂_left h2 h3
      exact ⟨w', elementAt_nil.2 ⟨hw', (hname _ _ hf.1).1⟩, hf⟩
    · intro w' hw'
      obtain ⟨h3, rfl⟩ := elementAt_nil.1 hw'
      obtain ⟨w, hw, hf⟩ := forall₂_right h2 h3
      exact ⟨w, elementAt_nil.2 ⟨hw, (hname _ _ hf.1).1.symm⟩, hf⟩
  | cons p ns ih =>
    obtain ⟨h1, _⟩ := locate_get hk hd h
    constructor
    · intro w hw
      obtain ⟨q, hq, rfl, h3⟩ := elementAt_cons.1 hw
      obtain ⟨q', hq', hqq, m', hqs⟩ := forall₂_left h1 hq
      obtain ⟨w', hw', hf⟩ := (ih pkgMethods_pkg hqs hqq).1 w h3
      exact ⟨w', elementAt_cons.2 ⟨q', hq', (locate_name pkgMethods_pkg hqs hqq).1, hw'⟩, hf⟩
    · intro w' hw'
      obtain ⟨q', hq', rfl, h3⟩ := elementAt_cons.1 hw'
      obtain ⟨q, hq, hqq, m', hqs⟩ := forall₂_right h1 hq'
      obtain ⟨w, hw, hf⟩ := (ih pkgMethods_pkg hqs hqq).2 w' h3
      exact ⟨w, elementAt_cons.2 ⟨q, hq, (locate_name pkgMethods_pkg hqs hqq).1.symm, hw⟩, hf⟩

end
end Verif.Lemmas
