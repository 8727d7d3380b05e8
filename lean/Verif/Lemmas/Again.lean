import Verif.Lemmas.Load
/-!
# Reading the same element into an object once more
-/
namespace Verif.Lemmas
open Verif Verif.Model Verif.Gen Verif.Spec

theorem replaceE_at {α ε : Type} {p : α → Bool} {f : α → Except ε α} {o : α} {rest : List α} (ho : p o = true) :
    ∀ {pre : List α} {r : List α}, (∀ v ∈ pre, p v = false) → replaceE p f (pre ++ o :: rest) = .ok r → ∃ w, f o = .ok w ∧ r = pre ++ w :: rest
  | [], r, _, h => by
    rw [List.nil_append, replaceE, if_pos ho] at h
    split at h
    · cases h
    · rename_i w hw; cases h; exact ⟨w, hw, rfl⟩
  | v :: pre, r, hp, h => by
    have hv : p v = false := hp v (by simp)
    rw [List.cons_append, replaceE, if_neg (by simp [hv])] at h
    split at h
    · cases h
    · rename_i l hl
      cases h
      obtain ⟨w, h1, rfl⟩ := replaceE_at ho (fun u hu => hp u (by simp [hu])) hl
      exact ⟨w, h1, rfl⟩

section
variable {py : Py} {strict : Bool} {T : Key → Option RBody}

theorem fold_again {rd : Key → Xml → Except RErr (MObj py.F)} {into : Key → Option (MObj py.F) → Xml → Except RErr (MObj py.F)} {s : RSlot}
    {alts : List (Key × Key)} (ha : AltsOk T alts) (hrd : ∀ k y o, rd k y = .ok o → into k none y = .ok o)
    (hname : ∀ k b y v o, T k = some b → nameOk b = true → into k v y = .ok o → o.name = elemName y ∧ o.cls = b.cls)
    (hag : ∀ k y o r, rd k y = .ok o → into k (some o) y = .ok r → Doubled o r)
    {ys : List Xml} : ∀ {ls : List (List (MObj py.F))} {pre r : List (MObj py.F)}, mapE (readItem py strict rd (.objs alts)) ys = .ok ls →
    ((pre ++ ls.flatten).map MObj.name).Nodup → foldE (putNamed py T into s alts) (pre ++ ls.flatten) ys = .ok r →
    ∃ l, r = pre ++ l ∧ DoubledMembers ls.flatten l := by
  induction ys with
  | nil =>
    intro ls pre r h _ hf
    cases h
    cases hf
    exact ⟨[], by simp, by simpa using DoubledMembers.nil⟩
  | cons y ys ih =>
    intro ls pre r h hn hf
    simp only [mapE] at h
    split at h
    · cases h
    rename_i l hl
    split at h
    · cases h
    rename_i ls' hls
    cases h
    simp only [readItem] at hl
    cases hk : altOf alts y.tag with
    | none =>
      rw [hk] at hl
      cases hl
      simp only [foldE, putNamed, hk, List.flatten_cons, List.nil_append] at hf hn ⊢
      exact ih hls hn hf
    | some k =>
      rw [hk] at hl
      simp only at hl
      split at hl
      · cases hl
      rename_i o ho
      cases hl
      obtain ⟨t', ht'⟩ := altOf_mem' hk
      obtain ⟨b, hb, hnb⟩ := ha _ ht'
      obtain ⟨hnm, hc⟩ := hname k b y none o hb hnb (hrd _ _ _ ho)
      simp only [List.flatten_cons, List.singleton_append] at hf hn ⊢
      have hit : isIt b.cls (elemName y) o = true := isIt_iff.2 ⟨hc, hnm⟩
      have hany : (pre ++ o :: ls'.flatten).any (isIt b.cls (elemName y)) = true := List.any_eq_true.2 ⟨o, by simp, hit⟩
      simp only [foldE, putNamed, hk, hb, hany, if_true] at hf
      split at hf
      · cases hf
      rename_i b' hb'
      split at hb'
      · cases hb'
      have hpre : ∀ v ∈ pre, isIt b.cls (elemName y) v = false := by
        intro v hv
        rw [Bool.eq_false_iff]
        intro hv'
        rw [isIt_iff] at hv'
        simp only [List.map_append, List.map_cons] at hn
        exact (List.nodup_append.1 hn).2.2 v.name (List.mem_map_of_mem hv) o.name (by simp) (by rw [hv'.2, hnm])
      obtain ⟨w, hw, rfl⟩ := replaceE_at hit hpre hb'
      obtain ⟨hwn, hwc⟩ := hname k b y (some o) w hb hnb hw
      have hl : pre ++ w :: ls'.flatten = (pre ++ [w]) ++ ls'.flatten := by simp
      rw [hl] at hf
      obtain ⟨l, rfl, hd⟩ := ih hls (by
        have : ((pre ++ [w] ++ ls'.flatten).map MObj.name) = ((pre ++ o :: ls'.flatten).map MObj.name) := by
          simp only [List.map_append, List.map_cons, hwn, hnm, List.append_assoc, List.singleton_append]
        rw [this]; exact hn) hf
      exact ⟨w :: l, by simp, .cons (by rw [hwn, hnm]) (by rw [hwc, hc]) (hag k y o w ho hw) hd⟩

theorem zip_again {rd : Key → Xml → Except RErr (MObj py.F)} {into : Key → Option (MObj py.F) → Xml → Except RErr (MObj py.F)} {over : List Key} {x : Xml} {c : Key}
    (hrd : ∀ k y o, rd k y = .ok o → into k none y = .ok o)
    (hname : ∀ k b y v o, T k = some b → nameOk b = true → into k v y = .ok o → o.name = elemName y ∧ o.cls = b.cls)
    (hag : ∀ k y o r, rd k y = .ok o → into k (some o) y = .ok r → Doubled o r)
    {slots : List RSlot} {vss rs : List (List (MObj py.F))} (hok : ∀ s ∈ slots, slotOk T s = true)
    (happ : ∀ s ∈ slots, s.isList = true → s.named = false → Appended c s.field)
    (hn : ∀ s vs, (s, vs) ∈ slots.zip vss → s.named = true → (vs.map MObj.name).Nodup)
    (h : mapE (readSlot py strict rd x) slots = .ok vss) (hz : zipE (intoSlot py strict T into over x) slots vss = .ok rs) :
    DoubledFields c ((slots.map RSlot.key).zip vss) ((slots.map RSlot.key).zip rs) := by
  induction slots generalizing vss rs with
  | nil => exact .nil c
  | cons s slots ih =>
    simp only [mapE] at h
    split at h
    · cases h
    rename_i vs hvs
    split at h
    · cases h
    rename_i vss' hvss
    cases h
    simp only [zipE] at hz
    split at hz
    · cases hz
    rename_i r hr
    split at hz
    · cases hz
    rename_i rs' hrs
    cases hz
    have hrest := ih (fun a ha => hok a (by simp [ha])) (fun a ha => happ a (by simp [ha])) (fun a us hm => hn a us (by simp [hm])) hvss hrs
    simp only [List.map_cons, List.zip_cons_cons]
    cases hnm : s.named with
    | false =>
      unfold intoSlot at hr
      rw [hnm] at hr
      simp only at hr
      rw [readSlot_mono hrd hvs] at hr
      simp only at hr
      split at hr
      · rename_i hl
        cases hr
        exact .twice _ _ (happ s (by simp) hl hnm) hrest
      · split at hr
        · cases hr; exact .same _ _ hrest
        · cases hr; exact .same _ _ hrest
    | true =>
      obtain ⟨alts, hi, halts, hreq, hlast, _⟩ := slotOk_named (hok s (by simp)) hnm
      obtain ⟨ls, hls, hv, _⟩ := readSlot_ok hvs
      rw [hlast] at hv
      simp only [Bool.false_eq_true, if_false] at hv
      rw [hi] at hls
      unfold intoSlot at hr
      rw [hnm, hi] at hr
      simp only at hr
      split at hr
      · cases hr
      rename_i r' hf
      split at hr
      · cases hr
      cases hr
      have hn' := hn s vs (by simp) hnm
      rw [← hv] at hf hn' ⊢
      obtain ⟨l, rfl, hd⟩ := fold_again (pre := []) halts hrd hname hag hls hn' hf
      exact .members _ (by simpa using hd) hrest

theorem into_again {over : Key → List Key} {n : Nat} {k : Key} {x : Xml} {o r : MObj py.F} (h : readObj py strict readers n k x = .ok o)
    (h' : intoObj py strict readers over n k (some o) x = .ok r) : Doubled o r := by
  induction n generalizing k x o r with
  | zero => cases h
  | succ n ih =>
    obtain ⟨m, b, vss, hm, hb, hvss, rfl, hnm⟩ := readObj_succ h
    cases hm
    obtain ⟨m, b', hm, hb', h'⟩ := intoObj_succ h'
    cases hm
    rw [hb] at hb'
    cases hb'
    obtain ⟨olds, rs, he, hlen, hz, rfl, _⟩ := intoBody_ok h'
    have hold : olds = vss := by
      simp only [Option.getD_some, MObj.mk.injEq, true_and] at he
      have h1 := congrArg (List.map Prod.snd) he
      have h2 : vss.length = b.slots.length := (mapE_ok hvss).length_eq.symm
      rw [List.map_snd_zip, List.map_snd_zip] at h1
      · exact h1.symm
      · simp [hlen]
      · simp [h2]
    subst hold
    exact .obj (zip_again (fun k y o h => into_fresh slotsOk h) (fun k b y v o hb hn h => intoObj_name hb hn h) (fun k y o r h h' => ih h h')
      (slotsOk k b hb) (fun s hs hl hn => ⟨k, b, s, hb, rfl, hs, rfl, hl, hn⟩) (fun s vs hm hs => nodup_slot hnm hm hs) hvss hz)

end

/-- a reader method appends to none of the attributes -/
def appendsNone (P : List (Key × Key)) (b : RBody) : Bool := b.slots.all fun s => !(P.contains (b.cls, s.field) && s.isList && !s.named)

mutual
/-- nothing in any attribute but these -/
def onlyB {F : Type} (P : List (Key × Key)) : MObj F → Bool
  | .scal _ => true
  | .mk c fs => onlyFB P c fs
def onlyFB {F : Type} (P : List (Key × Key)) (c : Key) : List ((Key × Bool) × List (MObj F)) → Bool
  | [] => true
  | (k, vs) :: fs => (P.contains (c, k.1) || vs.isEmpty) && onlyLB P vs && onlyFB P c fs
def onlyLB {F : Type} (P : List (Key × Key)) : List (MObj F) → Bool
  | [] => true
  | v :: vs => onlyB P v && onlyLB P vs
end

section
variable {P : List (Key × Key)}
mutual
theorem onlyB_sound {F : Type} (hP : ∀ e ∈ P, ¬ Appended e.1 e.2) : ∀ {o : MObj F}, onlyB P o = true → NoLists o
  | .scal _, _ => trivial
  | .mk _ _, h => onlyFB_sound hP h
theorem onlyFB_sound {F : Type} (hP : ∀ e ∈ P, ¬ Appended e.1 e.2) {c : Key} : ∀ {fs : List ((Key × Bool) × List (MObj F))}, onlyFB P c fs = true → NoListsF c fs
  | [], _ => trivial
  | (k, vs) :: fs, h => by
    simp only [onlyFB, Bool.and_eq_true, Bool.or_eq_true, List.contains_iff_mem, List.isEmpty_iff] at h
    exact ⟨fun ha => h.1.1.resolve_left fun hm => hP _ hm ha, onlyLB_sound hP h.1.2, onlyFB_sound hP h.2⟩
theorem onlyLB_sound {F : Type} (hP : ∀ e ∈ P, ¬ Appended e.1 e.2) : ∀ {vs : List (MObj F)}, onlyLB P vs = true → NoListsL vs
  | [], _ => trivial
  | v :: vs, h => by
    simp only [onlyLB, Bool.and_eq_true] at h
    exact ⟨onlyB_sound hP h.1, onlyLB_sound hP h.2⟩
end
end

theorem appendsNone_sound {P : List (Key × Key)} (h : Gen.readTable.all (fun _ b => appendsNone P b) = true) (hl : appendsNone P loadBody = true) :
    ∀ e ∈ P, ¬ Appended e.1 e.2 := by
  rintro ⟨c, f⟩ he ⟨k, b, s, hb, rfl, hs, rfl, h1, h2⟩
  have : appendsNone P b = true := by
    unfold readers at hb
    split at hb
    · cases hb; exact hl
    · exact (Bst.all_toList _ _).1 h _ (Bst.find?_mem hb)
  have := List.all_eq_true.1 this s hs
  simp [h1, h2, he] at this

mutual
theorem doubled_eq {F : Type} {o r : MObj F} : Doubled o r → NoLists o → r = o
  | .same _, _ => rfl
  | .obj h, hn => by rw [doubledF_eq h hn]
theorem doubledF_eq {F : Type} {c : Key} {fs fs' : List ((Key × Bool) × List (MObj F))} : DoubledFields c fs fs' → NoListsF c fs → fs' = fs
  | .nil _, _ => rfl
  | .same _ _ h, hn => by rw [doubledF_eq h hn.2.2]
  | .twice _ _ ha h, hn => by rw [doubledF_eq h hn.2.2, hn.1 ha]; rfl
  | .members _ hm h, hn => by rw [doubledF_eq h hn.2.2, doubledL_eq hm hn.2.1]
theorem doubledL_eq {F : Type} {vs vs' : List (MObj F)} : DoubledMembers vs vs' → NoListsL vs → vs' = vs
  | .nil, _ => rfl
  | .cons _ _ h hs, hn => by rw [doubled_eq h hn.1, doubledL_eq hs hn.2]
end

end Verif.Lemmas
