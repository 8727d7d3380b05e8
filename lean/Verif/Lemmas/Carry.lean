import Verif.Spec.Carry
import Verif.Lemmas.Exchange
import Verif.Lemmas.ChangeStep
/-!
# Changing one element of a file that is loaded and saved: lemmas
-/
namespace Verif.Lemmas
open Verif Verif.Model Verif.Spec

/-- the replaced objects keep their class and their name -/
def KeepsName {F : Type} (P : MObj F → MObj F → Prop) : Prop := ∀ v v', P v v' → ∃ c us us', v = .mk c us ∧ v' = .mk c us' ∧ v.name = v'.name

section
variable {F : Type} {P : MObj F → MObj F → Prop}

theorem re_cls (hP : KeepsName P) {o o' : MObj F} (h : Renewed P o o') : o.cls = o'.cls := by
  cases h with
  | here _ _ h => obtain ⟨c, us, us', rfl, rfl, _⟩ := hP _ _ h; rfl
  | scal s => rfl
  | inside => rfl

theorem re_in {f : Key} {fs fs' : List ((Key × Bool) × List (MObj F))} (h : RenewedIn P fs fs') :
    List.Forall₂ (Renewed P) (fs.flatMap fun e => if hits f e.1 then e.2 else []) (fs'.flatMap fun e => if hits f e.1 then e.2 else []) := by
  induction fs generalizing fs' with
  | nil => cases h; exact .nil
  | cons e fs ih =>
    cases h with
    | cons k vs vs' _ fs' hv hf =>
      simp only [List.flatMap_cons]
      refine List.rel_append ?_ (ih hf)
      split
      · exact hv
      · exact .nil

/-- two objects that are the same but for what is inside -/
structure AkinP (P : MObj F → MObj F → Prop) (o o' : MObj F) : Prop where
  cls : o.cls = o'.cls
  get : ∀ f, List.Forall₂ (Renewed P) (o.get f) (o'.get f)

theorem re_cases {o o' : MObj F} (h : Renewed P o o') : P o o' ∨ AkinP P o o' := by
  cases h with
  | here _ _ h => exact .inl h
  | scal s => exact .inr ⟨rfl, fun f => .nil⟩
  | inside d fs fs' hf => exact .inr ⟨rfl, fun f => re_in hf⟩

theorem re_str (hP : KeepsName P) {o o' : MObj F} (h : Renewed P o o') : o.str = o'.str := by
  cases h with
  | here _ _ h => obtain ⟨c, us, us', rfl, rfl, _⟩ := hP _ _ h; rfl
  | scal s => rfl
  | inside => rfl

theorem re_name (hP : KeepsName P) {o o' : MObj F} (h : (Renewed P) o o') : o.name = o'.name := by
  rcases re_cases h with h | h
  · obtain ⟨c, us, us', rfl, rfl, hn⟩ := hP _ _ h; exact hn
  · have := h.get k!"short_name"
    unfold MObj.name
    cases hg : o.get k!"short_name" with
    | nil => rw [hg] at this; cases hg' : o'.get k!"short_name" with
      | nil => rfl
      | cons w ws => rw [hg'] at this; cases this
    | cons w ws => rw [hg] at this; cases hg' : o'.get k!"short_name" with
      | nil => rw [hg'] at this; cases this
      | cons w' ws' => rw [hg'] at this; cases this with | cons h1 h2 => exact re_str hP h1

theorem akinP_view (hP : KeepsName P) {o o' : MObj F} (h : AkinP P o o') (f : Key) (w : List Key) :
    List.Forall₂ (Renewed P) (o.view f w) (o'.view f w) := by
  unfold MObj.view
  cases w with
  | nil => exact h.get f
  | cons a w => exact filter_rel (fun a b hab => by unfold MObj.inst; rw [re_cls hP hab]) (h.get f)

theorem akinP_holds (hP : KeepsName P) {o o' : MObj F} (h : AkinP P o o') (d : Cond) : d.holds o = d.holds o' := by
  cases d with
  | always => rfl
  | any fs => simp only [Cond.holds, fun s : Key × List Key => rel_isEmpty (akinP_view hP h s.1 s.2)]
  | none fs => simp only [Cond.holds, fun s : Key × List Key => rel_isEmpty (akinP_view hP h s.1 s.2)]
  | cls cs => simp only [Cond.holds, MObj.inst, h.cls]
  | notcls cs => simp only [Cond.holds, MObj.inst, h.cls]

end

section
variable {py : Py} {repr : py.F → Str} {strict : Bool} {P : MObj py.F → MObj py.F → Prop}

theorem attrOf_re (hP : KeepsName P) {n : Key} {k : WAKind} {l l' : List (MObj py.F)} (h : List.Forall₂ (Renewed P) l l') {r r' : Out}
    (h1 : writeAttrOf py strict n k l = .ok r) (h2 : writeAttrOf py strict n k l' = .ok r') : r = r' := by
  cases h with
  | nil => rw [h1] at h2; cases h2; rfl
  | cons hv _ =>
    cases hv with
    | here _ _ hv => obtain ⟨c, us, us', rfl, rfl, _⟩ := hP _ _ hv; cases h1
    | scal s =>
      simp only [writeAttrOf] at h1 h2
      rw [h1] at h2; cases h2; rfl
    | inside => cases h1

theorem textOf_re (hP : KeepsName P) {k : WAKind} {l l' : List (MObj py.F)} (h : List.Forall₂ (Renewed P) l l') {r r' : Out}
    (h1 : writeTextOf py strict k l = .ok r) (h2 : writeTextOf py strict k l' = .ok r') : r = r' := by
  cases h with
  | nil => rw [h1] at h2; cases h2; rfl
  | cons hv _ =>
    cases hv with
    | here _ _ hv => obtain ⟨c, us, us', rfl, rfl, _⟩ := hP _ _ hv; cases h1
    | scal s =>
      simp only [writeTextOf] at h1 h2
      rw [h1] at h2; cases h2; rfl
    | inside => cases h1

theorem prims_re (hP : KeepsName P) {t : Key} {k : WKind} {l l' : List (MObj py.F)} (h : List.Forall₂ (Renewed P) l l') {ys ys' : List Xml}
    (h1 : mapE (writePrim py repr t k) l = .ok ys) (h2 : mapE (writePrim py repr t k) l' = .ok ys') : ys = ys' := by
  have := mapE_pairs (S := Eq) (fun a b x y hab hx hy => ?_) h h1 h2
  · rwa [List.forall₂_eq_eq_eq] at this
  · cases hab with
    | here _ _ hv => obtain ⟨c, us, us', rfl, rfl, _⟩ := hP _ _ hv; cases hx
    | scal s => rw [hx] at hy; cases hy; rfl
    | inside => cases hx

theorem write_renewed (hP : KeepsName P) (n : Nat) : ∀ (n' : Nat) (b : WB) (o o' : MObj py.F) (out out' : Out),
    kidsApart writers b = true → AkinP P o o' →
    writeB py repr strict (writeObj py repr strict writers n) o b = .ok out →
    writeB py repr strict (writeObj py repr strict writers n') o' b = .ok out' → OutSw (PiecesOf py repr strict P) out out' := by
  induction n using Nat.strongRecOn with
  | _ n ihn =>
    intro n' b
    induction b with
    | nil => intro o o' out out' _ _ h h'; cases h; cases h'; exact outSw_refl _ _
    | attr a k f r ih =>
      intro o o' out out' ha hA h h'
      exact seqE_sw h h' (fun x x' h1 h2 => by rw [attrOf_re hP (hA.get f) h1 h2]; exact outSw_refl _ _) fun x x' h1 h2 => ih o o' x x' ha hA h1 h2
    | text k f r ih =>
      intro o o' out out' ha hA h h'
      exact seqE_sw h h' (fun x x' h1 h2 => by rw [textOf_re hP (hA.get f) h1 h2]; exact outSw_refl _ _) fun x x' h1 h2 => ih o o' x x' ha hA h1 h2
    | prim t k f r ih =>
      intro o o' out out' ha hA h h'
      refine seqE_sw h h' (fun x x' h1 h2 => ?_) fun x x' h1 h2 => ih o o' x x' ha hA h1 h2
      obtain ⟨ys, hy, rfl⟩ := map_split h1
      obtain ⟨ys', hy', rfl⟩ := map_split h2
      rw [prims_re hP (hA.get f) hy hy']; exact outSw_refl _ _
    | oprim u t k f r ih =>
      intro o o' out out' ha hA h h'
      refine seqE_sw h h' (fun x x' h1 h2 => ?_) fun x x' h1 h2 => ih o o' x x' ha hA h1 h2
      obtain ⟨ys, hy, rfl⟩ := map_split h1
      obtain ⟨ys', hy', rfl⟩ := map_split h2
      rw [prims_re hP (hA.get f) hy hy']; exact outSw_refl _ _
    | wrap d t b r ihb ih =>
      intro o o' out out' ha hA h h'
      simp only [kidsApart, Bool.and_eq_true] at ha
      refine seqE_sw h h' (fun x x' h1 h2 => ?_) fun x x' h1 h2 => ih o o' x x' ha.2 hA h1 h2
      rw [← akinP_holds hP hA d] at h2
      split at h1
      · rename_i hd
        rw [if_pos hd] at h2
        obtain ⟨y, hy, rfl⟩ := map_split h1
        obtain ⟨y', hy', rfl⟩ := map_split h2
        exact ⟨rfl, rfl, outSw_node (ihb o o' y y' ha.1 hA hy hy') t⟩
      · rename_i hd
        rw [if_neg hd] at h2
        cases h1; cases h2; exact outSw_refl _ _
    | «when» d b r ihb ih =>
      intro o o' out out' ha hA h h'
      simp only [kidsApart, Bool.and_eq_true] at ha
      refine seqE_sw h h' (fun x x' h1 h2 => ?_) fun x x' h1 h2 => ih o o' x x' ha.2 hA h1 h2
      rw [← akinP_holds hP hA d] at h2
      split at h1
      · rename_i hd
        rw [if_pos hd] at h2
        exact ihb o o' x x' ha.1 hA h1 h2
      · rename_i hd
        rw [if_neg hd] at h2
        cases h1; cases h2; exact outSw_refl _ _
    | fail e al r ih =>
      intro o o' out out' ha hA h h'
      refine seqE_sw h h' (fun x x' h1 h2 => ?_) fun x x' h1 h2 => ih o o' x x' ha hA h1 h2
      split at h1
      · cases h1
      · rename_i hd
        rw [if_neg hd] at h2
        cases h1; cases h2; exact outSw_refl _ _
    | each f w a cs oth r ih =>
      intro o o' out out' ha hA h h'
      simp only [kidsApart, Bool.and_eq_true] at ha
      refine seqE_sw h h' (fun x x' h1 h2 => ?_) fun x x' h1 h2 => ih o o' x x' ha.2 hA h1 h2
      obtain ⟨ys, hy, rfl⟩ := map_split h1
      obtain ⟨ys', hy', rfl⟩ := map_split h2
      have hitems : List.Forall₂ (Renewed P) (if a.sort then byName (o.view f w) else o.view f w) (if a.sort then byName (o'.view f w) else o'.view f w) := by
        split
        · exact sortBy_rel (fun p q hpq => by rw [re_name hP hpq]) (akinP_view hP hA f w)
        · exact akinP_view hP hA f w
      -- one object
      have hone : ∀ p q y y', (Renewed P) p q → writeCase py strict (writeObj py repr strict writers n) cs oth p = .ok y →
          writeCase py strict (writeObj py repr strict writers n') cs oth q = .ok y' →
          OutSw (PiecesOf py repr strict P) y y' ∧ (a = .nested → OneSw (PiecesOf py repr strict P) y y') := by
        intro p q y y' hpq hp hq
        have hc := re_cls hP hpq
        rcases case_eq hp with ⟨hp0, rfl⟩ | ⟨cc, hcc, hp⟩
        · rcases case_eq hq with ⟨_, rfl⟩ | ⟨cc, hcc, _⟩
          · refine ⟨outSw_refl _ _, fun hnest => ?_⟩
            obtain ⟨k0, hk0, ht, ht'⟩ : ∃ x, x ∈ cs ∧ x.pos = [] ∧ x.neg = [] := by simpa [hnest] using ha.1.2
            have := List.find?_eq_none.1 hp0 k0 hk0
            simp [Case.takes, ht, ht'] at this
          · rw [← hc, hp0] at hcc; cases hcc
        · rcases case_eq hq with ⟨hq0, _⟩ | ⟨cc', hcc', hq⟩
          · rw [← hc, hcc] at hq0; cases hq0
          · rw [← hc, hcc] at hcc'
            cases hcc'
            have hb := List.all_eq_true.1 ha.1.1 cc (List.mem_of_find?_eq_some hcc)
            split at hb
            · cases hb
            · rename_i b' hb'
              rw [Bool.and_eq_true] at hb
              have hbare := bare_obj _ _ _ _ _ hb' hb.1 hp
              have hbare' := bare_obj _ _ _ _ _ hb' hb.1 hq
              rcases re_cases hpq with hv | hA'
              · have hP : (PiecesOf py repr strict P) y.kids y'.kids := ⟨_, _, hv, _, _, _, by rw [hp, ← hbare.1, ← hbare.2], by rw [hq, ← hbare'.1, ← hbare'.2]⟩
                refine ⟨⟨by rw [hbare.1, hbare'.1], by rw [hbare.2, hbare'.2], .piece _ _ hP⟩, fun hnest => ⟨hbare, hbare', .inr ⟨hP, ?_⟩⟩⟩
                obtain ⟨t, r', rfl⟩ := one_of (by simpa [hnest] using hb.2)
                cases n' with
                | zero => cases hq
                | succ n' =>
                  cases n with
                  | zero => cases hp
                  | succ n =>
                    unfold writeObj at hp hq
                    rw [hb'] at hp hq
                    obtain ⟨z, _, rfl⟩ := one_write hp
                    obtain ⟨z', _, rfl⟩ := one_write hq
                    exact ⟨_, _, _, _, _, _, _, _, rfl, rfl⟩
              · cases n' with
                | zero => cases hq
                | succ n' =>
                  cases n with
                  | zero => cases hp
                  | succ n =>
                    unfold writeObj at hp hq
                    rw [hb'] at hp hq
                    refine ⟨ihn n (Nat.lt_succ_self n) n' b' p q y y' (apart_of hb') hA' hp hq, fun hnest => ⟨hbare, hbare', .inl ?_⟩⟩
                    obtain ⟨t, r', rfl⟩ := one_of (by simpa [hnest] using hb.2)
                    obtain ⟨z, hz, rfl⟩ := one_write hp
                    obtain ⟨z', hz', rfl⟩ := one_write hq
                    have hap := apart_of hb'
                    simp only [kidsApart, Bool.and_eq_true] at hap
                    have := ihn n (Nat.lt_succ_self n) n' r' p q z z' hap.1 hA' hz hz'
                    exact ⟨t, z.attrs, z.text, z.kids, z'.kids, rfl, by simp [Out.node, this.attrs, this.text], this.kids⟩
      cases ha' : a with
      | nested => exact (nest_sw (mapE_pairs (fun p q y y' hpq h1 h2 => (hone p q y y' hpq h1 h2).2 ha') hitems hy hy')).1
      | plain => exact outSw_outs (mapE_pairs (fun p q y y' hpq h1 h2 => (hone p q y y' hpq h1 h2).1) hitems hy hy')
      | sorted => exact outSw_outs (mapE_pairs (fun p q y y' hpq h1 h2 => (hone p q y y' hpq h1 h2).1) hitems hy hy')

end

section
variable {F : Type} (P : MObj F → MObj F → Prop)

mutual
theorem re_refl : ∀ o : MObj F, Renewed P o o
  | .scal s => .scal s
  | .mk c fs => .inside c fs fs (re_reflIn fs)
theorem re_reflIn : ∀ fs : List ((Key × Bool) × List (MObj F)), RenewedIn P fs fs
  | [] => .nil
  | (k, vs) :: fs => .cons k vs vs fs fs (re_reflL vs) (re_reflIn fs)
theorem re_reflL : ∀ vs : List (MObj F), List.Forall₂ (Renewed P) vs vs
  | [] => .nil
  | w :: vs => .cons (re_refl w) (re_reflL vs)
end

end

section
variable {py : Py}

theorem re_map {F : Type} {P : MObj F → MObj F → Prop} {t : Key} {w : MObj F} {fs fs' : List ((Key × Bool) × List (MObj F))} (h : RenewedIn P fs fs') :
    RenewedIn P (fs.map fun e => if e.1.1 = t then (e.1, [w]) else e) (fs'.map fun e => if e.1.1 = t then (e.1, [w]) else e) := by
  induction fs generalizing fs' with
  | nil => cases h; exact .nil
  | cons e fs ih =>
    cases h with
    | cons k vs vs' _ fs' hv hf =>
      simp only [List.map_cons]
      split
      · exact .cons _ _ _ _ _ (re_reflL _ _) (ih hf)
      · exact .cons _ _ _ _ _ hv (ih hf)

theorem schema_akinP {P : MObj py.F → MObj py.F → Prop} {k : Key} {fs fs' : List ((Key × Bool) × List (MObj py.F))} (hf : RenewedIn P fs fs') :
    AkinP P (withSchema py (.mk k fs)) (withSchema py (.mk k fs')) := by
  have hA : AkinP P (.mk k fs) (.mk k fs') := ⟨rfl, fun f => re_in hf⟩
  have he : (MObj.mk k fs).get k!"schema_location" = [] ↔ (MObj.mk k fs').get k!"schema_location" = [] := by
    have := rel_isEmpty (hA.get k!"schema_location")
    rw [← List.isEmpty_iff, ← List.isEmpty_iff, this]
  unfold withSchema
  by_cases hs : (MObj.mk k fs).get k!"schema_location" = []
  · rw [if_pos hs, if_pos (he.1 hs)]
    exact ⟨rfl, fun f => re_in (re_map hf)⟩
  · rw [if_neg hs, if_neg fun h' => hs (he.2 h')]
    exact hA

theorem save_renewed {repr : py.F → Str} {strict : Bool} {P : MObj py.F → MObj py.F → Prop} (hP : KeepsName P) {k : Key}
    {fs fs' : List ((Key × Bool) × List (MObj py.F))} (h : RenewedIn P fs fs') {y y' : Xml} (h1 : save py repr strict (.mk k fs) = .ok y)
    (h2 : save py repr strict (.mk k fs') = .ok y') : Replaced (PiecesOf py repr strict P) [y] [y'] := by
  have key : ∀ {e : MObj py.F} {z : Xml}, save py repr strict e = .ok z → ∃ n out, writeB py repr strict (writeObj py repr strict writers n) (withSchema py e) saveBody = .ok out ∧
      out.kids = [z] := by
    intro e z h
    unfold save at h
    split at h
    · cases h
    · rename_i out hw
      split at h
      · rename_i x hx
        cases h
        cases hdep : (withSchema py e).depth with
        | zero => rw [hdep] at hw; cases hw
        | succ n =>
          rw [hdep] at hw
          exact ⟨n, out, hw, hx⟩
      · cases h
  obtain ⟨n, out, hw, hk⟩ := key h1
  obtain ⟨n', out', hw', hk'⟩ := key h2
  have := (write_renewed hP n n' saveBody _ _ out out' apart_save (schema_akinP h) hw hw').kids
  rwa [hk, hk'] at this

/-! ## The objects made of an element keep their name -/

/-- the short name is read from the children `SHORT-NAME` -/
def nameSlots (s : RSlot) : Bool := !hits k!"short_name" s.key || (s.item == .name && s.path == .first [k!"SHORT-NAME"] .nil)

set_option maxRecDepth 100000 in
theorem nameSlots_table : (Gen.readTable.all fun _ b => b.slots.all nameSlots) = true := by decide +kernel

theorem nameSlots_load : loadBody.slots.all nameSlots = true := by decide +kernel

theorem nameSlots_of {k : Key} {b : RBody} (hb : readers k = some b) {s : RSlot} (hs : s ∈ b.slots) : nameSlots s = true := by
  unfold readers at hb
  split at hb
  · cases hb; exact List.all_eq_true.1 nameSlots_load s hs
  · exact List.all_eq_true.1 ((Bst.all_toList _ _).1 nameSlots_table _ (Bst.find?_mem hb)) s hs

theorem flat_same {F : Type} {f : Key} {ks : List (Key × Bool)} {vs vs' : List (List (MObj F))}
    (h : List.Forall₂ (fun k (p : List (MObj F) × List (MObj F)) => hits f k = true → p.1 = p.2) ks (vs.zip vs')) (hl : vs.length = vs'.length) :
    ((ks.zip vs).flatMap fun e => if hits f e.1 then e.2 else []) = ((ks.zip vs').flatMap fun e => if hits f e.1 then e.2 else []) := by
  induction ks generalizing vs vs' with
  | nil => rfl
  | cons k ks ih =>
    cases vs with
    | nil => cases h
    | cons v vs =>
      cases vs' with
      | nil => cases h
      | cons v' vs' =>
        cases h with
        | cons h1 h2 =>
          simp only [List.zip_cons_cons, List.flatMap_cons, ih h2 (by simpa using hl)]
          split
          · rename_i hk; rw [show v = v' from h1 hk]
          · rfl

theorem made_name {strict : Bool} {e e' : Xml} (hn : e.kids.filter (tagIs k!"SHORT-NAME") = e'.kids.filter (tagIs k!"SHORT-NAME")) :
    KeepsName (MadeFrom py strict e e') := by
  rintro v v' ⟨n, n', k, h1, h2⟩
  cases n with
  | zero => cases h1
  | succ n =>
    cases n' with
    | zero => cases h2
    | succ n' =>
      simp only [readObj] at h1 h2
      cases hb : readers k with
      | none => rw [hb] at h1; cases h1
      | some b =>
        rw [hb] at h1 h2
        simp only [readBody] at h1 h2
        split at h1
        · cases h1
        · rename_i vs hvs
          split at h2
          · cases h2
          · rename_i vs' hvs'
            split at h1
            · split at h2
              · cases h1; cases h2
                refine ⟨_, _, _, rfl, rfl, ?_⟩
                have hsel : select (.first [k!"SHORT-NAME"] .nil) e = select (.first [k!"SHORT-NAME"] .nil) e' := by
                  simp only [select, walk, hn]
                have key : ∀ (l : List RSlot) (ws ws' : List (List (MObj py.F))), (∀ s ∈ l, s ∈ b.slots) →
                    mapE (readSlot py strict (readObj py strict readers n) e) l = .ok ws →
                    mapE (readSlot py strict (readObj py strict readers n') e') l = .ok ws' →
                    ws.length = ws'.length ∧ List.Forall₂ (fun k (p : List (MObj py.F) × List (MObj py.F)) => hits k!"short_name" k = true → p.1 = p.2)
                      (l.map RSlot.key) (ws.zip ws') := by
                  intro l
                  induction l with
                  | nil => intro ws ws' _ g1 g2; cases g1; cases g2; exact ⟨rfl, .nil⟩
                  | cons s l ih =>
                    intro ws ws' hm g1 g2
                    unfold mapE at g1 g2
                    split at g1
                    · cases g1
                    · rename_i w hw
                      split at g1
                      · cases g1
                      · rename_i ws1 hws1
                        split at g2
                        · cases g2
                        · rename_i w' hw'
                          split at g2
                          · cases g2
                          · rename_i ws2 hws2
                            cases g1; cases g2
                            obtain ⟨hl, hr⟩ := ih ws1 ws2 (fun t ht => hm t (by simp [ht])) hws1 hws2
                            refine ⟨by simp [hl], .cons (fun hk => ?_) hr⟩
                            have hns := nameSlots_of hb (hm s (by simp))
                            simp only [nameSlots, hk, Bool.not_true, Bool.false_or, Bool.and_eq_true, beq_iff_eq] at hns
                            simp only [readSlot, hns.1, hns.2, hsel] at hw hw'
                            have hf : readItem py strict (readObj py strict readers n) .name = readItem py strict (readObj py strict readers n') .name := by
                              funext y; rfl
                            rw [hf, hw'] at hw
                            cases hw; rfl
                obtain ⟨hl, hr⟩ := key b.slots vs vs' (fun s hs => hs) hvs hvs'
                have := flat_same (f := k!"short_name") hr hl
                have hg : (MObj.mk b.cls ((b.slots.map RSlot.key).zip vs) : MObj py.F).get k!"short_name" =
                    (MObj.mk b.cls ((b.slots.map RSlot.key).zip vs')).get k!"short_name" := this
                unfold MObj.name
                rw [hg]
              · cases h2
            · cases h1

theorem carry_exchanged {repr : py.F → Str} {strict : Bool} {e e' : Xml} (ht : e.tag = e'.tag) (hw : Whole e.tag)
    (hn : e.kids.filter (tagIs k!"SHORT-NAME") = e'.kids.filter (tagIs k!"SHORT-NAME")) {x x' : Xml} (h : Exchanged e e' x x') (hx : x ≠ e)
    {d d' : MObj py.F} (h1 : load py strict x = .ok d) (h2 : load py strict x' = .ok d') {y y' : Xml} (g1 : save py repr strict d = .ok y)
    (g2 : save py repr strict d' = .ok y') : Replaced (PiecesOf py repr strict (MadeFrom py strict e e')) [y] [y'] := by
  unfold load at h1 h2
  split at h1
  · cases h1
  · split at h2
    · cases h2
    · have hl := (ex_cases h).resolve_left fun h => hx h.1
      cases hd : x.depth with
      | zero => rw [hd] at h1; cases h1
      | succ n =>
        cases hd' : x'.depth with
        | zero => rw [hd'] at h2; cases h2
        | succ n' =>
          rw [hd] at h1; rw [hd'] at h2
          obtain ⟨c, fs, fs', rfl, rfl, hf⟩ := body_exchanged ht hw n n' k!"load" hl (fun k y y' v v' hy hv hv' => read_exchanged ht hw n n' k hy hv hv') h1 h2
          exact save_renewed (made_name hn) hf g1 g2

end

end Verif.Lemmas
