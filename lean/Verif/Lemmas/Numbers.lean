import Verif.Spec.Numbers
import Verif.Lemmas.Built
import Verif.Model.Load
import Verif.Props.Prim
/-!
# Numbers that were assigned: lemmas
-/
namespace Verif.Lemmas
open Verif Verif.Model Verif.Spec Verif.Props Re

variable {py : Py} {repr : py.F → Str}

theorem backF_eq (fs : List ((Key × Bool) × List (MObj py.F))) : backF repr fs = fs.map fun e => (e.1, backL repr e.2) := by
  induction fs with
  | nil => rfl
  | cons e fs ih => obtain ⟨k, vs⟩ := e; rw [backF, ih]; rfl

theorem backL_eq (vs : List (MObj py.F)) : backL repr vs = vs.map (back repr) := by
  induction vs with
  | nil => rfl
  | cons e fs ih => rw [backL, ih]; rfl

theorem back_fields (o : MObj py.F) : (back repr o).fields = o.fields.map fun e => (e.1, e.2.map (back repr)) := by
  cases o with
  | scal s => rfl
  | mk c fs => simp only [back, MObj.fields, backF_eq, backL_eq]

theorem back_cls (o : MObj py.F) : (back repr o).cls = o.cls := by
  cases o <;> rfl

theorem back_get (o : MObj py.F) (f : Key) : (back repr o).get f = (o.get f).map (back repr) := by
  rw [MObj.get, MObj.get, back_fields, List.flatMap_map, List.map_flatMap]
  refine List.flatMap_congr fun e _ => ?_
  dsimp only
  split <;> simp

theorem backS_str (s : Scalar py.F) : (MObj.scal (backS repr s)).str = (MObj.scal s).str := by
  unfold backS
  split <;> rfl

theorem back_str (o : MObj py.F) : (back repr o).str = o.str := by
  cases o with
  | scal s => exact backS_str s
  | mk c fs => rfl

theorem back_name (o : MObj py.F) : (back repr o).name = o.name := by
  unfold MObj.name
  rw [back_get]
  cases o.get k!"short_name" with
  | nil => rfl
  | cons v vs => exact back_str v

theorem back_inst (cs : List Key) (o : MObj py.F) : (back repr o).inst cs = o.inst cs := by
  unfold MObj.inst
  rw [back_cls]

theorem back_view (o : MObj py.F) (f : Key) (v : List Key) : (back repr o).view f v = (o.view f v).map (back repr) := by
  cases v with
  | nil => exact back_get o f
  | cons c cs =>
    simp only [MObj.view, back_get, List.filter_map]
    congr 1
    exact List.filter_congr fun x _ => back_inst _ x

theorem back_holds (o : MObj py.F) (c : Cond) : c.holds (back repr o) = c.holds o := by
  cases c with
  | always => rfl
  | any fs => simp only [Cond.holds, back_view, List.isEmpty_map]
  | none fs => simp only [Cond.holds, back_view, List.isEmpty_map]
  | cls cs => exact back_inst cs o
  | notcls cs => simp only [Cond.holds, back_inst]

/-! ### Writing -/

theorem back_byName (l : List (MObj py.F)) : byName (l.map (back repr)) = (byName l).map (back repr) := by
  unfold byName sortBy
  induction l with
  | nil => rfl
  | cons x l ih =>
    simp only [List.map_cons, List.foldr_cons, ih]
    generalize List.foldr (insertBy fun o => String.ofList o.name) [] l = r
    induction r with
    | nil => rfl
    | cons y r ih =>
      simp only [List.map_cons, insertBy, back_name]
      split
      · rfl
      · rw [ih]; rfl

theorem mapE_map {α β γ ε : Type} (g : α → β) (f : β → Except ε γ) (l : List α) : mapE f (l.map g) = mapE (fun x => f (g x)) l := by
  induction l with
  | nil => rfl
  | cons x l ih => simp only [List.map_cons, mapE, ih]

theorem writeKind_back (k : WKind) (t : Key) (s : Scalar py.F) : writeKind py repr k t (backS repr s) = writeKind py repr k t s := by
  unfold backS
  split
  · cases k <;> rfl
  · cases k <;> rfl
  · cases k <;> try rfl
    next b => cases b <;> rfl
  · rfl

theorem writePrim_back (k : WKind) (t : Key) (v : MObj py.F) : writePrim py repr t k (back repr v) = writePrim py repr t k v := by
  cases v with
  | scal s => exact writeKind_back k t s
  | mk c fs => rfl

theorem writeAttr_back (strict : Bool) (k : WAKind) (s : Scalar py.F) : writeAttr py strict k (backS repr s) = writeAttr py strict k s := by
  unfold backS
  split
  · cases k <;> rfl
  · cases k <;> rfl
  · cases k <;> rfl
  · rfl

theorem writeAttrOf_back (strict : Bool) (n : Key) (k : WAKind) (vs : List (MObj py.F)) :
    writeAttrOf py strict n k (vs.map (back repr)) = writeAttrOf py strict n k vs := by
  cases vs with
  | nil => rfl
  | cons v vs => cases v with
    | scal s => simp only [List.map_cons, back, writeAttrOf, writeAttr_back]
    | mk c fs => rfl

theorem writeTextOf_back (strict : Bool) (k : WAKind) (vs : List (MObj py.F)) :
    writeTextOf py strict k (vs.map (back repr)) = writeTextOf py strict k vs := by
  cases vs with
  | nil => rfl
  | cons v vs => cases v with
    | scal s => simp only [List.map_cons, back, writeTextOf, writeAttr_back]
    | mk c fs => rfl

theorem writeCase_back {strict : Bool} {wr : Key → MObj py.F → Except PyErr Out} (hw : ∀ k o, wr k (back repr o) = wr k o) (cases' : List Case) (other : Other)
    (o : MObj py.F) : writeCase py strict wr cases' other (back repr o) = writeCase py strict wr cases' other o := by
  unfold writeCase
  simp only [back_cls, hw]

theorem writeB_back {strict : Bool} {wr : Key → MObj py.F → Except PyErr Out} (hw : ∀ k o, wr k (back repr o) = wr k o) (o : MObj py.F) (b : WB) :
    writeB py repr strict wr (back repr o) b = writeB py repr strict wr o b := by
  induction b with
  | nil => rfl
  | attr n k f r ih => simp only [writeB, back_get, writeAttrOf_back, ih]
  | text k f r ih => simp only [writeB, back_get, writeTextOf_back, ih]
  | prim t k f r ih => simp only [writeB, back_get, mapE_map, writePrim_back, ih]
  | oprim u t k f r ih => simp only [writeB, back_get, mapE_map, writePrim_back, ih]
  | each f v a cs other r ih =>
    simp only [writeB, back_view, back_byName, ih]
    congr 2
    split <;> simp only [mapE_map, writeCase_back hw]
  | wrap c t b r ihb ih => simp only [writeB, back_holds, ihb, ih]
  | when c b r ihb ih => simp only [writeB, back_holds, ihb, ih]
  | fail e a r ih => simp only [writeB, ih]

theorem writeObj_back {strict : Bool} {T : Key → Option WB} (n : Nat) (k : Key) (o : MObj py.F) :
    writeObj py repr strict T n k (back repr o) = writeObj py repr strict T n k o := by
  induction n generalizing k o with
  | zero => rfl
  | succ n ih =>
    simp only [writeObj]
    split
    · rfl
    · exact writeB_back ih o _

mutual
theorem back_depth : ∀ o : MObj py.F, (back repr o).depth = o.depth
  | .scal _ => rfl
  | .mk _ fs => by rw [back, MObj.depth, MObj.depth, back_depthF fs]
theorem back_depthF : ∀ fs : List ((Key × Bool) × List (MObj py.F)), MObj.depthF (backF repr fs) = MObj.depthF fs
  | [] => rfl
  | (_, vs) :: fs => by rw [backF, MObj.depthF, MObj.depthF, back_depthL vs, back_depthF fs]
theorem back_depthL : ∀ vs : List (MObj py.F), MObj.depthL (backL repr vs) = MObj.depthL vs
  | [] => rfl
  | v :: vs => by rw [backL, MObj.depthL, MObj.depthL, back_depth v, back_depthL vs]
end

theorem back_withSchema (d : MObj py.F) : withSchema py (back repr d) = back repr (withSchema py d) := by
  unfold withSchema
  simp only [back_get, List.map_eq_nil_iff]
  split
  · cases d with
    | scal s => rfl
    | mk c fs =>
      simp only [back, backF_eq, backL_eq, List.map_map]
      congr 1
      refine List.map_congr_left fun e _ => ?_
      simp only [Function.comp]
      split <;> rfl
  · rfl

/-- Assigned numbers are written like the numbers read from what is written. -/
theorem save_back (strict : Bool) (d : MObj py.F) : save py repr strict (back repr d) = save py repr strict d := by
  unfold save
  rw [back_withSchema, back_depth, writeObj_back]

/-! ### The attributes -/

theorem hasText_back (v : MObj py.F) (h : hasText v) : hasText (back repr v) := by
  cases v with
  | mk c fs => exact trivial
  | scal s =>
    unfold back backS
    split
    · obtain ⟨w, hw, h⟩ := h; cases h
    · obtain ⟨w, hw, h⟩ := h; cases h
    · exact trivial
    · exact h

theorem isPlain_back (v : MObj py.F) (h : isPlain v) : isPlain (back repr v) := by
  cases v with
  | mk c fs => exact trivial
  | scal s =>
    unfold back backS
    split
    · exact trivial
    · exact trivial
    · exact trivial
    · exact h

theorem need_back {strict : Bool} (m : Need) (o : MObj py.F) (h : m.ok strict o) : m.ok strict (back repr o) := by
  induction m generalizing o with
  | empty f => simpa only [Need.ok, back_get, List.map_eq_nil_iff] using h
  | never f c =>
    simp only [Need.ok, back_get, List.mem_map, forall_exists_index, and_imp, forall_apply_eq_imp_iff₂, back_cls] at h ⊢
    exact h
  | oneOf fs => simpa only [Need.ok, back_get, ne_eq, List.map_eq_nil_iff] using h
  | notBoth f g => simpa only [Need.ok, back_get, List.map_eq_nil_iff] using h
  | single f => simpa only [Need.ok, back_get, List.length_map] using h
  | along f g => simpa only [Need.ok, back_get, ne_eq, List.map_eq_nil_iff] using h
  | same f g =>
    simp only [Need.ok, back_get] at h ⊢
    rw [h]
  | full f =>
    simp only [Need.ok, back_get, List.mem_map, forall_exists_index, and_imp, forall_apply_eq_imp_iff₂] at h ⊢
    exact fun v hv => hasText_back v (h v hv)
  | plain f =>
    simp only [Need.ok, back_get, List.mem_map, forall_exists_index, and_imp, forall_apply_eq_imp_iff₂] at h ⊢
    exact fun v hv => isPlain_back v (h v hv)
  | inside f n ih =>
    simp only [Need.ok, back_get, List.mem_map, forall_exists_index, and_imp, forall_apply_eq_imp_iff₂] at h ⊢
    exact fun v hv => ih v (h v hv)
  | strict n ih =>
    simp only [Need.ok] at h ⊢
    exact fun hs => ih o (h hs)

theorem namesOk_back (slots : List RSlot) (o : MObj py.F) : namesOk slots (back repr o) = namesOk slots o := by
  unfold namesOk
  simp only [back_get, List.map_map, List.length_map]
  congr 1
  funext s
  congr 3
  have : (MObj.name ∘ back repr : MObj py.F → Str) = MObj.name := funext fun o => back_name o
  rw [this]

/-! ### Values -/

theorem parseNum?_text {c : PObj.Cls} {w : Str} {o : PObj py.F} (h : parseNum? py c w = .ok o) : (∃ w, o.text = some w) ∨ o = PObj.new := by
  unfold parseNum? at h
  split at h
  · cases h; exact .inr rfl
  · exact .inl ⟨w, parseNum_text h⟩

theorem backS_text {c : PObj.Cls} {t u sl : Option Str} {o : PObj py.F} {w : Str} (h : o.text = some w) : backS repr (.num c t u sl o) = .num c t u sl o := by
  obtain ⟨v, tx⟩ := o
  cases h
  unfold backS
  split <;> first | rfl | (rename_i h; cases h)

theorem backS_new {c : PObj.Cls} {t u sl : Option Str} {o : PObj py.F} (h : (∃ w, o.text = some w) ∨ o = PObj.new) :
    backS repr (.num c t u sl o) = .num c t u sl o := by
  rcases h with ⟨w, h⟩ | rfl
  · exact backS_text h
  · cases c <;> rfl

theorem bool_text {w : Str} {o : PBool.BObj} (h : PBool.setValue py PBool.new (.str w) = (o, none)) : ∃ t, o.text = some t := by
  unfold PBool.setValue PBool.assign at h
  dsimp only at h
  split at h
  · cases h; exact ⟨_, rfl⟩
  · cases h

/-- A value that was read is the same when it was written and read. -/
theorem backS_read {k : RKind} {s : Scalar py.F} (h : ScalarOf py k s) : backS repr s = s := by
  unfold ScalarOf at h
  split at h
  · obtain ⟨t, u, v, rfl⟩ := h; rfl
  · obtain ⟨v, rfl⟩ := h; rfl
  · obtain ⟨v, _, rfl⟩ := h; rfl
  · obtain ⟨v, _, rfl⟩ := h; rfl
  · obtain ⟨t, u, v, _, _, rfl⟩ := h; rfl
  · obtain ⟨t, u, w, o, _, h, rfl⟩ := h; exact backS_text (parseNum_text h)
  · obtain ⟨w, o, h, rfl⟩ := h; exact backS_new (parseNum?_text h)
  · obtain ⟨w, o, _, h, rfl⟩ := h; exact backS_text (parseNum_text h)
  · obtain ⟨t, w, o, _, h, rfl⟩ := h
    obtain ⟨tx, ht⟩ := bool_text h
    obtain ⟨v, tx⟩ := o
    cases ht
    cases v <;> rfl
  · obtain ⟨t, u, sl, w, o, h, rfl⟩ := h; exact backS_new (parseNum?_text h)
  · obtain ⟨t, u, w, o, h, rfl⟩ := h; exact backS_new (parseNum?_text h)
  · obtain ⟨t, u, w, o, _, h, _, rfl⟩ := h; exact backS_text (parseNum_text h)
  · obtain ⟨w, o, h, rfl⟩ := h; exact backS_new (parseNum?_text h)
  · obtain ⟨t, u, iv, v, rfl⟩ := h; rfl
  · obtain ⟨b, d, v, rfl⟩ := h; rfl
  · obtain ⟨b, v, rfl⟩ := h; rfl
  · obtain ⟨d, _, rfl⟩ := h; rfl
  · obtain ⟨v, _, rfl⟩ := h; rfl
  · obtain ⟨v, _, rfl⟩ := h; rfl

theorem backS_attr {k : AKind} {s : Scalar py.F} (h : AttrOf py k s) : backS repr s = s := by
  unfold AttrOf at h
  split at h
  · obtain ⟨v, rfl⟩ := h; rfl
  · obtain ⟨v, rfl⟩ := h; rfl
  · obtain ⟨e, _, rfl⟩ := h; rfl

theorem dec_ne {d : Dec} {ips fps xs : List Nat} (h : Dec.Wf py d ips fps xs) : d.text ≠ [] := by
  intro h0
  unfold Dec.text at h0
  simp only [List.append_eq_nil_iff] at h0
  obtain ⟨⟨⟨h1, h2⟩, h3⟩, h4⟩ := h0
  have hi : ips = [] := by
    have := h.ip
    unfold Digits at this
    rw [h2] at this
    simpa using this.symm
  rcases h.nonempty with h' | h'
  · exact h' hi
  · cases hp : d.point with
    | false => exact h' (h.noPoint hp)
    | true => rw [hp] at h3; cases h3

theorem parse_dec {c : PObj.Cls} {d : Dec} {ips fps xs : List Nat} (h : Dec.Wf py d ips fps xs) :
    parseNum py c d.text = .ok ⟨.num (.flt (py.ofRat (d.value ips fps xs))), some d.text⟩ := by
  unfold parseNum PObj.setValue PObj.assign
  simp only [C20_decimal py d ips fps xs h]

theorem parse_int (c : PObj.Cls) (i : Int) : strInt i ≠ [] ∧ parseNum py c (strInt i) = .ok ⟨.num (.flt (py.ofRat i)), some (strInt i)⟩ := by
  obtain ⟨d, ips, hw, ht, hv⟩ := strInt_denotes py i
  rw [ht, ← hv]
  exact ⟨dec_ne hw, parse_dec hw⟩

theorem parse_flt {f : py.F} (c : PObj.Cls) (h : Decimal py repr f) : repr f ≠ [] ∧ parseNum py c (repr f) = .ok ⟨.num (.flt f), some (repr f)⟩ := by
  obtain ⟨d, ips, fps, xs, hw, ht, hv⟩ := h
  rw [ht]
  refine ⟨dec_ne hw, ?_⟩
  rw [parse_dec hw, hv]

theorem parse_bool (b : Bool) : PBool.setValue py PBool.new (.str (if b then "true".toList else "false".toList))
    = (⟨some b, some (if b then "true".toList else "false".toList)⟩, none) := by
  have h : ∀ w : Str, (w = "true".toList ∨ w = "false".toList) → py.strip w = w ∧ PBool.convert py w = .ok (w == "true".toList) := by
    intro w hw
    constructor
    · have hn : ∀ c ∈ w, py.space c = false := by
        rcases hw with rfl | rfl <;> simp [py.space_ascii, asciiSpace]
      have hs := strip_tight py (pre := []) (post := []) (s := w) (by simp) (by simp)
        ⟨fun c r h => hn c (by rw [h]; simp), fun r c h => hn c (by rw [h]; simp)⟩
      simpa using hs
    · refine (boolConvert_iff py w _).mpr ?_
      rcases hw with rfl | rfl
      · exact .tru (by unfold CaseVariant; decide +kernel)
      · exact .fls (by unfold CaseVariant; decide +kernel)
  cases b with
  | true =>
    obtain ⟨h1, h2⟩ := h "true".toList (.inl rfl)
    simp only [if_true, PBool.setValue, PBool.assign, h1, h2]
    rfl
  | false =>
    obtain ⟨h1, h2⟩ := h "false".toList (.inr rfl)
    simp only [Bool.false_eq_true, if_false, PBool.setValue, PBool.assign, h1, h2]
    rfl

/-- A value that was assigned can be read when it was written. -/
theorem backS_assigned {k : RKind} {s : Scalar py.F} (h : AssignedOf py repr k s) : ScalarOf py k (backS repr s) := by
  unfold AssignedOf at h
  split at h
  · obtain ⟨t, u, f, hf, rfl⟩ := h
    obtain ⟨h1, h2⟩ := parse_flt .float hf
    exact ⟨t, u, repr f, _, h1, h2, rfl⟩
  · obtain ⟨f, hf, rfl⟩ := h
    obtain ⟨h1, h2⟩ := parse_flt .float hf
    exact ⟨repr f, _, by rw [parseNum?, if_neg h1]; exact h2, rfl⟩
  · obtain ⟨f, hf, rfl⟩ := h
    obtain ⟨h1, h2⟩ := parse_flt .float hf
    exact ⟨repr f, _, h1, h2, rfl⟩
  · obtain ⟨t, u, sl, i, rfl⟩ := h
    obtain ⟨h1, h2⟩ := parse_int (py := py) .numerical i
    exact ⟨t, u, sl, strInt i, _, by rw [parseNum?, if_neg h1]; exact h2, rfl⟩
  · obtain ⟨t, u, i, rfl⟩ := h
    obtain ⟨h1, h2⟩ := parse_int (py := py) .numerical i
    exact ⟨t, u, strInt i, _, by rw [parseNum?, if_neg h1]; exact h2, rfl⟩
  · obtain ⟨i, rfl⟩ := h
    obtain ⟨h1, h2⟩ := parse_int (py := py) .numerical i
    exact ⟨strInt i, _, by rw [parseNum?, if_neg h1]; exact h2, rfl⟩
  · obtain ⟨t, u, i, hi, rfl⟩ := h
    obtain ⟨h1, h2⟩ := parse_int (py := py) .positive i
    refine ⟨t, u, strInt i, _, h1, h2, ?_, rfl⟩
    simp only [negative]
    cases hn : py.ltZero (py.ofRat i) with
    | false => rfl
    | true =>
      have := py.ofRat_neg _ hn
      have : i < 0 := by exact_mod_cast this
      omega
  · obtain ⟨t, b, rfl⟩ := h
    exact ⟨t, _, _, by cases b <;> decide, parse_bool b, rfl⟩
  · exact h.elim

/-! ### Objects -/

theorem made_value {M M' : Key → MObj py.F → Prop} (hM : ∀ k o, M k o → M' k (back repr o)) {i : Item} {v : MObj py.F} (h : MadeOf repr M i v) :
    ValueOf M' i (back repr v) := by
  rcases h with h | ⟨k, s, rfl, rfl, h⟩
  · unfold ValueOf at h ⊢
    split at h
    · obtain ⟨s, rfl, h⟩ := h
      exact ⟨s, by rw [back, backS_read h], h⟩
    · obtain ⟨s, rfl, h⟩ := h
      exact ⟨s, by rw [back, backS_attr h], h⟩
    · obtain ⟨w, hw, rfl⟩ := h
      exact ⟨w, hw, rfl⟩
    · obtain ⟨t, k, ha, h⟩ := h
      exact ⟨t, k, ha, hM k v h⟩
    · exact h
  · exact ⟨_, rfl, backS_assigned h⟩

theorem back_zip (ks : List (Key × Bool)) (vss : List (List (MObj py.F))) (c : Key) :
    back repr (.mk c (ks.zip vss)) = .mk c (ks.zip (vss.map fun vs => vs.map (back repr))) := by
  simp only [back, backF_eq, backL_eq]
  congr 1
  induction ks generalizing vss with
  | nil => rfl
  | cons k ks ih => cases vss with
    | nil => rfl
    | cons vs vss => simp only [List.zip_cons_cons, List.map_cons, ih]

/-- A document whose numbers may have been assigned, written and read, is one whose numbers have texts. -/
theorem made_shaped {strict : Bool} {T : Key → Option RBody} {I : Key → List Need} {n : Nat} {k : Key} {o : MObj py.F} (h : Made repr strict T I n k o) :
    Shaped strict T I n k (back repr o) := by
  induction n generalizing k o with
  | zero => exact h
  | succ n ih =>
    obtain ⟨b, vss, hb, rfl, hs, hn, hI⟩ := h
    refine ⟨b, vss.map fun vs => vs.map (back repr), hb, back_zip _ _ _, ?_, by rw [namesOk_back]; exact hn, fun m hm => need_back m _ (hI m hm)⟩
    rw [List.forall₂_map_right_iff]
    refine hs.imp fun s vs h => ⟨fun v hv => ?_, fun h1 => by simpa using h.one h1, fun h0 => h.set (by simpa using h0)⟩
    obtain ⟨v, hv', rfl⟩ := List.mem_map.1 hv
    exact made_value (fun k o h => ih h) (h.kinds v hv')

theorem find_back (l : List (MObj py.F)) (n : Str) :
    ((l.map (back repr)).find? fun v => v.name == n) = (l.find? fun v => v.name == n).map (back repr) := by
  rw [List.find?_map]
  congr 2
  funext v
  simp only [Function.comp, back_name]

theorem findIn_back (p : List Str) (o : MObj py.F) : findIn p (back repr o) = (findIn p o).map (back repr) := by
  induction p generalizing o with
  | nil => rfl
  | cons n p ih =>
    have hm : memberOf (back repr o) n = (memberOf o n).map (back repr) := by
      unfold memberOf
      simp only [back_get, find_back]
      cases (o.get k!"arPackages").find? fun v => v.name == n <;> rfl
    simp only [findIn, hm]
    cases memberOf o n with
    | none => rfl
    | some v => exact ih v

/-! ### What is read when a file is loaded -/

/-- the method `k` reads the element `x` and has the element `y` of it read by the method `l` -/
def Delegates (T : Key → Option RBody) (k : Key) (x : Xml) (l : Key) (y : Xml) : Prop :=
  ∃ b s alts, T k = some b ∧ s ∈ b.slots ∧ s.item = .objs alts ∧ y ∈ select s.path x ∧ altOf alts y.tag = some l

theorem mapE_each {α β ε : Type} {f : α → Except ε β} {l : List α} {ys : List β} (h : mapE f l = .ok ys) {a : α} (ha : a ∈ l) : ∃ y, f a = .ok y := by
  induction l generalizing ys with
  | nil => cases ha
  | cons x l ih =>
    unfold mapE at h
    cases hx : f x with
    | error e => simp only [hx] at h; cases h
    | ok y =>
      simp only [hx] at h
      cases hl : mapE f l with
      | error e => simp only [hl] at h; cases h
      | ok ys =>
        rcases List.mem_cons.1 ha with rfl | ha
        · exact ⟨y, hx⟩
        · exact ih hl ha

theorem slot_each {strict : Bool} {rd : Key → Xml → Except RErr (MObj py.F)} {x : Xml} {s : RSlot} {vs : List (MObj py.F)}
    (h : readSlot py strict rd x s = .ok vs) {y : Xml} (hy : y ∈ select s.path x) : ∃ ws, readItem py strict rd s.item y = .ok ws := by
  unfold readSlot at h
  cases hm : mapE (readItem py strict rd s.item) (select s.path x) with
  | error e => simp only [hm] at h; cases h
  | ok ls => exact mapE_each hm hy

theorem obj_slots {strict : Bool} {T : Key → Option RBody} {n : Nat} {k : Key} {x : Xml} {o : MObj py.F} (h : readObj py strict T n k x = .ok o)
    {b : RBody} (hb : T k = some b) {s : RSlot} (hs : s ∈ b.slots) {y : Xml} (hy : y ∈ select s.path x) :
    ∃ m ws, readItem py strict (readObj py strict T m) s.item y = .ok ws := by
  cases n with
  | zero => cases h
  | succ n =>
    simp only [readObj, hb, readBody] at h
    cases hm : mapE (readSlot py strict (readObj py strict T n) x) b.slots with
    | error e => simp only [hm] at h; cases h
    | ok vs =>
      obtain ⟨v, hv⟩ := mapE_each hm hs
      obtain ⟨ws, hw⟩ := slot_each hv hy
      exact ⟨n, ws, hw⟩

/-- What cannot be read makes everything around it unreadable: an object. -/
theorem delegates_ok {strict : Bool} {T : Key → Option RBody} {n : Nat} {k l : Key} {x y : Xml} {o : MObj py.F} (h : readObj py strict T n k x = .ok o)
    (hd : Delegates T k x l y) : ∃ m v, readObj py strict T m l y = .ok v := by
  obtain ⟨b, s, alts, hb, hs, hi, hy, ha⟩ := hd
  obtain ⟨m, ws, hw⟩ := obj_slots h hb hs hy
  rw [hi] at hw
  simp only [readItem, ha] at hw
  cases hr : readObj py strict T m l y with
  | error e => simp only [hr] at hw; cases hw
  | ok v => exact ⟨m, v, hr⟩

/-- the `j`-th element the `i`-th step of a method has read, and by which method -/
def delegate? (T : Key → Option RBody) (k : Key) (x : Xml) (i j : Nat) : Option (Key × Xml) :=
  match T k with
  | none => none
  | some b => match b.slots[i]? with
    | none => none
    | some s => match s.item, (select s.path x)[j]? with
      | .objs alts, some y => (altOf alts y.tag).map fun l => (l, y)
      | _, _ => none

theorem delegates_at {T : Key → Option RBody} {k : Key} {x : Xml} {i j : Nat} {l : Key} {y : Xml} (h : delegate? T k x i j = some (l, y)) :
    Delegates T k x l y := by
  unfold delegate? at h
  split at h
  · cases h
  next b hb =>
    split at h
    · cases h
    next s hs =>
      split at h
      next alts z hi hz =>
        cases ha : altOf alts z.tag with
        | none => rw [ha] at h; cases h
        | some l' =>
          rw [ha] at h
          cases h
          exact ⟨b, s, alts, hb, List.mem_of_getElem? hs, hi, List.mem_of_getElem? hz, ha⟩
      · cases h

/-- The same for a value. -/
theorem prim_ok {strict : Bool} {T : Key → Option RBody} {n : Nat} {k : Key} {x y : Xml} {o : MObj py.F} (h : readObj py strict T n k x = .ok o)
    {b : RBody} (hb : T k = some b) {s : RSlot} (hs : s ∈ b.slots) {r : RKind} (hi : s.item = .prim r) (hy : y ∈ select s.path x) :
    ∃ v, readKind py r y = .ok v := by
  obtain ⟨m, ws, hw⟩ := obj_slots h hb hs hy
  rw [hi] at hw
  simp only [readItem] at hw
  cases hr : readKind py r y with
  | error e => rw [hr] at hw; cases hw
  | ok v => exact ⟨v, rfl⟩

/-- the `j`-th value the `i`-th step of a method reads, and how -/
def value? (T : Key → Option RBody) (k : Key) (x : Xml) (i j : Nat) : Option (RKind × Xml) :=
  match T k with
  | none => none
  | some b => match b.slots[i]? with
    | none => none
    | some s => match s.item, (select s.path x)[j]? with
      | .prim r, some y => some (r, y)
      | _, _ => none

theorem prim_at {strict : Bool} {T : Key → Option RBody} {n : Nat} {k : Key} {x y : Xml} {o : MObj py.F} (h : readObj py strict T n k x = .ok o)
    {i j : Nat} {r : RKind} (hv : value? T k x i j = some (r, y)) : ∃ v, readKind py r y = .ok v := by
  unfold value? at hv
  split at hv
  · cases hv
  next b hb =>
    split at hv
    · cases hv
    next s hs =>
      split at hv
      next r' z hi hz =>
        cases hv
        exact prim_ok h hb (List.mem_of_getElem? hs) hi (List.mem_of_getElem? hz)
      · cases hv

/-- a word with a letter that no number has is no number -/
theorem convert_word (py : Py) {s : Str} {x : Char} (hx : x ∈ s) (a1 : x.toNat < 128) (a2 : asciiDigit x = false) (a3 : asciiSpace x = false)
    (a4 : x ∉ ['+', '-', '_']) (a5 : x ∉ ['+', '-', '.', 'e', 'E']) (a6 : x ≠ '\n') (h0 : s.head? ≠ some '0') (ht : s ≠ "true".toList)
    (hf : s ≠ "false".toList) : convert py s = .error .valueError := by
  refine C21_rejected_partial py _ fun h => ?_
  have dec : ∀ {d : Dec} {ips fps xs : List Nat}, Dec.Wf py d ips fps xs → x ∉ d.text := by
    intro d ips fps xs hw hm
    rcases dec_chars py hw x hm with h | h
    · rw [digit_ascii_none a1 a2] at h; cases h
    · exact a5 h
  cases h with
  | doc h =>
    cases h with
    | tru => exact ht rfl
    | fls => exact hf rfl
    | hex => exact h0 rfl
    | bin => exact h0 rfl
    | dec hw => exact dec hw hx
  | hexJunk => exact h0 rfl
  | binJunk => exact h0 rfl
  | newline hw =>
    rcases List.mem_append.mp hx with h | h
    · exact dec hw h
    · exact a6 (by simpa using h)
  | loose h => exact loose_not py h x a1 a2 a3 a4 hx

theorem parse_bad {c : PObj.Cls} {s : Str} {e : PyErr} (h : convert py s = .error e) : parseNum py c s = .error e := by
  unfold parseNum PObj.setValue PObj.assign
  simp only [h]

mutual
theorem reload_refl : ∀ x : Xml, Reload x x
  | .node t a s [] => .leaf t a s
  | .node t a s (x :: l) => .node t a s s x x l l (reload_refl x) (reloadAll_refl l)
theorem reloadAll_refl : ∀ l : List Xml, ReloadAll l l
  | [] => .nil
  | x :: l => .cons x x l l (reload_refl x) (reloadAll_refl l)
end

end Verif.Lemmas
