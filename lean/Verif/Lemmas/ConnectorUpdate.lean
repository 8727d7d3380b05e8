import Verif.Lemmas.ConnectorTool
import Verif.Props.Built
/-!
# Lemmas about updating the connectors of a composition
-/
namespace Verif.Lemmas
open Verif Verif.Model Verif.Spec Verif.Props

/-- the method that reads the connectors of the kind of a row -/
def rowMethod : ConnRow → Key
  | .assembly .. => k!"readCompositionSwComponentTypeSwConnectors_AssemblySwConnector"
  | .delegation .. => k!"readCompositionSwComponentTypeSwConnectors_DelegationSwConnector"

section
variable {py : Py} {strict : Bool}

theorem newNamed_facts (r : ConnRow) (n : Str) : (newNamed (rowMethod r) n : MObj py.F).name = n ∧ (newNamed (rowMethod r) n : MObj py.F).cls = rowClass r ∧
    Unconnected (newNamed (rowMethod r) n : MObj py.F) := by
  cases r with
  | assembly =>
    refine ⟨by rfl, by rfl, fun f hf => ?_⟩
    simp only [List.mem_cons, List.not_mem_nil, or_false] at hf
    rcases hf with rfl | rfl | rfl | rfl <;> rfl
  | delegation =>
    refine ⟨by rfl, by rfl, fun f hf => ?_⟩
    simp only [List.mem_cons, List.not_mem_nil, or_false] at hf
    rcases hf with rfl | rfl | rfl | rfl <;> rfl

/-- rows with which a composition fits -/
def RowsFit (strict : Bool) (rows : List ConnRow) : Prop := ∀ r ∈ rows, rowName r ≠ "" ∧ (strict = true → rowClass r = k!"AssemblySwConnector")

theorem newNamed_shaped {r : ConnRow} (hr : strict = true → rowClass r = k!"AssemblySwConnector") {n : Str} (hn : n ≠ []) :
    Shaped strict readers invariants 1 (rowMethod r) (newNamed (rowMethod r) n : MObj py.F) := by
  cases n with
  | nil => exact absurd rfl hn
  | cons c cs =>
    cases r with
    | assembly => cases strict <;> exact fitsB_sound (by rfl)
    | delegation =>
      cases strict with
      | false => exact fitsB_sound (by rfl)
      | true => exact absurd (hr rfl) (by simp only [rowClass]; decide)

theorem newNamed_clean (r : ConnRow) (n : Str) : Clean lossy strict (newNamed (rowMethod r) n : MObj py.F) := by
  cases r <;> cases strict <;> exact cleanB_sound _ (by rfl)

theorem addRow_ok {st st' : Conns py.F} {r : ConnRow} (h : st.addRow r = .ok st') :
    (st.index.any (fun e => e.1 == (rowName r).toList) = true ∧ st' = st) ∨
    (st.index.any (fun e => e.1 == (rowName r).toList) = false ∧
      st' = ⟨st.index ++ [((rowName r).toList, rowClass r)], st.new ++ [newNamed (rowMethod r) (rowName r).toList]⟩) := by
  have key : st.create (rowMethod r) (rowClass r) (rowName r).toList = .ok st' := by
    cases r with
    | assembly => exact h
    | delegation =>
      simp only [Conns.addRow] at h
      split at h
      · exact h
      · cases h
  unfold Conns.create at key
  by_cases ha : st.index.any (fun e => e.1 == (rowName r).toList) = true
  · rw [if_pos ha] at key
    split at key
    · cases key; exact .inl ⟨ha, rfl⟩
    · cases key
  · rw [if_neg ha] at key
    cases key
    exact .inr ⟨Bool.eq_false_iff.2 ha, rfl⟩

theorem newRows_congr {k k' : String → Bool} (h : ∀ n, k n = k' n) (rows : List ConnRow) : newRows k rows = newRows k' rows := by
  rw [funext h]

theorem toList_inj {a b : String} : a.toList = b.toList ↔ a = b := ⟨fun h => String.ext h, fun h => by rw [h]⟩

/-- only names and classes of the members matter, and of equal names the more special class -/
theorem acceptable_congr {m m' : List (Str × Key)} (h : ∀ n c, (∃ e ∈ m, e.1 = n ∧ armodel.sub e.2 c = true) ↔ ∃ e ∈ m', e.1 = n ∧ armodel.sub e.2 c = true)
    (rows : List ConnRow) : Acceptable m rows ↔ Acceptable m' rows := by
  induction rows generalizing m m' with
  | nil => exact Iff.rfl
  | cons r rows ih =>
    have hu : ∀ n, (∃ e ∈ m, e.1 = n) ↔ ∃ e ∈ m', e.1 = n := by
      intro n
      constructor
      · rintro ⟨e, he, hn⟩
        obtain ⟨e', he', hn', _⟩ := (h n e.2).1 ⟨e, he, hn, armodel.refl _⟩
        exact ⟨e', he', hn'⟩
      · rintro ⟨e, he, hn⟩
        obtain ⟨e', he', hn', _⟩ := (h n e.2).2 ⟨e, he, hn, armodel.refl _⟩
        exact ⟨e', he', hn'⟩
    simp only [Acceptable, h, hu]
    rw [ih]
    intro n c
    simp only [List.mem_append, or_and_right, exists_or, h]

/-- when the rows can be added -/
theorem addRows_iff {rows : List ConnRow} {st : Conns py.F} : (∃ st', foldE Conns.addRow st rows = .ok st') ↔ Acceptable st.index rows := by
  induction rows generalizing st with
  | nil => exact ⟨fun _ => trivial, fun _ => ⟨_, rfl⟩⟩
  | cons r rows ih =>
    have hrow : st.addRow r = if rowComplete r = true then st.create (rowMethod r) (rowClass r) (rowName r).toList else .error .valueError := by
      cases r with
      | assembly => rfl
      | delegation => simp only [Conns.addRow, rowComplete, Bool.or_eq_true, Bool.and_eq_true]; rfl
    simp only [foldE, hrow, Acceptable]
    by_cases hc : rowComplete r = true
    swap
    · simp [hc]
    rw [if_pos hc]
    unfold Conns.create
    by_cases ha : (∃ e ∈ st.index, e.1 = (rowName r).toList)
    · have ha' : (st.index.any fun e => e.1 == (rowName r).toList) = true := by simpa using ha
      rw [if_pos ha']
      by_cases hk : ∃ e ∈ st.index, e.1 = (rowName r).toList ∧ armodel.sub e.2 (rowClass r) = true
      · have hk' : (st.index.any fun e => e.1 == (rowName r).toList && armodel.sub e.2 (rowClass r)) = true := by simpa using hk
        rw [if_pos hk']
        simp only [ih, hc, ha, hk, true_and, forall_const]
        refine acceptable_congr (fun n c => ?_) rows
        simp only [List.mem_append, or_and_right, exists_or, List.mem_singleton, exists_eq_left]
        refine ⟨.inl, fun h => h.elim id ?_⟩
        rintro ⟨rfl, hs⟩
        obtain ⟨e, he, hn, hsub⟩ := hk
        exact ⟨e, he, hn, armodel.trans _ _ _ hsub hs⟩
      · have hk' : ¬ (st.index.any fun e => e.1 == (rowName r).toList && armodel.sub e.2 (rowClass r)) = true := by simpa using hk
        rw [if_neg hk']
        simp only [ha, hk, forall_const, false_and, and_false, iff_false, not_exists]
        intro st' h; cases h
    · have ha' : ¬ (st.index.any fun e => e.1 == (rowName r).toList) = true := by simpa using ha
      rw [if_neg ha']
      simp only [ih, hc, ha, false_imp_iff, true_and]

/-- the connectors that are added -/
theorem addRows_ok {rows : List ConnRow} {st st' : Conns py.F} (h : foldE Conns.addRow st rows = .ok st') :
    st'.new = st.new ++ (newRows (fun n => st.index.any fun e => e.1 == n.toList) rows).map fun r => newNamed (rowMethod r) (rowName r).toList := by
  induction rows generalizing st with
  | nil => cases h; simp [newRows]
  | cons r rows ih =>
    simp only [foldE] at h
    split at h
    · cases h
    rename_i st1 h1
    rw [ih h]
    rcases addRow_ok h1 with ⟨ha, rfl⟩ | ⟨ha, rfl⟩
    · rw [newRows, if_pos ha]
    · rw [newRows, if_neg (by rw [ha]; simp)]
      simp only [List.map_cons, List.append_assoc, List.singleton_append]
      congr 2
      refine congrArg _ (newRows_congr (fun n => ?_) rows)
      rw [List.any_append, Bool.or_comm]
      congr 1
      simp only [List.any_cons, List.any_nil, Bool.or_false]
      rw [Bool.eq_iff_iff, beq_iff_eq, beq_iff_eq, toList_inj]
      exact eq_comm

theorem newRows_names (known : String → Bool) (rows : List ConnRow) :
    ((newRows known rows).map rowName).Nodup ∧ (∀ r ∈ newRows known rows, known (rowName r) = false) ∧ ∀ r ∈ newRows known rows, r ∈ rows := by
  induction rows generalizing known with
  | nil => exact ⟨.nil, by simp [newRows], by simp [newRows]⟩
  | cons r rows ih =>
    rw [newRows]
    split
    · obtain ⟨h1, h2, h3⟩ := ih known
      exact ⟨h1, h2, fun r hr => List.mem_cons_of_mem _ (h3 r hr)⟩
    · rename_i hk
      obtain ⟨h1, h2, h3⟩ := ih (fun n => n == rowName r || known n)
      refine ⟨?_, ?_, ?_⟩
      · rw [List.map_cons, List.nodup_cons]
        refine ⟨fun hm => ?_, h1⟩
        obtain ⟨r', hr', he⟩ := List.mem_map.1 hm
        have := h2 r' hr'
        rw [he] at this
        simp at this
      · intro r' hr'
        rcases List.mem_cons.1 hr' with rfl | hr'
        · simpa using hk
        · have := h2 r' hr'
          simp only [Bool.or_eq_false_iff] at this
          exact this.2
      · intro r' hr'
        rcases List.mem_cons.1 hr' with rfl | hr'
        · simp
        · exact List.mem_cons_of_mem _ (h3 r' hr')

/-! ## The attributes of compositions -/

/-- what is known of the slots of the methods that read compositions -/
def compSlots (b : RBody) : Bool :=
  b.slots.all (fun s => (s.field != k!"connectors" || (s.elems && !s.path.single && !s.last && s.req == .no && !inherent s && match s.item with
      | .objs alts => altOf alts k!"ASSEMBLY-SW-CONNECTOR" == some k!"readCompositionSwComponentTypeSwConnectors_AssemblySwConnector" &&
          altOf alts k!"DELEGATION-SW-CONNECTOR" == some k!"readCompositionSwComponentTypeSwConnectors_DelegationSwConnector"
      | _ => false)) && (!s.named || s.elems) && !s.one) &&
  (b.slots.filter fun s => s.field == k!"connectors").length == 1 && (invariants b.cls).isEmpty && (lossy b.cls).isEmpty

theorem table_comps : Gen.readTable.all (fun _ b => !armodel.sub b.cls k!"CompositionSwComponentType" || compSlots b) = true := by decide +kernel

theorem load_comps : (!armodel.sub loadBody.cls k!"CompositionSwComponentType" || compSlots loadBody) = true := by decide +kernel

theorem comp_body {k : Key} {b : RBody} (h : readers k = some b) (hc : armodel.sub b.cls k!"CompositionSwComponentType" = true) : compSlots b = true := by
  unfold readers at h
  split at h
  · cases h
    have := load_comps
    rw [hc] at this
    simpa using this
  · have := (Bst.all_toList _ _).1 table_comps _ (Bst.find?_mem h)
    simpa [hc] using this

/-- the attributes after an update -/
def reconnect (new : List (MObj py.F)) (fs : List ((Key × Bool) × List (MObj py.F))) : List ((Key × Bool) × List (MObj py.F)) :=
  fs.map fun e => if e.1.1 = k!"connectors" then (e.1, e.2.filter staysConnector ++ new) else e

theorem reconnect_get_other (new : List (MObj py.F)) (c : Key) (fs : List ((Key × Bool) × List (MObj py.F))) (g : Key) (h1 : g ≠ k!"connectors")
    (h2 : g ≠ k!"elements") : (MObj.mk c (reconnect new fs)).get g = (MObj.mk c fs).get g := by
  unfold MObj.get MObj.fields reconnect
  rw [List.flatMap_map]
  refine List.flatMap_congr fun e _ => ?_
  by_cases he : e.1.1 = k!"connectors"
  · rw [if_pos he]
    have : hits g e.1 = false := by
      simp only [hits, Bool.or_eq_false_iff, beq_eq_false_iff_ne, ne_eq, Bool.and_eq_false_iff, he]
      exact ⟨fun h => h1 h.symm, .inr h2⟩
    simp only [this]
    rfl
  · rw [if_neg he]

theorem reconnect_get (new : List (MObj py.F)) (c : Key) (fs : List ((Key × Bool) × List (MObj py.F)))
    (h1 : (fs.filter fun e => e.1.1 == k!"connectors").length = 1) :
    (MObj.mk c (reconnect new fs)).get k!"connectors" = ((MObj.mk c fs).get k!"connectors").filter staysConnector ++ new := by
  have hh : ∀ k : Key × Bool, hits k!"connectors" k = true ↔ k.1 = k!"connectors" := by
    intro k
    simp only [hits, Bool.or_eq_true, beq_iff_eq, Bool.and_eq_true]
    exact ⟨fun h => h.elim id fun h => absurd h.2 (by decide), .inl⟩
  have key : ∀ fs : List ((Key × Bool) × List (MObj py.F)), (MObj.mk c fs).get k!"connectors" =
      (fs.filter fun e => e.1.1 == k!"connectors").flatMap Prod.snd := by
    intro fs
    unfold MObj.get MObj.fields
    induction fs with
    | nil => rfl
    | cons e fs ih =>
      rw [List.flatMap_cons, ih, List.filter_cons]
      by_cases he : e.1.1 = k!"connectors"
      · rw [if_pos ((hh e.1).2 he), if_pos (by simpa using he), List.flatMap_cons]
      · rw [if_neg (fun h => he ((hh e.1).1 h)), if_neg (by simpa using he)]
        rfl
  have hrec : (reconnect new fs).filter (fun e => e.1.1 == k!"connectors") =
      (fs.filter fun e => e.1.1 == k!"connectors").map fun e => (e.1, e.2.filter staysConnector ++ new) := by
    clear h1 key
    unfold reconnect
    induction fs with
    | nil => rfl
    | cons e fs ih =>
      rw [List.map_cons, List.filter_cons, List.filter_cons]
      by_cases he : e.1.1 = k!"connectors"
      · rw [if_pos he, if_pos (by simpa using he), if_pos (by simpa using he), List.map_cons, ih]
      · rw [if_neg he, if_neg (by simpa using he), if_neg (by simpa using he), ih]
  rw [key, key, hrec]
  obtain ⟨e, he⟩ := List.length_eq_one_iff.1 h1
  rw [he]
  simp

theorem reconnect_perm (new : List (MObj py.F)) (c : Key) (fs : List ((Key × Bool) × List (MObj py.F)))
    (h1 : (fs.filter fun e => e.1.1 == k!"connectors").length ≤ 1) :
    ∃ l new', l.Sublist ((MObj.mk c fs).get k!"elements") ∧ new'.Sublist new ∧ ((MObj.mk c (reconnect new fs)).get k!"elements").Perm (l ++ new') := by
  unfold MObj.get MObj.fields reconnect
  induction fs with
  | nil => exact ⟨[], [], .slnil, List.nil_sublist _, .refl _⟩
  | cons e fs ih =>
    rw [List.map_cons, List.flatMap_cons, List.flatMap_cons]
    rw [List.filter_cons] at h1
    by_cases he : e.1.1 = k!"connectors"
    · rw [if_pos (by simpa using he)] at h1
      rw [if_pos he]
      have hno : fs.filter (fun e => e.1.1 == k!"connectors") = [] := by
        have h2 : (fs.filter fun e => e.1.1 == k!"connectors").length + 1 ≤ 1 := h1
        exact List.length_eq_zero_iff.1 (Nat.le_zero.1 (Nat.le_of_succ_le_succ h2))
      have hsame : (fs.map fun e => if e.1.1 = k!"connectors" then (e.1, e.2.filter staysConnector ++ new) else e) = fs := by
        conv_rhs => rw [← List.map_id fs]
        refine List.map_congr_left fun e he => ?_
        rw [List.filter_eq_nil_iff] at hno
        rw [if_neg (by simpa using hno e he)]
        rfl
      rw [hsame]
      by_cases hh : hits k!"elements" e.1 = true
      · simp only [hh, if_true]
        refine ⟨e.2.filter staysConnector ++ fs.flatMap (fun e => if hits k!"elements" e.1 = true then e.2 else []), new,
          List.Sublist.append List.filter_sublist (.refl _), .refl _, ?_⟩
        rw [List.append_assoc, List.append_assoc]
        exact List.Perm.append_left _ List.perm_append_comm
      · simp only [hh]
        exact ⟨_, [], .refl _, List.nil_sublist _, by simp⟩
    · rw [if_neg (by simpa using he)] at h1
      rw [if_neg he]
      obtain ⟨l, new', hl, hn, hp⟩ := ih h1
      refine ⟨(if hits k!"elements" e.1 = true then e.2 else []) ++ l, new', List.Sublist.append (.refl _) hl, hn, ?_⟩
      rw [List.append_assoc]
      exact List.Perm.append_left _ hp

/-! ## Updating a composition -/

theorem filter_keys {P : RSlot → List (MObj py.F) → Prop} {slots : List RSlot} {vss : List (List (MObj py.F))} (hs : List.Forall₂ P slots vss) :
    (((slots.map RSlot.key).zip vss).filter fun e => e.1.1 == k!"connectors").length = (slots.filter fun s => s.field == k!"connectors").length := by
  induction hs with
  | nil => rfl
  | cons _ _ ih =>
    simp only [List.map_cons, List.zip_cons_cons, List.filter_cons, RSlot.key] at ih ⊢
    split <;> simp [ih]

theorem reconnect_zip (new : List (MObj py.F)) {slots : List RSlot} {P : RSlot → List (MObj py.F) → Prop} {vss : List (List (MObj py.F))}
    (hs : List.Forall₂ P slots vss) :
    ∃ vss', reconnect new ((slots.map RSlot.key).zip vss) = (slots.map RSlot.key).zip vss' ∧
      List.Forall₂ (fun s vs' => ∃ vs, P s vs ∧ vs' = if s.field = k!"connectors" then vs.filter staysConnector ++ new else vs) slots vss' := by
  unfold reconnect
  induction hs with
  | nil => exact ⟨[], rfl, .nil⟩
  | @cons s vs slots vss h1 _ ih =>
    obtain ⟨vss', he, h2⟩ := ih
    refine ⟨_ :: vss', ?_, .cons ⟨vs, h1, rfl⟩ h2⟩
    simp only [List.map_cons, List.zip_cons_cons, RSlot.key] at he ⊢
    rw [he]
    split <;> rfl

/-- what an update makes of a composition -/
theorem updateConnectors_ok {rows : List ConnRow} {w w' : MObj py.F} (h : updateConnectors rows w = .ok w') :
    ∃ c fs, w = .mk c fs ∧ armodel.sub c k!"CompositionSwComponentType" = true ∧
      Acceptable ((w.get k!"elements").map fun v => (v.name, v.cls)) rows ∧
      w' = .mk c (reconnect ((newRows (fun n => (w.get k!"elements").any fun v => v.name == n.toList) rows).map
        fun r => newNamed (rowMethod r) (rowName r).toList) fs) := by
  unfold updateConnectors at h
  split at h
  · cases h
  rename_i c fs
  split at h
  · rename_i hc
    split at h
    · cases h
    rename_i st hst
    cases h
    refine ⟨c, fs, rfl, hc, addRows_iff.1 ⟨st, hst⟩, ?_⟩
    have := addRows_ok hst
    simp only [List.nil_append, List.any_map] at this
    rw [this]
    rfl
  · cases h

theorem updateElement_kept {n : Str} {rows : List ConnRow} {v v' : MObj py.F} (h : updateElement n rows v = .ok v') : v'.name = v.name ∧ v'.cls = v.cls := by
  unfold updateElement at h
  split at h
  · obtain ⟨c, fs, rfl, _, _, rfl⟩ := updateConnectors_ok h
    exact ⟨name_eq_of_get (reconnect_get_other _ c fs _ (by decide) (by decide)), rfl⟩
  · cases h; exact ⟨rfl, rfl⟩

theorem compSlots_spec {b : RBody} (h : compSlots b = true) :
    (∀ s ∈ b.slots, (s.field = k!"connectors" → s.elems = true ∧ (s.path.single || s.last) = false ∧ s.req = .no ∧ inherent s = false ∧
      ∃ alts, s.item = .objs alts ∧ ∀ r : ConnRow, ∃ t, altOf alts t = some (rowMethod r)) ∧ (s.named = true → s.elems = true) ∧ s.one = false) ∧
    (b.slots.filter fun s => s.field == k!"connectors").length = 1 ∧ invariants b.cls = [] ∧ lossy b.cls = [] := by
  simp only [compSlots, Bool.and_eq_true, List.all_eq_true, beq_iff_eq, List.isEmpty_iff] at h
  obtain ⟨⟨⟨h1, h2⟩, h3⟩, h4⟩ := h
  refine ⟨fun s hs => ?_, h2, h3, h4⟩
  obtain ⟨⟨ha, hb⟩, hc⟩ := h1 s hs
  refine ⟨fun hf => ?_, fun hn => by simpa [hn] using hb, by simpa using hc⟩
  simp only [hf, bne_self_eq_false, Bool.false_or, Bool.and_eq_true, Bool.not_eq_true', beq_iff_eq] at ha
  obtain ⟨⟨⟨⟨⟨a1, a2⟩, a3⟩, a4⟩, a5⟩, a6⟩ := ha
  refine ⟨a1, by rw [a2, a3]; rfl, a4, a5, ?_⟩
  split at a6
  · rename_i alts hi
    simp only [Bool.and_eq_true, beq_iff_eq] at a6
    refine ⟨alts, hi, fun r => ?_⟩
    cases r with
    | assembly => exact ⟨_, a6.1⟩
    | delegation => exact ⟨_, a6.2⟩
  · cases a6

theorem comp_one {n : Nat} {k : Key} {c : Key} {fs : List ((Key × Bool) × List (MObj py.F))} (h : Shaped strict readers invariants n k (.mk c fs))
    (hc : armodel.sub c k!"CompositionSwComponentType" = true) : (fs.filter fun e => e.1.1 == k!"connectors").length = 1 := by
  cases n with
  | zero => exact h.elim
  | succ n =>
    obtain ⟨b, vss, hb, ho, hs, _⟩ := h
    cases ho
    rw [filter_keys hs]
    exact (compSlots_spec (comp_body hb hc)).2.1

/-- what becomes of an element -/
theorem updateElement_spec {n : Str} {rows : List ConnRow} {m : Nat} {k : Key} {w w' : MObj py.F} (hw : Shaped strict readers invariants m k w)
    (h : updateElement n rows w = .ok w') :
    (armodel.sub w.cls k!"SwComponentType" = true → w.name = n → armodel.sub w.cls k!"CompositionSwComponentType" = true ∧ UpdatedComposition rows w w') ∧
    (armodel.sub w.cls k!"SwComponentType" = false ∨ w.name ≠ n → w' = w) := by
  have hinst : w.inst [k!"SwComponentType"] = armodel.sub w.cls k!"SwComponentType" := by simp [MObj.inst]
  unfold updateElement at h
  rw [hinst] at h
  split at h
  · rename_i hcond
    refine ⟨fun _ _ => ?_, fun hn => ?_⟩
    · obtain ⟨c, fs, rfl, hc, hacc, rfl⟩ := updateConnectors_ok h
      refine ⟨hc, hacc, rfl, fun f h1 h2 => reconnect_get_other _ c fs f h1 h2, (newRows (fun n => ((MObj.mk c fs).get k!"elements").any
        fun v => v.name == n.toList) rows).map fun r => newNamed (rowMethod r) (rowName r).toList, ?_, ?_⟩
      · rw [reconnect_get _ c fs (comp_one hw hc)]
        congr 1
        refine List.filter_congr fun v _ => ?_
        simp [staysConnector, MObj.inst]
      · rw [List.forall₂_map_right_iff]
        exact forall₂_refl (fun r => newNamed_facts r _) _
    · rcases hn with hn | hn
      · rw [hcond.1] at hn; cases hn
      · exact absurd hcond.2 hn
  · rename_i hcond
    cases h
    exact ⟨fun h1 h2 => absurd ⟨h1, h2⟩ hcond, fun _ => rfl⟩

theorem newRows_fit {rows : List ConnRow} (hr : RowsFit strict rows) {known : String → Bool} {v : MObj py.F}
    (hv : v ∈ (newRows known rows).map fun r => (newNamed (rowMethod r) (rowName r).toList : MObj py.F)) :
    Clean lossy strict v ∧ ∃ r, Shaped strict readers invariants 1 (rowMethod r) v := by
  obtain ⟨r, hr', rfl⟩ := List.mem_map.1 hv
  obtain ⟨h1, h2⟩ := hr r ((newRows_names known rows).2.2 r hr')
  exact ⟨newNamed_clean r _, r, newNamed_shaped h2 fun h => h1 (String.ext h)⟩

theorem updateElement_shaped {n : Str} {rows : List ConnRow} (hr : RowsFit strict rows) (m : Nat) (k : Key) (w w' : MObj py.F)
    (hw : Shaped strict readers invariants m k w) (h : updateElement n rows w = .ok w') : Shaped strict readers invariants (m + 1) k w' := by
  unfold updateElement at h
  split at h
  swap
  · cases h; exact fits_succ hw
  obtain ⟨c, fs, rfl, hc, _, rfl⟩ := updateConnectors_ok h
  have hone := comp_one hw hc
  cases m with
  | zero => exact hw.elim
  | succ m =>
    generalize hnew : ((newRows (fun n => ((MObj.mk c fs).get k!"elements").any fun v => v.name == n.toList) rows).map
      fun r => (newNamed (rowMethod r) (rowName r).toList : MObj py.F)) = new
    obtain ⟨b, vss, hb, ho, hs, hnames, hI⟩ := hw
    cases ho
    obtain ⟨hsl, _, hinv, _⟩ := compSlots_spec (comp_body hb hc)
    obtain ⟨vss', hre, hs'⟩ := reconnect_zip new hs
    refine ⟨b, vss', hb, by rw [hre], ?_, ?_, by rw [hinv]; intro m hm; cases hm⟩
    · rw [List.forall₂_iff_zip] at hs' ⊢
      refine ⟨hs'.1, fun {s vs'} hsv => ?_⟩
      obtain ⟨vs, hfit, rfl⟩ := hs'.2 hsv
      split
      · rename_i hf
        obtain ⟨_, h1, h2, h3, alts, hi, halts⟩ := (hsl s (List.of_mem_zip hsv).1).1 hf
        refine ⟨fun v hv => ?_, fun h => (by rw [h1] at h; cases h), fun _ => by rw [h2]; exact ⟨by simp, by simp, h3⟩⟩
        rcases List.mem_append.1 hv with hv | hv
        · exact valueOf_mono (fun k v h => fits_succ h) (hfit.kinds v (List.mem_filter.1 hv).1)
        · rw [← hnew] at hv
          obtain ⟨_, r, hsh⟩ := newRows_fit hr hv
          obtain ⟨t, ht⟩ := halts r
          rw [hi]
          exact ⟨t, _, ht, fits_le (by omega) hsh⟩
      · exact slotFits_mono (fun k v h => fits_succ h) hfit
    · have hmem : ∀ s ∈ b.slots, s.named = true → (((MObj.mk b.cls ((b.slots.map RSlot.key).zip vss)).get k!"elements").map MObj.name).Nodup := by
        intro s hs hn
        have := List.all_eq_true.1 hnames s hs
        simp only [Bool.and_eq_true, hn, Bool.not_true, Bool.false_or, (hsl s hs).2.1 hn, if_true, decide_eq_true_eq] at this
        exact this.1
      unfold namesOk
      rw [List.all_eq_true]
      intro s hs1
      obtain ⟨_, hne, hno⟩ := hsl s hs1
      simp only [hno, Bool.not_false, Bool.true_or, Bool.and_true]
      by_cases hn : s.named = true
      · simp only [hn, hne hn, Bool.not_true, Bool.false_or, if_true, decide_eq_true_eq]
        have hold := hmem s hs1 hn
        obtain ⟨l, new', hl, hn', hp⟩ := reconnect_perm new b.cls ((b.slots.map RSlot.key).zip vss) (by rw [hone])
        refine ((hp.map MObj.name).nodup_iff).2 ?_
        rw [List.map_append, List.nodup_append]
        refine ⟨hold.sublist (hl.map _), ?_, ?_⟩
        · refine List.Nodup.sublist (hn'.map _) ?_
          rw [← hnew, List.map_map]
          have : (MObj.name ∘ fun r => (newNamed (rowMethod r) (rowName r).toList : MObj py.F)) = fun r => (rowName r).toList :=
            funext fun r => (newNamed_facts r _).1
          rw [this, show (fun r => (rowName r).toList) = String.toList ∘ rowName from rfl, ← List.map_map]
          exact ((newRows_names _ rows).1).map fun a b h => toList_inj.1 h
        · intro x hx y hy hxy
          subst hxy
          obtain ⟨v, hv, rfl⟩ := List.mem_map.1 hx
          obtain ⟨u, hu, huv⟩ := List.mem_map.1 hy
          have hu' := hn'.subset hu
          rw [← hnew] at hu'
          obtain ⟨r, hr', rfl⟩ := List.mem_map.1 hu'
          have hk := (newRows_names _ rows).2.1 r hr'
          rw [(newNamed_facts r _).1] at huv
          have : (((MObj.mk b.cls ((b.slots.map RSlot.key).zip vss)).get k!"elements").any fun v => v.name == (rowName r).toList) = true := by
            rw [List.any_eq_true]
            exact ⟨v, hl.subset hv, by rw [beq_iff_eq]; exact huv.symm⟩
          rw [this] at hk
          cases hk
      · simp [hn]

theorem updateElement_clean {n : Str} {rows : List ConnRow} (hr : RowsFit strict rows) (m : Nat) (k : Key) (w w' : MObj py.F)
    (hw : Shaped strict readers invariants m k w) (hcl : Clean lossy strict w) (h : updateElement n rows w = .ok w') : Clean lossy strict w' := by
  unfold updateElement at h
  split at h
  swap
  · cases h; exact hcl
  obtain ⟨c, fs, rfl, hc, _, rfl⟩ := updateConnectors_ok h
  cases m with
  | zero => exact hw.elim
  | succ m =>
    obtain ⟨b, vss, hb, ho, hs, hnames, hI⟩ := hw
    cases ho
    obtain ⟨_, _, _, hlos⟩ := compSlots_spec (comp_body hb hc)
    refine .mk _ _ (by rw [hlos]; intro m hm; cases hm) ?_
    intro e he v hv
    unfold reconnect at he
    obtain ⟨e0, he0, rfl⟩ := List.mem_map.1 he
    split at hv
    · rcases List.mem_append.1 hv with hv | hv
      · exact clean_kids hcl he0 (List.mem_filter.1 hv).1
      · exact (newRows_fit hr hv).1
    · exact clean_kids hcl he0 hv

/-! ## Updating a document -/

theorem updateTable_fits {table : List (String × List ConnRow)} (hr : ∀ e ∈ table, RowsFit strict e.2) {m : Nat} {d d' : MObj py.F}
    (hd : Shaped strict readers invariants m k!"load" d) (hc : Clean lossy strict d) (h : updateTable table d = .ok d') :
    (∃ m, Shaped strict readers invariants m k!"load" d') ∧ Clean lossy strict d' := by
  unfold updateTable at h
  induction table generalizing d m with
  | nil => cases h; exact ⟨⟨m, hd⟩, hc⟩
  | cons e table ih =>
    simp only [foldE] at h
    split at h
    · cases h
    rename_i d1 h1
    have hk : k!"load" ∈ pkgMethods := by decide
    exact ih (fun e he => hr e (by simp [he]))
      (locate_shaped (fun _ _ => updateElement_kept) (updateElement_shaped (hr e (by simp))) hk hd h1)
      (locate_clean (fun _ _ => updateElement_kept) (updateElement_clean (hr e (by simp))) hk hd hc h1) h

/-- the same without `Clean`, and for any rows in the lenient mode -/
theorem updateTable_shaped {table : List (String × List ConnRow)} (hr : ∀ e ∈ table, RowsFit strict e.2) {m : Nat} {d d' : MObj py.F}
    (hd : Shaped strict readers invariants m k!"load" d) (h : updateTable table d = .ok d') : ∃ m, Shaped strict readers invariants m k!"load" d' := by
  unfold updateTable at h
  induction table generalizing d m with
  | nil => cases h; exact ⟨m, hd⟩
  | cons e table ih =>
    simp only [foldE] at h
    split at h
    · cases h
    rename_i d1 h1
    have hk : k!"load" ∈ pkgMethods := by decide
    exact ih (fun e he => hr e (by simp [he]))
      (locate_shaped (fun _ _ => updateElement_kept) (updateElement_shaped (hr e (by simp))) hk hd h1) h

end
end Verif.Lemmas
