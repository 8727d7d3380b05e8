import Verif.Gen.EnumTable
import Verif.Model.Scalar
/-!
# C84 Enumerations
-/
namespace Verif.Props
open Verif Verif.Model Verif.Gen

/-- the values given, in order -/
def textsGiven : List EnumObj.Op → List String
  | [] => []
  | .setValue (some v) :: l => v :: textsGiven l
  | _ :: l => textsGiven l

/-- the lists of values given, in order -/
def listsGiven : List EnumObj.Op → List (List String)
  | [] => []
  | .setEnumValues l :: ops => l :: listsGiven ops
  | _ :: ops => listsGiven ops

theorem run_allowed (ops : List EnumObj.Op) : ∀ o : EnumObj, (o.run ops).allowed = (listsGiven ops).getLast?.getD o.allowed := by
  induction ops with
  | nil => intro o; rfl
  | cons op ops ih =>
    intro o
    show ((o.step op).run ops).allowed = _
    rw [ih]
    cases op with
    | setValue v => cases v <;> rfl
    | setEnumValues l =>
      simp only [listsGiven, List.getLast?_cons, EnumObj.step, Option.getD_some]

theorem run_value (ops : List EnumObj.Op) : ∀ o : EnumObj, (o.run ops).value = (textsGiven ops).getLast?.or o.value := by
  induction ops with
  | nil => intro o; rfl
  | cons op ops ih =>
    intro o
    show ((o.step op).run ops).value = _
    rw [ih]
    cases op with
    | setValue v =>
      cases v with
      | none => rfl
      | some v =>
        simp only [textsGiven, List.getLast?_cons, EnumObj.step]
        cases (textsGiven ops).getLast? <;> rfl
    | setEnumValues l => rfl

/-- the tables agree: the constants of a class are the values its constructor allows, and no two constants of a class have the same name or value -/
theorem enum_rows : ∀ r ∈ enumTable, (r.consts.map Prod.snd).Nodup ∧ (r.consts.map Prod.fst).Nodup ∧
    (r.cls ≠ k!"BindingTimeEnum" → ∀ l ∈ r.allowed, ∀ v, v ∈ l ↔ v ∈ r.consts.map Prod.snd) := by
  have h : ∀ r ∈ enumTable, (r.consts.map Prod.snd).Nodup ∧ (r.consts.map Prod.fst).Nodup ∧
      (r.cls ≠ k!"BindingTimeEnum" → ∀ l ∈ r.allowed, (∀ v ∈ l, v ∈ r.consts.map Prod.snd) ∧ ∀ v ∈ r.consts.map Prod.snd, v ∈ l) := by decide +kernel
  exact fun r hr => ⟨(h r hr).1, (h r hr).2.1, fun hc l hl v => ⟨((h r hr).2.2 hc l hl).1 v, ((h r hr).2.2 hc l hl).2 v⟩⟩

/-- **C84 (partial)** An object of an enumeration class that can be constructed takes exactly the values of the constants of its class for valid, whatever values it
was given.  Missing: `BindingTimeEnum`, which has no constants (`C84_binding`). -/
theorem C84_exact_partial (r : EnumRow) (hr : r ∈ enumTable) (hc : r.cls ≠ k!"BindingTimeEnum") (o : EnumObj) (hn : EnumObj.new r = .ok o)
    (ops : List EnumObj.Op) (ho : ∀ l, .setEnumValues l ∉ ops) (v : String) :
    (o.run ops).validate v = true ↔ ∃ n, (n, v) ∈ r.consts := by
  have hl : listsGiven ops = [] := by
    clear hn
    induction ops with
    | nil => rfl
    | cons op ops ih =>
      have := ih fun l hl => ho l (List.mem_cons_of_mem _ hl)
      cases op with
      | setValue v => exact this
      | setEnumValues l => exact absurd (List.mem_cons_self ..) (ho l)
  have ha : r.allowed = some o.allowed := by
    unfold EnumObj.new at hn
    split at hn
    · rename_i l h; cases hn; exact h
    · cases hn
  have := (enum_rows r hr).2.2 hc _ ha v
  unfold EnumObj.validate
  rw [run_allowed, hl]
  simp only [List.getLast?_nil, Option.getD_none, List.contains_iff_mem]
  rw [List.mem_map] at this
  constructor
  · intro h
    split at h
    · rename_i h'
      obtain ⟨⟨n, w⟩, hm, rfl⟩ := this.1 h'
      exact ⟨n, hm⟩
    · cases h
  · rintro ⟨n, hm⟩
    rw [if_pos (this.2 ⟨_, hm, rfl⟩)]

/-- **C84** For every object of an enumeration and every history: valid are the values of the list set last, or those it had from the beginning; and its value is the text given last. -/
theorem C84_history (o : EnumObj) (ops : List EnumObj.Op) (v : String) :
    ((o.run ops).validate v = true ↔ v ∈ (listsGiven ops).getLast?.getD o.getEnumValues) ∧
    (o.run ops).getEnumValues = (listsGiven ops).getLast?.getD o.getEnumValues ∧
    (o.run ops).getValue = (textsGiven ops).getLast?.getD o.getValue := by
  refine ⟨?_, run_allowed ops o, ?_⟩
  · unfold EnumObj.validate
    rw [run_allowed]
    simp [EnumObj.getEnumValues]
  · unfold EnumObj.getValue
    rw [run_value]
    cases (textsGiven ops).getLast? <;> rfl

theorem inj_of_nodup {α β : Type} (f : α → β) (l : List α) (h : (l.map f).Nodup) {a b : α} (ha : a ∈ l) (hb : b ∈ l) (he : f a = f b) : a = b := by
  induction l with
  | nil => cases ha
  | cons c l ih =>
    rw [List.map_cons, List.nodup_cons] at h
    rcases List.mem_cons.1 ha with rfl | ha <;> rcases List.mem_cons.1 hb with rfl | hb
    · rfl
    · exact absurd (List.mem_map.2 ⟨_, hb, he.symm⟩) h.1
    · exact absurd (List.mem_map.2 ⟨_, ‹a ∈ l›, he⟩) h.1
    · exact ih h.2 ha hb

/-- **C84** No two constants of an enumeration have the same value, or the same name; a new object has the value `""`. -/
theorem C84_distinct (r : EnumRow) (hr : r ∈ enumTable) :
    (∀ n m v, (n, v) ∈ r.consts → (m, v) ∈ r.consts → n = m) ∧ (∀ n v w, (n, v) ∈ r.consts → (n, w) ∈ r.consts → v = w) ∧
    ∀ o, EnumObj.new r = .ok o → o.getValue = "" := by
  obtain ⟨h1, h2, _⟩ := enum_rows r hr
  refine ⟨fun n m v hn hm => ?_, fun n v w hv hw => ?_, fun o ho => ?_⟩
  · exact congrArg Prod.fst (inj_of_nodup Prod.snd _ h1 hn hm rfl)
  · exact congrArg Prod.snd (inj_of_nodup Prod.fst _ h2 hv hw rfl)
  · unfold EnumObj.new at ho
    split at ho
    · cases ho; rfl
    · cases ho

/-- The enumeration without constants accepts four values. -/
theorem C84_binding : ∃ r ∈ enumTable, r.cls = k!"BindingTimeEnum" ∧ r.consts = [] ∧
    r.allowed = some ["codeGenerationTime", "linkTime", "preCompileTime", "systemDesignTime"] := by decide +kernel

/-- **C84 fails** for six enumerations: they have no constants and take no value for valid. -/
theorem C84_empty_broken :
    ((enumTable.filter fun r => r.allowed == some []).map EnumRow.cls) =
      [k!"ServiceDiagnosticRelevanceEnum", k!"DtcKindEnum", k!"DiagnosticClearDtcNotificationEnum", k!"DtcFormatTypeEnum", k!"EcucConfigurationVariantEnum", k!"CycleRepetitionType"] ∧
    ∀ r ∈ enumTable, r.allowed = some [] → ∃ o, EnumObj.new r = .ok o ∧ ∀ v, o.validate v = false := by
  refine ⟨by decide +kernel, fun r _ h => ⟨⟨[], none⟩, by simp [EnumObj.new, h], fun v => rfl⟩⟩

/-- **C84 fails**: `setValue` takes every text, valid or not. -/
theorem C84_unchecked_broken (r : EnumRow) (o : EnumObj) (_ : EnumObj.new r = .ok o) (v : String) (hv : o.validate v = false) :
    (o.run [.setValue (some v)]).getValue = v ∧ (o.run [.setValue (some v)]).validate (o.run [.setValue (some v)]).getValue = false := ⟨rfl, hv⟩

/-- **C84 fails** for limits that are read from a file: their interval type is the text of the attribute, whatever it is, and the two texts of the standard, `CLOSED` and `OPEN`,
are not among the valid ones, `closed` and `open`. -/
theorem C84_limit_broken (py : Py) (x : Xml) (v : Str) (h : x.attr k!"INTERVAL-TYPE" = some v) :
    (∃ t u, readKind py .limit x = .ok (some (.limit t u (some v) x.text))) ∧
    ∃ r ∈ enumTable, r.cls = k!"IntervalTypeEnum" ∧ ∃ o, EnumObj.new r = .ok o ∧ o.validate "CLOSED" = false ∧ o.validate "OPEN" = false ∧
      o.validate "closed" = true ∧ o.validate "open" = true := by
  refine ⟨⟨_, _, by simp only [readKind, h]; rfl⟩, ?_⟩
  have : ∃ r ∈ enumTable, r.cls = k!"IntervalTypeEnum" ∧ r.allowed = some ["closed", "open"] := by decide +kernel
  obtain ⟨r, hr, hc, ha⟩ := this
  exact ⟨r, hr, hc, ⟨["closed", "open"], none⟩, by simp [EnumObj.new, ha], by decide +kernel, by decide +kernel, by decide +kernel, by decide +kernel⟩

/-- 100 classes, 98 of them can be constructed without arguments, 91 of these have constants -/
theorem C84_count : enumTable.length = 100 ∧ (enumTable.filter fun r => r.allowed.isSome).length = 98 ∧
    (enumTable.filter fun r => r.allowed.isSome && !r.consts.isEmpty).length = 91 := by decide +kernel

/-- the hypotheses are met -/
example : ∃ r ∈ enumTable, r.cls = k!"SwImplPolicyEnum" ∧ ∃ o, EnumObj.new r = .ok o ∧
    (o.run [.setValue (some "fixed"), .setValue none, .setValue (some "nothing")]).validate "queued" = true ∧
    (o.run [.setValue (some "fixed"), .setValue none, .setValue (some "nothing")]).validate "nothing" = false ∧
    (o.run [.setValue (some "fixed"), .setEnumValues ["nothing"], .setValue none]).validate "nothing" = true ∧
    (o.run [.setValue (some "fixed"), .setEnumValues ["nothing"], .setValue none]).getValue = "fixed" := by
  have : ∃ r ∈ enumTable, r.cls = k!"SwImplPolicyEnum" ∧ r.allowed = some ["const", "fixed", "measurementPoint", "queued", "standard"] := by decide +kernel
  obtain ⟨r, hr, hc, ha⟩ := this
  exact ⟨r, hr, hc, ⟨["const", "fixed", "measurementPoint", "queued", "standard"], none⟩, by simp [EnumObj.new, ha], by decide +kernel, by decide +kernel, by decide +kernel,
    by decide +kernel⟩

end Verif.Props
