import Verif.Model.Tools
import Verif.Model.ArxmlFormat
import Verif.Props.Disk
/-!
# C77: how the tools end
-/
namespace Verif.Props
open Verif Verif.Model Verif.Spec Verif.Lemmas

/-- the file a system call changes -/
def DiskOp.file : DiskOp → Str
  | .truncate f => f
  | .append f _ => f

theorem after_other {ops : List DiskOp} {g : Str} (h : ∀ op ∈ ops, DiskOp.file op ≠ g) (disk : Disk) : disk.after ops g = disk g := by
  induction ops generalizing disk with
  | nil => rfl
  | cons op ops ih =>
    rw [Disk.after, List.foldl_cons]
    have := ih (fun o ho => h o (by simp [ho])) (DiskOp.run disk op)
    rw [Disk.after] at this
    rw [this]
    have hne := h op (by simp)
    cases op <;> simp only [DiskOp.file] at hne <;> simp [DiskOp.run, Ne.symm hne]

/-- **C77** A tool changes no file but those its work changes and its log file, however it ends. -/
theorem C77_other_files (t : Tool) (real : Str → Str) (verbose : Bool) (output : Str) (logged : ByteArray) (work : Disk → Calls) (disk : Disk) (g : Str)
    (hlog : ∀ l, t.logFile output = some l → real l ≠ g)
    (hwork : ∀ d, ∀ op ∈ (work d).ops, DiskOp.file op ≠ g) : (t.run real verbose output logged work disk).1 g = disk g := by
  unfold Tool.run Tool.prepare
  cases hl : t.logFile output with
  | none => exact after_other (hwork _) disk
  | some l =>
    have hne := Ne.symm (hlog l hl)
    simp only
    split
    · rw [after_other (hwork _)]; simp [hne]
    · simp only [DiskOp.run, if_neg hne]
      rw [after_other (hwork _)]; simp [hne]

/-- the tools whose exit status tells whether they failed -/
def reporting (verbose : Bool) : List Str :=
  ["format-xml", "arxml-dump", "connector2xlsx", "connector-update", "armodel-component", "armodel-file-list"].map String.toList ++
    if verbose then ["arxml-format", "armodel-uuid-checker"].map String.toList else []

/-- **C77 (partial)** The exit status is 0 exactly if the work was done without an exception, for the tools in `reporting`.  For the others this is
refuted: their exit status is always 0. -/
theorem C77_status_partial (t : Tool) (ht : t ∈ tools) (real : Str → Str) (verbose : Bool) (output : Str) (logged : ByteArray) (work : Disk → Calls) (disk : Disk) :
    if t.name ∈ reporting verbose then
      ((t.run real verbose output logged work disk).2 = 0 ↔ (work (t.prepare real verbose output disk)).err = none)
    else (t.run real verbose output logged work disk).2 = 0 := by
  have key : ∀ e, if t.name ∈ reporting verbose then (t.status verbose e = 0 ↔ e = none) else t.status verbose e = 0 := by
    have h : (tools.all fun t => [false, true].all fun v => if t.name ∈ reporting v then t.onError = .raises ∨ t.onError = .exits ∨ t.onError = .raisesVerbose ∧ v = true
      else t.onError = .prints ∨ t.onError = .raisesVerbose ∧ v = false) = true := by decide +kernel
    have h := List.all_eq_true.1 h t ht
    have h := List.all_eq_true.1 h verbose (by cases verbose <;> simp)
    intro e
    by_cases hr : t.name ∈ reporting verbose
    · rw [if_pos hr]
      simp only [hr, if_true, decide_eq_true_eq] at h
      cases e with
      | none => simp [Tool.status]
      | some e => rcases h with h | h | ⟨h, hv⟩ <;> simp [Tool.status, *]
    · rw [if_neg hr]
      simp only [hr, if_false, decide_eq_true_eq] at h
      cases e with
      | none => rfl
      | some e => rcases h with h | ⟨h, hv⟩ <;> simp [Tool.status, *]
  exact key _

section
variable (py : Py) (repr : py.F → Str) (nc : NameChars) (warning remove unescape : Bool) (pieces : ByteArray → List ByteArray) (real : Str → Str)
  (input output : Str)

theorem format_quiet : arxmlFormatTool.quiet = true := rfl

/-- what `arxml-format` makes of a file (C57) -/
def formatted (disk : Disk) : Option Str := ((disk (real input)).bind decodeFile).bind (arxmlFormat py repr nc warning remove unescape)

/-- the work of the tool: everything is written, or nothing -/
theorem formatWork_spec (hp : Splits pieces) (disk : Disk) :
    match formatted py repr nc warning remove unescape real input disk with
    | some s => (formatWork py repr nc warning remove unescape pieces real input output disk).err = none ∧
        disk.after (formatWork py repr nc warning remove unescape pieces real input output disk).ops (real output) = some s.utf8Encode ∧
        ∀ op ∈ (formatWork py repr nc warning remove unescape pieces real input output disk).ops, DiskOp.file op = real output
    | none => (formatWork py repr nc warning remove unescape pieces real input output disk).err ≠ none ∧
        (formatWork py repr nc warning remove unescape pieces real input output disk).ops = [] := by
  unfold formatted formatWork loadFrom parseBytes
  cases h1 : disk (real input) with
  | none => exact ⟨nofun, rfl⟩
  | some b =>
    simp only [Option.bind_some]
    cases h2 : decodeFile b with
    | none => exact ⟨nofun, rfl⟩
    | some t =>
      simp only [Option.bind_some, arxmlFormat]
      cases h3 : parseFile nc t with
      | none => exact ⟨nofun, rfl⟩
      | some x =>
        simp only [Option.map_some]
        cases h4 : load py (!warning) x with
        | error e => cases e <;> exact ⟨nofun, rfl⟩
        | ok d =>
          simp only
          cases h5 : save py repr true (if remove = true then removeAll d else d) with
          | error e => simp [saveCalls, h5]
          | ok y =>
            simp only
            cases h6 : saveToFile py nc unescape y with
            | none => simp [saveCalls, h5, h6]
            | some s =>
              obtain ⟨_, _, h7, h8⟩ := after_some py repr nc true unescape pieces (file := real output) hp h5 h6 disk 0
              refine ⟨h7, h8, ?_⟩
              simp only [saveCalls, h5, h6, List.mem_cons, List.mem_map]
              rintro op (rfl | ⟨p, _, rfl⟩) <;> rfl

/-- **C77** `arxml-format`, if neither the input nor the output is its log file (the input may be the output): the output file holds what is made of the
input, or what it held before if that is nothing; no other file but the log file changes; and with `-v` the exit status tells which. -/
theorem C77_format_partial (hp : Splits pieces) (verbose : Bool) (logged : ByteArray) (disk : Disk) (l : Str) (hl : arxmlFormatTool.logFile output = some l)
    (hi : real l ≠ real input) (ho : real l ≠ real output) :
    let r := arxmlFormatTool.run real verbose output logged (formatWork py repr nc warning remove unescape pieces real input output) disk
    r.1 (real output) = (match formatted py repr nc warning remove unescape real input disk with
      | some s => some s.utf8Encode
      | none => disk (real output)) ∧
    (∀ g, g ≠ real output → g ≠ real l → r.1 g = disk g) ∧
    (verbose = true → (r.2 = 0 ↔ (formatted py repr nc warning remove unescape real input disk).isSome)) := by
  have hstart : ∀ g, g ≠ real l → arxmlFormatTool.prepare real verbose output disk g = disk g := by
    intro g hg
    unfold Tool.prepare
    rw [hl]
    simp [hg]
  have hend : ∀ g, g ≠ real l → (arxmlFormatTool.run real verbose output logged (formatWork py repr nc warning remove unescape pieces real input output) disk).1 g =
      (arxmlFormatTool.prepare real verbose output disk).after
        (formatWork py repr nc warning remove unescape pieces real input output (arxmlFormatTool.prepare real verbose output disk)).ops g := by
    intro g hg
    unfold Tool.run
    rw [hl]
    simp only
    split
    · rfl
    · simp [DiskOp.run, hg]
  have hf : formatted py repr nc warning remove unescape real input (arxmlFormatTool.prepare real verbose output disk) =
      formatted py repr nc warning remove unescape real input disk := by
    unfold formatted
    rw [hstart _ (Ne.symm hi)]
  have hw := formatWork_spec py repr nc warning remove unescape pieces real input output hp (arxmlFormatTool.prepare real verbose output disk)
  rw [hf] at hw
  have hfiles : ∀ op ∈ (formatWork py repr nc warning remove unescape pieces real input output (arxmlFormatTool.prepare real verbose output disk)).ops,
      DiskOp.file op = real output := by
    cases h : formatted py repr nc warning remove unescape real input disk with
    | some s => rw [h] at hw; exact hw.2.2
    | none => rw [h] at hw; intro op hop; rw [hw.2] at hop; cases hop
  refine ⟨?_, fun g hg hgl => ?_, fun hv => ?_⟩
  · rw [hend _ (Ne.symm ho)]
    cases h : formatted py repr nc warning remove unescape real input disk with
    | some s => rw [h] at hw; exact hw.2.1
    | none => rw [h] at hw; rw [hw.2]; exact hstart _ (Ne.symm ho)
  · rw [hend g hgl, after_other (fun op hop => by rw [hfiles op hop]; exact Ne.symm hg)]
    exact hstart g hgl
  · have hs := C77_status_partial arxmlFormatTool (by decide +kernel) real verbose output logged
      (formatWork py repr nc warning remove unescape pieces real input output) disk
    rw [if_pos (by subst hv; decide +kernel)] at hs
    rw [hs]
    cases h : formatted py repr nc warning remove unescape real input disk with
    | some s => rw [h] at hw; simp [hw.1]
    | none => rw [h] at hw; simp [hw.1]

/-- **C77 fails** for `arxml-format` without `-v`: if there is nothing to read the tool ends with status 0, and nothing is written. -/
theorem C77_format_broken (hp : Splits pieces) (logged : ByteArray) :
    let r := arxmlFormatTool.run real false output logged (formatWork py repr nc warning remove unescape pieces real input output) (fun _ => none)
    r.2 = 0 ∧ ∀ g, r.1 g = none := by
  have hstart : arxmlFormatTool.prepare real false output (fun _ => none) = fun _ => none := by
    funext g
    unfold Tool.prepare
    cases arxmlFormatTool.logFile output with
    | none => rfl
    | some l => simp [format_quiet]
  have hw := formatWork_spec py repr nc warning remove unescape pieces real input output hp (fun _ => none)
  have hn : formatted py repr nc warning remove unescape real input (fun _ => none) = none := rfl
  rw [hn] at hw
  constructor
  · have hs := C77_status_partial arxmlFormatTool (by decide +kernel) real false output logged
      (formatWork py repr nc warning remove unescape pieces real input output) (fun _ => none)
    rwa [if_neg (by decide +kernel)] at hs
  · intro g
    unfold Tool.run
    simp only [hstart, hw.2]
    cases arxmlFormatTool.logFile output with
    | none => rfl
    | some l => simp [format_quiet, Disk.after]

/-- **C77 fails** if the input file has the name of the log file and is in the directory of the output file: it is deleted, and nothing is written. -/
theorem C77_input_lost_broken (hp : Splits pieces) (logged : ByteArray) (disk : Disk) (hl : arxmlFormatTool.logFile output = some input)
    (ho : real input ≠ real output) :
    let r := arxmlFormatTool.run real false output logged (formatWork py repr nc warning remove unescape pieces real input output) disk
    r.1 (real input) = none ∧ r.1 (real output) = disk (real output) ∧ r.2 = 0 := by
  have hstart : arxmlFormatTool.prepare real false output disk (real input) = none := by
    unfold Tool.prepare
    rw [hl]
    simp [format_quiet]
  have hw := formatWork_spec py repr nc warning remove unescape pieces real input output hp (arxmlFormatTool.prepare real false output disk)
  have hn : formatted py repr nc warning remove unescape real input (arxmlFormatTool.prepare real false output disk) = none := by
    unfold formatted
    rw [hstart]
    rfl
  rw [hn] at hw
  have hrun : (arxmlFormatTool.run real false output logged (formatWork py repr nc warning remove unescape pieces real input output) disk).1 =
      arxmlFormatTool.prepare real false output disk := by
    unfold Tool.run
    rw [hl]
    simp only [hw.2]
    rw [if_pos (by decide +kernel)]
    rfl
  refine ⟨?_, ?_, ?_⟩
  · rw [hrun, hstart]
  · rw [hrun]
    unfold Tool.prepare
    rw [hl]
    simp [Ne.symm ho]
  · have hs := C77_status_partial arxmlFormatTool (by decide +kernel) real false output logged
      (formatWork py repr nc warning remove unescape pieces real input output) disk
    rwa [if_neg (by decide +kernel)] at hs

end

/- the hypotheses of `C77_format_partial`, formatting in place -/
example : ∃ l, arxmlFormatTool.logFile "a.arxml".toList = some l ∧ id l ≠ id "a.arxml".toList := ⟨"arxml_format.log".toList, by decide +kernel⟩

/- the tools that tell -/
example : "arxml-format".toList ∈ reporting true ∧ "arxml-format".toList ∉ reporting false ∧ "armodel-system-signal".toList ∉ reporting true ∧
    (tools.filter fun t => decide (t.name ∈ reporting false)).length = 6 := by decide +kernel

/- the log file: in the directory of the output file -/
example : arxmlFormatTool.logFile "out/x.arxml".toList = some "out/arxml_format.log".toList ∧ arxmlFormatTool.logFile "x.arxml".toList = some "arxml_format.log".toList ∧
    arxmlFormatTool.logFile "/x.arxml".toList = some "/arxml_format.log".toList ∧ arxmlFormatTool.logFile "a//b".toList = some "a/arxml_format.log".toList := by
  decide +kernel

end Verif.Props
