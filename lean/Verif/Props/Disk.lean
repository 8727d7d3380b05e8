import Verif.Lemmas.Disk
import Verif.Model.Load
import Verif.Props.File
/-!
# C70: a save that fails or is interrupted
-/
namespace Verif.Props
open Verif Verif.Model Verif.Spec Verif.Lemmas

theorem decode_begin {a b : ByteArray} {s : Str} (h : Begins a b) (hs : a.utf8Decode?.isSome) (hb : b.utf8Decode? = some s.toArray) :
    ∃ p, a.utf8Decode? = some p.toArray ∧ p <+: s := by
  obtain ⟨c, rfl⟩ := h
  obtain ⟨p, rfl⟩ := ByteArray.isSome_utf8Decode?_iff.1 hs
  obtain ⟨s', hs'⟩ := ByteArray.isSome_utf8Decode?_iff.1 (hb ▸ rfl : (p.utf8Encode ++ c).utf8Decode?.isSome)
  rw [hs', List.utf8Decode?_utf8Encode] at hb
  cases hb
  exact ⟨p, List.utf8Decode?_utf8Encode, List.isPrefix_of_utf8Encode_append_eq_utf8Encode c hs'⟩

theorem decodeFile_begin {a b : ByteArray} {s t : Str} (h : Begins a b) (ha : decodeFile a = some s) (hb : decodeFile b = some t) : s <+: t := by
  unfold decodeFile at ha hb
  obtain ⟨p, hp, hs⟩ := Option.map_eq_some_iff.1 ha
  obtain ⟨q, hq, ht⟩ := Option.map_eq_some_iff.1 hb
  obtain ⟨p', hp', hpre⟩ := decode_begin (s := q.toList) h (hp ▸ rfl) (by rw [hq])
  rw [hp] at hp'
  cases hp'
  obtain ⟨r, hr⟩ := hpre
  rw [← hr] at ht
  subst hs
  cases p' with
  | nil => exact List.nil_prefix
  | cons c p' =>
    simp only [List.cons_append] at ht ⊢
    subst ht
    split
    · exact List.prefix_append _ _
    · exact List.prefix_append (c :: p') r

/-- **C70** The beginning of a file that can be read is never read as something else: it can not be read, or as the same tree. -/
theorem C70_truncated (nc : NameChars) (a b : ByteArray) (x y : Xml) (h : Begins a b) (hx : parseBytes nc a = some x) (hy : parseBytes nc b = some y) :
    x = y := by
  unfold parseBytes parseFile at hx hy
  obtain ⟨s, hs, hx⟩ := Option.bind_eq_some_iff.1 hx
  obtain ⟨t, ht, hy⟩ := Option.bind_eq_some_iff.1 hy
  obtain ⟨e, he, rfl⟩ := Option.map_eq_some_iff.1 hx
  obtain ⟨e', he', rfl⟩ := Option.map_eq_some_iff.1 hy
  obtain ⟨u, rfl⟩ := decodeFile_begin h hs ht
  rw [parseXml_begin he he']

section
variable (py : Py) (repr : py.F → Str) (nc : NameChars) (strict unescape : Bool) (pieces : ByteArray → List ByteArray)

/-- **C70** A save that ends with an exception has not touched the disk, at no time. -/
theorem C70_exception (file : Str) (d : MObj py.F) (disk : Disk) (e : PyErr)
    (h : (saveCalls py repr nc strict unescape pieces file d).err = some e) (k : Nat) :
    disk.after ((saveCalls py repr nc strict unescape pieces file d).ops.take k) = disk := by
  unfold saveCalls at h ⊢
  split
  · rw [List.take_nil]; rfl
  · rename_i x hx
    rw [hx] at h
    simp only at h
    split
    · rw [List.take_nil]; rfl
    · rename_i s hs
      rw [hs] at h
      cases h

theorem after_append (disk : Disk) (f : Str) (b : ByteArray) (hb : disk f = some b) (l : List ByteArray) :
    (disk.after (l.map (.append f))) f = some (b ++ l.foldl (· ++ ·) ByteArray.empty) ∧ ∀ g, g ≠ f → (disk.after (l.map (.append f))) g = disk g := by
  have key : ∀ (l : List ByteArray) (disk : Disk) (b : ByteArray), disk f = some b → (disk.after (l.map (.append f))) f = some (l.foldl (· ++ ·) b) ∧
      ∀ g, g ≠ f → (disk.after (l.map (.append f))) g = disk g := by
    intro l
    induction l with
    | nil => intro disk b hb; exact ⟨hb, fun _ _ => rfl⟩
    | cons c l ih =>
      intro disk b hb
      have h1 : (DiskOp.run disk (.append f c)) f = some (b ++ c) := by simp [DiskOp.run, hb]
      obtain ⟨h2, h3⟩ := ih (DiskOp.run disk (.append f c)) (b ++ c) h1
      refine ⟨h2, fun g hg => ?_⟩
      rw [List.map_cons, Disk.after, List.foldl_cons]
      have := h3 g hg
      rw [Disk.after] at this
      rw [this]
      simp [DiskOp.run, hg]
  obtain ⟨h1, h2⟩ := key l disk b hb
  refine ⟨?_, h2⟩
  rw [h1]
  congr 1
  have assoc : ∀ (l : List ByteArray) (a b : ByteArray), l.foldl (· ++ ·) (a ++ b) = a ++ l.foldl (· ++ ·) b := by
    intro l
    induction l with
    | nil => intro a b; rfl
    | cons c l ih => intro a b; rw [List.foldl_cons, List.foldl_cons, ByteArray.append_assoc, ih]
  have := assoc l b ByteArray.empty
  rw [ByteArray.append_empty] at this
  exact this

theorem foldl_begins (l : List ByteArray) (k : Nat) : Begins ((l.take k).foldl (· ++ ·) ByteArray.empty) (l.foldl (· ++ ·) ByteArray.empty) := by
  have key : ∀ (l : List ByteArray) (b : ByteArray), Begins b (l.foldl (· ++ ·) b) := by
    intro l
    induction l with
    | nil => intro b; exact ⟨ByteArray.empty, ByteArray.append_empty⟩
    | cons c l ih =>
      intro b
      obtain ⟨r, hr⟩ := ih (b ++ c)
      exact ⟨c ++ r, by rw [← ByteArray.append_assoc]; exact hr⟩
  conv => arg 2; rw [← List.take_append_drop k l]
  rw [List.foldl_append]
  exact key _ _

/-- after any number of system calls the file is what it was, or the beginning of what is saved -/
theorem after_some {file : Str} {d : MObj py.F} {x : Xml} {s : Str} (hp : Splits pieces) (hx : save py repr strict d = .ok x)
    (hs : saveToFile py nc unescape x = some s) (disk : Disk) (k : Nat) :
    (k = 0 ∨ ∃ b, disk.after ((saveCalls py repr nc strict unescape pieces file d).ops.take k) file = some b ∧ Begins b s.utf8Encode) ∧
    (∀ g, g ≠ file → disk.after ((saveCalls py repr nc strict unescape pieces file d).ops.take k) g = disk g) ∧
    (saveCalls py repr nc strict unescape pieces file d).err = none ∧
    disk.after (saveCalls py repr nc strict unescape pieces file d).ops file = some s.utf8Encode := by
  have hcalls : saveCalls py repr nc strict unescape pieces file d = ⟨.truncate file :: (pieces s.utf8Encode).map (.append file), none⟩ := by
    unfold saveCalls
    rw [hx]
    simp only [hs]
  rw [hcalls]
  have ht : (DiskOp.run disk (.truncate file)) file = some ByteArray.empty := by simp [DiskOp.run]
  refine ⟨?_, ?_, rfl, ?_⟩
  · cases k with
    | zero => exact .inl rfl
    | succ k =>
      right
      rw [List.take_succ_cons, ← List.map_take]
      obtain ⟨h1, _⟩ := after_append (DiskOp.run disk (.truncate file)) file _ ht ((pieces s.utf8Encode).take k)
      refine ⟨_, h1, ?_⟩
      rw [ByteArray.empty_append]
      have := foldl_begins (pieces s.utf8Encode) k
      rw [hp] at this
      exact this
  · intro g hg
    cases k with
    | zero => rfl
    | succ k =>
      rw [List.take_succ_cons, ← List.map_take]
      obtain ⟨_, h2⟩ := after_append (DiskOp.run disk (.truncate file)) file _ ht ((pieces s.utf8Encode).take k)
      have := h2 g hg
      rw [Disk.after] at this
      rw [Disk.after, List.foldl_cons, this]
      simp [DiskOp.run, hg]
  · obtain ⟨h1, _⟩ := after_append (DiskOp.run disk (.truncate file)) file _ ht (pieces s.utf8Encode)
    rw [Disk.after, List.foldl_cons]
    rw [Disk.after] at h1
    rw [h1, hp, ByteArray.empty_append]

theorem parse_encoded {s : Str} (h : ∀ c, s.head? = some c → c.toNat ≠ 0xFEFF) : parseBytes nc s.utf8Encode = parseFile nc s := by
  unfold parseBytes decodeFile
  rw [List.utf8Decode?_utf8Encode]
  cases s with
  | nil => rfl
  | cons c s => simp [h c rfl]

theorem expand_head (r : Str) : (expand py ('<' :: r)).head? = some '<' := by
  unfold expand
  rw [List.length_cons, expandGo]
  split <;> rfl

theorem replace_head {x y : Str} (r : Str) (hx : ¬ x.isPrefixOf ('<' :: r) = true) : ∃ r', replaceAll x y ('<' :: r) = '<' :: r' := by
  unfold replaceAll
  rw [List.length_cons, replaceGo, if_neg hx]
  exact ⟨_, rfl⟩

theorem saved_head {x : Xml} {s : Str} (h : saveToFile py nc unescape x = some s) : s.head? = some '<' := by
  unfold saveToFile at h
  obtain ⟨e, _, rfl⟩ := Option.map_eq_some_iff.1 h
  obtain ⟨r, hr⟩ : ∃ r, domHead ++ domWrite [] e = '<' :: r := ⟨_, rfl⟩
  unfold patchXml
  simp only [hr]
  have he := expand_head py r
  obtain ⟨r1, h1⟩ : ∃ r1, expand py ('<' :: r) = '<' :: r1 := by
    cases hx : expand py ('<' :: r) with
    | nil => rw [hx] at he; cases he
    | cons c l => rw [hx] at he; cases he; exact ⟨l, rfl⟩
  rw [h1]
  split
  · obtain ⟨r2, h2⟩ := replace_head (x := "&quot;".toList) (y := ['"']) r1 (by simp [List.isPrefixOf])
    rw [h2]
    obtain ⟨r3, h3⟩ := replace_head (x := "&apos;".toList) (y := ['\'']) r2 (by simp [List.isPrefixOf])
    rw [h3]
    rfl
  · rfl

theorem parse_saved {x : Xml} {s : Str} (h : saveToFile py nc unescape x = some s) : parseBytes nc s.utf8Encode = parseFile nc s :=
  parse_encoded nc fun c hc => by
    rw [saved_head py nc unescape h] at hc
    cases hc
    decide

/-- a save that raises no exception -/
theorem saved_ok {file : Str} {d : MObj py.F} (h : (saveCalls py repr nc strict unescape pieces file d).err = none) :
    ∃ x s, save py repr strict d = .ok x ∧ saveToFile py nc unescape x = some s := by
  unfold saveCalls at h
  split at h
  · cases h
  · rename_i x hx
    split at h
    · cases h
    · rename_i s hs
      exact ⟨x, s, hx, hs⟩

/-- **C70** A save that raises no exception and is not interrupted: the file has the text that is saved, as UTF-8, and no other file has changed. -/
theorem C70_complete (hp : Splits pieces) (file : Str) (d : MObj py.F) (disk : Disk)
    (h : (saveCalls py repr nc strict unescape pieces file d).err = none) :
    ∃ x s, save py repr strict d = .ok x ∧ saveToFile py nc unescape x = some s ∧
      loadFrom py nc strict (disk.after (saveCalls py repr nc strict unescape pieces file d).ops) file = (parseFile nc s).map (load py strict) ∧
      ∀ g, g ≠ file → disk.after (saveCalls py repr nc strict unescape pieces file d).ops g = disk g := by
  obtain ⟨x, s, hx, hs⟩ := saved_ok py repr nc strict unescape pieces h
  obtain ⟨_, h2, _, h4⟩ := after_some py repr nc strict unescape pieces hp hx hs disk
    (saveCalls py repr nc strict unescape pieces file d).ops.length
  refine ⟨x, s, hx, hs, ?_, ?_⟩
  · unfold loadFrom
    rw [h4, Option.bind_some, parse_saved py nc unescape hs]
  · rw [List.take_length] at h2
    exact h2

/-- **C70 (partial)** A save that is interrupted after any number of system calls: no other file has changed; and loading the file fails because it is
no XML file, or yields what it yielded before, or what it yields after a complete save.  (With the option to unescape entities the complete file
must be one that can be read, see C31.)  Missing: that one of the two documents is still there, see `C70_lost_broken`. -/
theorem C70_interrupted_partial (hp : Splits pieces) (file : Str) (d : MObj py.F) (disk : Disk) (k : Nat)
    (hu : unescape = true → loadFrom py nc strict (disk.after (saveCalls py repr nc strict unescape pieces file d).ops) file ≠ none) :
    (∀ g, g ≠ file → disk.after ((saveCalls py repr nc strict unescape pieces file d).ops.take k) g = disk g) ∧
    (loadFrom py nc strict (disk.after ((saveCalls py repr nc strict unescape pieces file d).ops.take k)) file = none ∨
     loadFrom py nc strict (disk.after ((saveCalls py repr nc strict unescape pieces file d).ops.take k)) file = loadFrom py nc strict disk file ∨
     loadFrom py nc strict (disk.after ((saveCalls py repr nc strict unescape pieces file d).ops.take k)) file =
       loadFrom py nc strict (disk.after (saveCalls py repr nc strict unescape pieces file d).ops) file) := by
  cases he : (saveCalls py repr nc strict unescape pieces file d).err with
  | some e =>
    have := C70_exception py repr nc strict unescape pieces file d disk e he k
    rw [this]
    exact ⟨fun _ _ => rfl, .inr (.inl rfl)⟩
  | none =>
    obtain ⟨x, s, hx, hs⟩ := saved_ok py repr nc strict unescape pieces he
    obtain ⟨h1, h2, _, h4⟩ := after_some py repr nc strict unescape pieces hp hx hs disk k
    refine ⟨h2, ?_⟩
    rcases h1 with rfl | ⟨b, hb, hbeg⟩
    · exact .inr (.inl rfl)
    · have hy : ∃ y, parseBytes nc s.utf8Encode = some y := by
        cases hun : unescape with
        | false =>
          subst hun
          have hn := save_names nc hx
          have hg := (C30_saved_iff py nc x hn).1 (hs ▸ rfl)
          have := C30_exact py nc x ⟨hn, hg⟩
          rw [hs] at this
          exact ⟨_, (parse_saved py nc false hs).trans this⟩
        | true =>
          have := hu hun
          unfold loadFrom at this
          rw [h4, Option.bind_some] at this
          cases hq : parseBytes nc s.utf8Encode with
          | none => rw [hq] at this; exact absurd rfl this
          | some y => exact ⟨y, rfl⟩
      obtain ⟨y, hy⟩ := hy
      unfold loadFrom
      rw [hb, h4, Option.bind_some, Option.bind_some, hy]
      cases hq : parseBytes nc b with
      | none => exact .inl rfl
      | some z =>
        rw [C70_truncated nc b _ z y hbeg hq hy]
        exact .inr (.inr rfl)

/-- **C70 is refuted for what was there before.**  Whatever is saved without an exception: interrupted after the first system call, the file is empty.
What could be loaded from it before is lost, and nothing can be loaded. -/
theorem C70_lost_broken (file : Str) (d : MObj py.F) (disk : Disk) (h : (saveCalls py repr nc strict unescape pieces file d).err = none) :
    disk.after ((saveCalls py repr nc strict unescape pieces file d).ops.take 1) file = some ByteArray.empty ∧
    loadFrom py nc strict (disk.after ((saveCalls py repr nc strict unescape pieces file d).ops.take 1)) file = none := by
  obtain ⟨x, s, hx, hs⟩ := saved_ok py repr nc strict unescape pieces h
  have h1 : disk.after ((saveCalls py repr nc strict unescape pieces file d).ops.take 1) file = some ByteArray.empty := by
    unfold saveCalls
    rw [hx]
    simp only [hs, List.take_succ_cons, List.take_zero, Disk.after, List.foldl_cons, List.foldl_nil, DiskOp.run, if_true]
  refine ⟨h1, ?_⟩
  unfold loadFrom
  rw [h1, Option.bind_some]
  unfold parseBytes decodeFile
  rw [ByteArray.utf8Decode?_empty]
  rfl

end

/-- a file; without its last character it is the same; without the last two it is none -/
def lastFile : Str := t!"<?xml version='1.0'?><AUTOSAR><AR-PACKAGES><AR-PACKAGE><SHORT-NAME>P</SHORT-NAME></AR-PACKAGE></AR-PACKAGES></AUTOSAR>" ++ ['\n']

/-- the object with a text in an attribute -/
def withText {F : Type} (o : MObj F) (k : Key) (s : Str) : MObj F := match o with
  | .mk c fs => .mk c (fs.map fun e => if e.1.1 = k then (e.1, [.scal (.str s)]) else e)
  | .scal t => .scal t

/-- the case of `C70_truncated`: beginnings that can and that can not be read -/
example : ∃ a b c : ByteArray, Begins a b ∧ Begins b c ∧ parseBytes .ascii a = none ∧ (parseBytes .ascii b).isSome ∧ (parseBytes .ascii c).isSome ∧ b ≠ c := by
  have hd : ∀ l m : Str, Begins l.utf8Encode (l ++ m).utf8Encode := fun l m => ⟨m.utf8Encode, List.utf8Encode_append.symm⟩
  refine ⟨(lastFile.take (lastFile.length - 2)).utf8Encode, (lastFile.take (lastFile.length - 1)).utf8Encode, lastFile.utf8Encode, ?_, ?_, ?_, ?_, ?_, ?_⟩
  · have := hd (lastFile.take (lastFile.length - 2)) ['>']
    have e : lastFile.take (lastFile.length - 2) ++ ['>'] = lastFile.take (lastFile.length - 1) := by decide +kernel
    rwa [e] at this
  · have := hd (lastFile.take (lastFile.length - 1)) ['\n']
    have e : lastFile.take (lastFile.length - 1) ++ ['\n'] = lastFile := by decide +kernel
    rwa [e] at this
  · rw [parse_encoded _ (by decide +kernel)]
    have : (parseFile .ascii (lastFile.take (lastFile.length - 2))).isNone = true := by decide +kernel
    simpa using this
  · rw [parse_encoded _ (by decide +kernel)]
    decide +kernel
  · rw [parse_encoded _ (by decide +kernel)]
    decide +kernel
  · intro h
    have := congrArg ByteArray.utf8Decode? h
    rw [List.utf8Decode?_utf8Encode, List.utf8Decode?_utf8Encode, Option.some.injEq] at this
    exact absurd (congrArg Array.toList this) (by decide +kernel)

/-- the hypotheses of the other theorems hold for a new document and a disk with a file that can be loaded; and there is a document that can not be
saved (its schema location has a character XML does not allow) -/
example : Splits (fun b => [b]) ∧
    (saveCalls Py.demo (fun _ => []) .ascii true false (fun b => [b]) "f".toList (newDoc Py.demo)).err = none ∧
    (∃ d, loadFrom Py.demo .ascii true (fun _ => some lastFile.utf8Encode) "f".toList = some (.ok d)) ∧
    ∃ e, (saveCalls Py.demo (fun _ => []) .ascii true false (fun b => [b]) "f".toList
      (withText (newDoc Py.demo) k!"schema_location" [Char.ofNat 1])).err = some e := by
  refine ⟨fun b => ByteArray.empty_append, ?_, ?_, ?_⟩
  · have h : (match save Py.demo (fun _ => []) true (newDoc Py.demo) with
      | .error _ => false
      | .ok x => (saveToFile Py.demo .ascii false x).isSome) = true := by decide +kernel
    unfold saveCalls
    split at h
    · cases h
    · rename_i x hx
      obtain ⟨s, hs⟩ := Option.isSome_iff_exists.1 h
      simp only [hx, hs]
  · have h : (match parseFile .ascii lastFile with
      | none => false
      | some x => match load Py.demo true x with
        | .error _ => false
        | .ok _ => true) = true := by decide +kernel
    split at h
    · cases h
    · rename_i x hx
      split at h
      · cases h
      · rename_i d hd
        refine ⟨d, ?_⟩
        unfold loadFrom
        rw [Option.bind_some, parse_encoded _ (by decide +kernel), hx]
        simp only [Option.map_some, hd]
  · have h : (match save Py.demo (fun _ => []) true (withText (newDoc Py.demo) k!"schema_location" [Char.ofNat 1]) with
      | .error _ => false
      | .ok x => (saveToFile Py.demo .ascii false x).isNone) = true := by decide +kernel
    unfold saveCalls
    split at h
    · cases h
    · rename_i x hx
      rw [Option.isNone_iff_eq_none] at h
      exact ⟨.valueError, by simp only [hx, h]⟩

end Verif.Props
