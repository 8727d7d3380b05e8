import Verif.Lemmas.NamespaceUsual
import Verif.Lemmas.Parsed
import Verif.Props.Grammar
/-!
# C80, C81: namespaces
-/
namespace Verif.Props
open Verif Verif.Model Verif.Spec Verif.Lemmas

theorem parsed_tidy {nc : NameChars} {s : Str} {e : El} (h : parseXml nc s = some e) : Tidy nc e := by
  obtain ⟨t, _, h⟩ := (C79_grammar nc s e).1 h
  obtain ⟨_, _, _, _, _, _, _, _, h, _⟩ := h
  exact element_tidy h

/-! ### C80 -/

/-- **C80** What the names of a file stand for: a file is read if and only if it is well-formed and its prefixes are declared, and then the reader
gets the names its prefixes stand for. -/
theorem C80_names (nc : NameChars) (s : Str) (x : NsEl) : (parseXml nc s).bind (resolveEl nc scope₀) = some x ↔ ∃ t e, Lines s t ∧ WellFormed nc t e ∧ ElMeans nc [] e x := by
  constructor
  · intro h
    obtain ⟨e, h1, h2⟩ := Option.bind_eq_some_iff.1 h
    obtain ⟨t, h3, h4⟩ := (C79_grammar nc s e).1 h1
    exact ⟨t, e, h3, h4, (resolve_iff e scope₀ [] x (parsed_tidy h1) right_zero).1 h2⟩
  · rintro ⟨t, e, h3, h4, h5⟩
    have h1 := (C79_grammar nc s e).2 ⟨t, h3, h4⟩
    rw [h1, Option.bind_some]
    exact (resolve_iff e scope₀ [] x (parsed_tidy h1) right_zero).2 h5

/-- **C80** Only what the names stand for matters: of two files whose elements stand for the same, the reader gets the same. -/
theorem C80_same (py : Py) (strict : Bool) (nc : NameChars) (s s' : Str) (e e' : El) (h : parseXml nc s = some e) (h' : parseXml nc s' = some e') (x : NsEl)
    (hx : ElMeans nc [] e x) (hx' : ElMeans nc [] e' x) :
    parseTree py nc s = parseTree py nc s' ∧ (parseTree py nc s).map (load py strict) = (parseTree py nc s').map (load py strict) := by
  have : parseTree py nc s = parseTree py nc s' := by
    unfold parseTree
    rw [h, h', Option.bind_some, Option.bind_some, (resolve_iff e scope₀ [] x (parsed_tidy h) right_zero).2 hx,
      (resolve_iff e' scope₀ [] x (parsed_tidy h') right_zero).2 hx']
  exact ⟨this, by rw [this]⟩

/-- **C80** With the usual declarations the tree is that of `Model/Markup`, where names are taken as they are. -/
theorem C80_usual (py : Py) (nc : NameChars) (s : Str) (e : El) (h : parseXml nc s = some e) (hu : UsualRoot e) : parseTree py nc s = parseFile nc s := by
  obtain ⟨x, h1, h2, _⟩ := usual_root (py := py) (.inl rfl) (parsed_tidy h) hu
  rw [prefixRoot_nil] at h1
  unfold parseTree parseFile
  rw [h, Option.bind_some, h1, Option.map_some, Option.map_some, h2]

/-- **C80** The same file with any prefix for the AUTOSAR namespace instead of none is read as the same tree. -/
theorem C80_prefix (py : Py) (nc : NameChars) (p : Str) (hp : FreePrefix nc p) (s s' : Str) (e : El) (h : parseXml nc s = some e) (hu : UsualRoot e)
    (h' : parseXml nc s' = some (prefixRoot p e)) : parseTree py nc s' = parseTree py nc s := by
  rw [C80_usual py nc s e h hu]
  obtain ⟨x, h1, h2, _⟩ := usual_root (py := py) (.inr hp) (parsed_tidy h) hu
  unfold parseTree parseFile
  rw [h, h', Option.bind_some, h1, Option.map_some, Option.map_some, h2]

theorem wrap_always {py : Py} {repr : py.F → Str} {strict : Bool} {wr : Key → MObj py.F → Except PyErr Out} {o : MObj py.F} {t : Key} {b : WB} {out : Out}
    (h : writeB py repr strict wr o (.wrap .always t b .nil) = .ok out) : ∃ b', out.kids = [Out.node t b'] := by
  simp only [writeB, Cond.holds, if_true] at h
  cases hb : writeB py repr strict wr o b with
  | error e => rw [hb] at h; cases h
  | ok b' => rw [hb] at h; cases h; exact ⟨b', rfl⟩

theorem save_tag {py : Py} {repr : py.F → Str} {strict : Bool} {d : MObj py.F} {y : Xml} (h : save py repr strict d = .ok y) : y.tag = k!"AUTOSAR" := by
  unfold save at h
  have hd : ∃ n, (withSchema py d).depth = n + 1 := by cases withSchema py d <;> exact ⟨_, rfl⟩
  obtain ⟨n, hn⟩ := hd
  have hw : writers k!"save" = some saveBody := by unfold writers; exact if_pos rfl
  rw [hn, writeObj, hw] at h
  split at h
  · cases h
  · next out ho =>
    obtain ⟨b', hb⟩ := wrap_always ho
    rw [hb] at h
    cases h
    rfl

/-- **C80** Every saved file has the usual declarations, so what is read from it is what `C30`–`C33` say. -/
theorem C80_saved (py : Py) (repr : py.F → Str) (strict unescape : Bool) (nc : NameChars) (d : MObj py.F) (y : Xml) (h : save py repr strict d = .ok y)
    (hg : Every GoodChars y) (hq : unescape = true → Every Unquoted y) : ∃ f, saveToFile py nc unescape y = some f ∧ parseTree py nc f = some (laid 0 y) := by
  have hw : Writable nc y := ⟨save_names nc h, hg⟩
  have h1 := file_el (py := py) unescape hw hq
  have h2 := file_read (py := py) unescape hw hq
  cases hf : saveToFile py nc unescape y with
  | none => rw [hf] at h1; cases h1
  | some f =>
    rw [hf, Option.bind_some] at h1 h2
    exact ⟨f, rfl, by rw [C80_usual py nc f _ h1 (saved_usual (save_named nc h) (save_tag h)), h2]⟩

/-- **C80** The text `saveToFile` gives to `minidom.parseString` has no names whose prefix is not declared. -/
theorem C80_dom (py : Py) (repr : py.F → Str) (strict : Bool) (nc : NameChars) (d : MObj py.F) (y : Xml) (h : save py repr strict d = .ok y)
    (hg : Every GoodChars y) : ∃ e x, parseXml nc (etHead ++ etWrite y.toEl.withNamespaces) = some e ∧ ElMeans nc [] e x ∧ x.uri = arUri := by
  have hw : Writable nc y := ⟨save_names nc h, hg⟩
  have h1 := dom_read hw
  have hu : UsualRoot (El.map newlines id y.toEl.withNamespaces) := usualRoot_map rfl rfl (namespaced_root (save_named nc h) (save_tag h))
  obtain ⟨x, h2, _, h4⟩ := usual_root (py := py) (.inl rfl) (parsed_tidy h1) hu
  rw [prefixRoot_nil] at h2
  exact ⟨_, x, h1, (resolve_iff _ scope₀ [] x (parsed_tidy h1) right_zero).1 h2, h4⟩

/-- a file with a package -/
def usualText : Str := t!"<AUTOSAR xmlns=\"http://autosar.org/schema/r4.0\" xmlns:xsi=\"http://www.w3.org/2001/XMLSchema-instance\" xsi:schemaLocation=\"a b\"><AR-PACKAGES><AR-PACKAGE><SHORT-NAME>P</SHORT-NAME></AR-PACKAGE></AR-PACKAGES></AUTOSAR>"

/-- the same with a prefix -/
def prefixedText : Str := t!"<a:AUTOSAR xmlns:a=\"http://autosar.org/schema/r4.0\" xmlns:xsi=\"http://www.w3.org/2001/XMLSchema-instance\" xsi:schemaLocation=\"a b\"><a:AR-PACKAGES><a:AR-PACKAGE><a:SHORT-NAME>P</a:SHORT-NAME></a:AR-PACKAGE></a:AR-PACKAGES></a:AUTOSAR>"

def usualEl : El := .mk "AUTOSAR".toList [("xmlns".toList, "http://autosar.org/schema/r4.0".toList), ("xmlns:xsi".toList, "http://www.w3.org/2001/XMLSchema-instance".toList),
  ("xsi:schemaLocation".toList, "a b".toList)] [] [.mk "AR-PACKAGES".toList [] [] [.mk "AR-PACKAGE".toList [] [] [.mk "SHORT-NAME".toList [] "P".toList [] []] []] []] []

theorem usualEl_usual : UsualRoot usualEl := by
  refine .mk (by simp) (by simp) ?_ ?_
  · intro a ha
    simp only [List.mem_cons, List.not_mem_nil, or_false] at ha
    rcases ha with rfl | rfl | rfl
    · exact .inl rfl
    · exact .inr (.inl rfl)
    · exact .inr (.inr (.inr (.inr rfl)))
  · intro k hk
    obtain rfl := List.mem_singleton.1 hk
    refine .mk (by decide) (by simp) ?_
    intro k hk
    obtain rfl := List.mem_singleton.1 hk
    refine .mk (by decide) (by simp) ?_
    intro k hk
    obtain rfl := List.mem_singleton.1 hk
    exact .mk (by decide) (by simp) (by simp)

theorem parse_usual : parseXml .ascii usualText = some usualEl := by rfl

set_option maxRecDepth 10000 in
theorem parse_prefixed : parseXml .ascii prefixedText = some (prefixRoot "a".toList usualEl) := by rfl

theorem free_a : FreePrefix .ascii "a".toList := ⟨⟨'a', [], rfl, rfl, by simp⟩, by decide, by decide⟩

/-- the two files are read as the same tree, with a package in it -/
example : parseTree Py.demo .ascii prefixedText = parseTree Py.demo .ascii usualText ∧ parseTree Py.demo .ascii usualText = some usualEl.toXml := by
  refine ⟨C80_prefix Py.demo .ascii _ free_a usualText prefixedText usualEl parse_usual usualEl_usual parse_prefixed, ?_⟩
  rw [C80_usual Py.demo .ascii usualText usualEl parse_usual usualEl_usual, parseFile, parse_usual]
  rfl

/-! ### C81 -/

theorem name_nul {nc : NameChars} {n : Str} (h : XmlName nc n) : Char.ofNat 0 ∉ n := by
  intro hm
  have := name_notMem h _ hm
  rw [nc.char_ascii _ (by decide)] at this
  revert this; decide

theorem name_brace {nc : NameChars} {n : Str} (h : XmlName nc n) : '{' ∉ n ∧ n ≠ [] := by
  refine ⟨?_, ?_⟩
  · intro hm
    have := name_notMem h _ hm
    rw [nc.char_ascii _ (by decide)] at this
    revert this; decide
  · obtain ⟨c, r, rfl, _⟩ := h; simp

theorem qname_local {nc : NameChars} {n p l : Str} (h : QName nc n p l) : XmlName nc l := by
  cases h with
  | plain h _ => exact h
  | prefixed _ _ h _ => exact h

theorem ok_nul {s : Str} (h : Ok s) : Char.ofNat 0 ∉ s := fun hm => absurd (h _ hm) (by decide)

/-- the URI of a prefix comes from an attribute -/
theorem stands_nul {ctx : List (List (Str × Str))} {p u : Str} (h : Stands ctx p u) (hc : ∀ as ∈ ctx, ∀ a ∈ as, Ok a.2) : Char.ofNat 0 ∉ u := by
  induction h with
  | here h => exact ok_nul (hc _ (by simp) _ h)
  | outer _ _ ih => exact ih fun as ha => hc as (by simp [ha])
  | xml => decide
  | default => simp

/-- a declared URI does not have a brace -/
theorem stands_brace {ctx : List (List (Str × Str))} {p u : Str} (h : Stands ctx p u)
    (hc : ∀ as ∈ ctx, ∀ q v, (declOf q, v) ∈ as → MayDeclare q v) : '}' ∉ u := by
  induction h with
  | here h => exact (hc _ (by simp) _ _ h).2.2.2.2
  | outer _ _ ih => exact ih fun as ha => hc as (by simp [ha])
  | xml => decide
  | default => simp

/-- what is taken for the root of an AUTOSAR file -/
def AutosarRoot (py : Py) (x : NsEl) : Prop :=
  x.loc = "AUTOSAR".toList ∧ ∀ c ∈ x.uri, py.word c = true ∨ c = ':' ∨ c = '/' ∨ c = '.'

theorem autosarRoot_iff {py : Py} {nc : NameChars} {s : Str} {x : NsEl} (hx : (parseXml nc s).bind (resolveEl nc scope₀) = some x) :
    (x.rootXml py).tag = k!"AUTOSAR" ↔ AutosarRoot py x := by
  obtain ⟨e, h1, h2⟩ := Option.bind_eq_some_iff.1 hx
  have hok := parseXml_ok h1
  have hm := (resolve_iff e scope₀ [] x (parsed_tidy h1) right_zero).1 h2
  cases hm with
  | @mk _ n p l u s tail as bs kids ks q1 q2 q3 q4 q5 =>
    cases hok with
    | mk _ _ _ _ _ o1 o2 o3 o4 =>
    have hl := qname_local q1
    have hb : '}' ∉ u := stands_brace q2 (by simpa using attrsMean_decl q3)
    have hn : Char.ofNat 0 ∉ u := stands_nul q2 (fun b hb => by obtain rfl := List.mem_singleton.1 hb; exact o1)
    have key := root_iff py hb (name_brace hl).1 (name_brace hl).2
    have hr : AutosarRoot py (.mk u l bs s ks) ↔ l = "AUTOSAR".toList ∧ ∀ c ∈ u, nsChar py c = true := by
      unfold AutosarRoot
      simp only [NsEl.loc, NsEl.uri, nsChar, Bool.or_eq_true, beq_iff_eq, or_assoc]
    rw [hr, ← key, NsEl.rootXml, Xml.tag]
    constructor
    · intro h
      by_contra hne
      rw [if_neg hne] at h
      have h2 : keyOf ('{' :: '}' :: etTag u l) = keyOf "AUTOSAR".toList := h
      have hnul : Char.ofNat 0 ∉ '{' :: '}' :: etTag u l := by
        unfold etTag
        split
        · simp only [List.mem_cons, not_or]; exact ⟨by decide, by decide, name_nul hl⟩
        · simp only [List.mem_cons, List.mem_append, not_or, List.cons_append]; exact ⟨by decide, by decide, by decide, hn, by decide, name_nul hl⟩
      have := keyOf_inj hnul (by decide) h2
      injection this with h3 _
      revert h3; decide
    · intro h; rw [if_pos h]

/-- **C81** In strict mode a file is rejected if the name of its root is not `AUTOSAR`; the namespace of the root is not compared with that of
AUTOSAR 4: every namespace made of letters, digits, underscores, colons, slashes and dots will do, and none. -/
theorem C81_root (py : Py) (nc : NameChars) (s : Str) (x : NsEl) (hx : (parseXml nc s).bind (resolveEl nc scope₀) = some x) :
    ∃ t, parseTree py nc s = some t ∧ (t.tag = k!"AUTOSAR" ↔ AutosarRoot py x) ∧ (¬ AutosarRoot py x → load py true t = .error (.py .valueError)) := by
  refine ⟨x.rootXml py, by unfold parseTree; rw [hx]; rfl, autosarRoot_iff hx, ?_⟩
  intro h
  unfold load
  rw [if_pos ⟨fun ht => h ((autosarRoot_iff hx).1 ht), rfl⟩]

/-- the reader of the root looks at two kinds of children -/
theorem load_bare {py : Py} {strict : Bool} {x : Xml} (ht : strict = true → x.tag = k!"AUTOSAR") (hk : ∀ k ∈ x.kids, k.tag ≠ k!"ADMIN-DATA" ∧ k.tag ≠ k!"AR-PACKAGES") :
    ∃ d, load py strict x = .ok d ∧ d.get k!"adminData" = [] ∧ d.get k!"arPackages" = [] := by
  have f1 : x.kids.filter (tagIs k!"ADMIN-DATA") = [] := by
    rw [List.filter_eq_nil_iff]
    intro k hm
    rw [tagIs, Bool.or_eq_true, beq_iff_eq, beq_iff_eq, not_or]
    exact ⟨by decide, (hk k hm).1⟩
  have f2 : x.kids.filter (tagIs k!"AR-PACKAGES") = [] := by
    rw [List.filter_eq_nil_iff]
    intro k hm
    rw [tagIs, Bool.or_eq_true, beq_iff_eq, beq_iff_eq, not_or]
    exact ⟨by decide, (hk k hm).2⟩
  have hd : ∃ n, x.depth = n + 1 := by cases x; exact ⟨_, rfl⟩
  obtain ⟨n, hn⟩ := hd
  have hr : readers k!"load" = some loadBody := by unfold readers; exact if_pos rfl
  unfold load
  rw [if_neg (by rintro ⟨h1, h2⟩; exact h1 (ht h2)), hn, readObj, hr]
  generalize readObj py strict readers n = rd
  have s1 : ∃ v, readSlot py strict rd x { field := k!"schema_location", path := .nil, item := .attr k!"xsi:schemaLocation" .raw } = .ok v := by
    unfold readSlot
    simp only [select, mapE, readItem]
    cases x.attr k!"xsi:schemaLocation" <;> exact ⟨_, rfl⟩
  obtain ⟨v, s1⟩ := s1
  have s2 : ∀ s ∈ loadBody.slots.drop 1, readSlot py strict rd x s = .ok [] := by
    intro s hs
    have hs' : s ∈ [({ field := k!"adminData", path := .first [k!"ADMIN-DATA"] .nil, item := .objs [(k!"ADMIN-DATA", k!"getAdminData_AdminData")] } : RSlot),
        { field := k!"arPackages", path := (.all k!"AR-PACKAGES" (.all k!"AR-PACKAGE" .nil)), item := (.objs [(k!"AR-PACKAGE", k!"readARPackages_ARPackage")]), named := true },
        { field := 0, path := (.all k!"AR-PACKAGES" (.all 0 .nil)), item := (.guard [k!"AR-PACKAGE"] .unsupported) }] := hs
    have hsel : select s.path x = [] := by
      simp only [List.mem_cons, List.not_mem_nil, or_false] at hs'
      rcases hs' with rfl | rfl | rfl
      · simp only [select, walk, f1, List.flatMap_nil]
      · simp only [select, f2, List.flatMap_nil]
      · simp only [select, f2, List.flatMap_nil]
    have hreq : s.req = .no ∧ s.last = false := by
      simp only [List.mem_cons, List.not_mem_nil, or_false] at hs'
      rcases hs' with rfl | rfl | rfl <;> exact ⟨rfl, rfl⟩
    unfold readSlot
    rw [hsel, hreq.1, hreq.2]
    rfl
  have s3 : mapE (readSlot py strict rd x) loadBody.slots = .ok [v, [], [], []] := by
    have e : loadBody.slots = { field := k!"schema_location", path := .nil, item := .attr k!"xsi:schemaLocation" .raw } :: loadBody.slots.drop 1 := rfl
    have h4 : ∀ l : List RSlot, (∀ s ∈ l, readSlot py strict rd x s = .ok []) → mapE (readSlot py strict rd x) l = .ok (List.replicate l.length []) := by
      intro l hl
      induction l with
      | nil => rfl
      | cons a l ih => rw [mapE, hl a (by simp), ih fun s hs => hl s (by simp [hs])]; rfl
    rw [e, mapE, s1, h4 _ s2]
    rfl
  show ∃ d, readBody py strict rd loadBody x = .ok d ∧ d.get k!"adminData" = [] ∧ d.get k!"arPackages" = []
  unfold readBody
  rw [s3]
  refine ⟨_, if_pos ?_, rfl, rfl⟩
  rfl

theorem toXmls_mem {l : List NsEl} {y : Xml} (h : y ∈ NsEl.toXmls l) : ∃ k ∈ l, y = k.toXml := by
  induction l with
  | nil => cases h
  | cons e l ih =>
    rw [NsEl.toXmls] at h
    rcases List.mem_cons.1 h with rfl | h
    · exact ⟨e, by simp, rfl⟩
    · obtain ⟨k, hk, rfl⟩ := ih h
      exact ⟨k, by simp [hk], rfl⟩

theorem meansAll_mem {nc : NameChars} {ctx : List (List (Str × Str))} {l : List El} {xs : List NsEl} (h : ElsMean nc ctx l xs) : ∀ x ∈ xs, ∃ e ∈ l, ElMeans nc ctx e x := by
  induction l generalizing xs with
  | nil => cases h; simp
  | cons e l ih =>
    cases h with
    | cons h1 h2 =>
      intro x hx
      rcases List.mem_cons.1 hx with rfl | hx
      · exact ⟨e, by simp, h1⟩
      · obtain ⟨k, hk, h3⟩ := ih h2 x hx
        exact ⟨k, by simp [hk], h3⟩

/-- the key of an element of another namespace is not that of a name without braces -/
theorem tagKey_foreign {u l n : Str} (hu : u ≠ arUri) (h1 : Char.ofNat 0 ∉ u) (h2 : Char.ofNat 0 ∉ l) (hn : Char.ofNat 0 ∉ n) (hb : ∀ r, n ≠ '{' :: r) :
    tagKey u l ≠ keyOf n := by
  unfold tagKey
  rw [if_neg hu]
  split
  · intro h
    refine hb _ (keyOf_inj ?_ hn h).symm
    simp only [List.mem_cons, not_or]; exact ⟨by decide, by decide, h2⟩
  · next h0 =>
    intro h
    unfold etTag at h
    rw [if_neg h0, List.cons_append] at h
    refine hb _ (keyOf_inj ?_ hn h).symm
    simp only [List.mem_cons, List.mem_append, not_or]; exact ⟨by decide, h1, by decide, h2⟩

/-- **C81** (violated) A file whose root has no children in the namespace of AUTOSAR 4 – an AUTOSAR 3 file, or one that does not declare a namespace –
is not rejected, in strict mode either if its root is called `AUTOSAR`: it loads as a document without packages. -/
theorem C81_foreign (py : Py) (strict : Bool) (nc : NameChars) (s : Str) (x : NsEl) (hx : (parseXml nc s).bind (resolveEl nc scope₀) = some x)
    (hr : strict = true → AutosarRoot py x) (hk : ∀ k ∈ x.kids, k.uri ≠ "http://autosar.org/schema/r4.0".toList) :
    ∃ t d, parseTree py nc s = some t ∧ load py strict t = .ok d ∧ d.get k!"adminData" = [] ∧ d.get k!"arPackages" = [] := by
  have hroot := autosarRoot_iff (py := py) hx
  obtain ⟨e, h1, h2⟩ := Option.bind_eq_some_iff.1 hx
  have hok := parseXml_ok h1
  have hm := (resolve_iff e scope₀ [] x (parsed_tidy h1) right_zero).1 h2
  refine ⟨x.rootXml py, ?_⟩
  have ht : parseTree py nc s = some (x.rootXml py) := by unfold parseTree; rw [hx]; rfl
  suffices h : ∀ k ∈ (x.rootXml py).kids, k.tag ≠ k!"ADMIN-DATA" ∧ k.tag ≠ k!"AR-PACKAGES" by
    obtain ⟨d, hd⟩ := load_bare (py := py) (strict := strict) (fun hs => hroot.2 (hr hs)) h
    exact ⟨d, ht, hd⟩
  cases hm with
  | @mk _ n p l u s tail as bs kids ks q1 q2 q3 q4 q5 =>
    cases hok with
    | mk _ _ _ _ _ o1 o2 o3 o4 =>
    intro y hy
    obtain ⟨k, hk1, rfl⟩ := toXmls_mem hy
    obtain ⟨ek, he, hmk⟩ := meansAll_mem q5 k hk1
    have hku := hk k hk1
    have hoe := o3 ek he
    cases hmk with
    | @mk _ n' p' l' u' s' tail' as' bs' kids' ks' w1 w2 w3 w4 w5 =>
      cases hoe with
      | mk _ _ _ _ _ v1 v2 v3 v4 =>
      have hnul : Char.ofNat 0 ∉ u' := stands_nul w2 (by
        intro bs hbs
        simp only [List.mem_cons, List.not_mem_nil, or_false] at hbs
        rcases hbs with rfl | rfl
        · exact v1
        · exact o1)
      have hl := name_nul (qname_local w1)
      rw [NsEl.toXml, Xml.tag]
      refine ⟨fun h => ?_, fun h => ?_⟩
      · exact tagKey_foreign (n := "ADMIN-DATA".toList) hku hnul hl (by decide) (fun r h => by injection h with h _; revert h; decide) h
      · exact tagKey_foreign (n := "AR-PACKAGES".toList) hku hnul hl (by decide) (fun r h => by injection h with h _; revert h; decide) h

/-- a file of AUTOSAR 3 with a package -/
def oldText : Str := t!"<AUTOSAR xmlns=\"http://autosar.org/3.1.2\"><TOP-LEVEL-PACKAGES/><AR-PACKAGES><AR-PACKAGE><SHORT-NAME>P</SHORT-NAME></AR-PACKAGE></AR-PACKAGES></AUTOSAR>"

def oldTree : NsEl :=
  let u := "http://autosar.org/3.1.2".toList
  .mk u "AUTOSAR".toList [] [] [.mk u "TOP-LEVEL-PACKAGES".toList [] [] [],
    .mk u "AR-PACKAGES".toList [] [] [.mk u "AR-PACKAGE".toList [] [] [.mk u "SHORT-NAME".toList [] "P".toList []]]]

set_option maxRecDepth 10000 in
theorem parse_old : (parseXml .ascii oldText).bind (resolveEl .ascii scope₀) = some oldTree := by rfl

/-- **C81** (violated) The AUTOSAR 3 file with a package loads without a package, in strict mode. -/
theorem C81_broken : ∃ s x t d, (parseXml .ascii s).bind (resolveEl .ascii scope₀) = some x ∧ x.kids ≠ [] ∧ parseTree Py.demo .ascii s = some t ∧
    load Py.demo true t = .ok d ∧ d.get k!"arPackages" = [] := by
  have hr : AutosarRoot Py.demo oldTree := ⟨rfl, by decide +kernel⟩
  obtain ⟨t, d, h1, h2, _, h3⟩ := C81_foreign Py.demo true .ascii oldText oldTree parse_old (fun _ => hr) (by
    intro k hk
    simp only [oldTree, NsEl.kids, List.mem_cons, List.not_mem_nil, or_false] at hk
    rcases hk with rfl | rfl <;> (simp only [NsEl.uri]; decide))
  exact ⟨oldText, oldTree, t, d, parse_old, by simp [oldTree, NsEl.kids], h1, h2, h3⟩

/-- a file with another root is rejected in strict mode -/
example : ∃ t, parseTree Py.demo .ascii "<MSRSW/>".toList = some t ∧ load Py.demo true t = .error (.py .valueError) := by
  obtain ⟨t, h1, _, h2⟩ := C81_root Py.demo .ascii "<MSRSW/>".toList (.mk [] "MSRSW".toList [] [] []) rfl
  exact ⟨t, h1, h2 fun h => absurd h.1 (by simp only [NsEl.loc]; decide)⟩

end Verif.Props
