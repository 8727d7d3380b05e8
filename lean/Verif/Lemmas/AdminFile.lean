import Verif.Lemmas.AdminSave
/-!
# Saving a document without admin data: packages and the document
-/
namespace Verif.Lemmas
open Verif Verif.Model Verif.Gen Verif.Spec

/-! ## the children of a package -/

theorem cleanPkgs_map (l : List Xml) : cleanPkgs l = l.map cleanPkg := by
  induction l with
  | nil => simp [cleanPkgs]
  | cons x l ih => simp [cleanPkgs, ih]

/-- one child of a package -/
def cleanPart : Xml → List Xml
  | .node t as s kids =>
    if t = k!"ADMIN-DATA" then []
    else if t = k!"ELEMENTS" then [.node t as s (kids.map dropAdmin)]
    else if t = k!"AR-PACKAGES" then [.node t as s (kids.map cleanPkg)]
    else [.node t as s kids]

theorem cleanParts_flat (l : List Xml) : cleanParts l = l.flatMap cleanPart := by
  induction l with
  | nil => simp [cleanParts]
  | cons x l ih =>
    obtain ⟨t, as, s, kids⟩ := x
    rw [List.flatMap_cons, cleanParts, ih, cleanPart, cleanPkgs_map]
    repeat' split
    all_goals rfl

theorem cleanPkg_node (t : Key) (as : List (Key × Str)) (s : Str) (kids : List Xml) :
    cleanPkg (.node t as s kids) = .node t as s (kids.flatMap cleanPart) := by
  rw [cleanPkg, cleanParts_flat]

theorem cleanPart_other {x : Xml} (h : x.tag ∉ pkgTags) : cleanPart x = [x] := by
  obtain ⟨t, as, s, kids⟩ := x
  simp only [pkgTags, Xml.tag, List.mem_cons, List.not_mem_nil, or_false, not_or] at h
  simp only [cleanPart]
  rw [if_neg h.1, if_neg h.2.1, if_neg h.2.2]

/-- the children cleaned -/
def parts (out : Out) : Out := { out with kids := out.kids.flatMap cleanPart }

theorem parts_app (a b : Out) : parts (a.app b) = (parts a).app (parts b) := by
  simp only [parts, Out.app, List.flatMap_append]
  rfl

theorem parts_node (t : Key) (out : Out) : (parts out).node t = cleanPkg (out.node t) := by
  show Xml.node _ _ _ _ = cleanPkg (Xml.node _ _ _ _)
  rw [cleanPkg_node]
  rfl

theorem parts_keep {out : Out} (h : ∀ y ∈ out.kids, y.tag ∈ pkgTags → y.tag = k!"ADMIN-DATA") : parts out = keep out := by
  have : ∀ l : List Xml, (∀ y ∈ l, y.tag ∈ pkgTags → y.tag = k!"ADMIN-DATA") → l.flatMap cleanPart = l.filter fun y => y.tag != k!"ADMIN-DATA" := by
    intro l hl
    induction l with
    | nil => rfl
    | cons x l ih =>
      rw [List.flatMap_cons, ih fun y hy => hl y (by simp [hy]), List.filter_cons]
      by_cases hx : x.tag = k!"ADMIN-DATA"
      · have : cleanPart x = [] := by
          obtain ⟨t, as, s, kids⟩ := x
          exact if_pos hx
        rw [this]; simp [hx]
      · rw [cleanPart_other fun hm => hx (hl x (by simp) hm)]
        simp [hx]
  unfold parts keep
  rw [this _ h]

/-! ## attributes of a cleaned package -/

variable {F : Type}

theorem flatMap_get {fs : List ((Key × Bool) × List (MObj F))} {g : (Key × Bool) × List (MObj F) → (Key × Bool) × List (MObj F)}
    {h : MObj F → MObj F} {f : Key} (h1 : ∀ e ∈ fs, (g e).1 = e.1) (h2 : ∀ e ∈ fs, hits f e.1 = true → (g e).2 = e.2.map h) :
    ((fs.map g).flatMap fun e => if hits f e.1 then e.2 else []) = (fs.flatMap fun e => if hits f e.1 then e.2 else []).map h := by
  induction fs with
  | nil => rfl
  | cons e fs ih =>
    rw [List.map_cons, List.flatMap_cons, List.flatMap_cons, List.map_append, ih (fun e he => h1 e (by simp [he])) fun e he => h2 e (by simp [he]),
      h1 e (by simp)]
    by_cases hh : hits f e.1 = true
    · rw [if_pos hh, if_pos hh, h2 e (by simp) hh]
    · rw [if_neg hh, if_neg hh]; rfl

theorem hits_other {f : Key} (hf : f ≠ k!"elements") (k : Key × Bool) : hits f k = (k.1 == f) := by
  simp [hits, hf]

theorem processPkg_other {p : MObj F} (hp : ∀ f ∈ p.fields, f.1.2 = true → f.1.1 = k!"elements") {f : Key} (hf : f ∉ pkgAttrs) :
    (processPkg p).get f = p.get f := by
  simp only [pkgAttrs, List.mem_cons, List.not_mem_nil, or_false, not_or] at hf
  simp only [MObj.get, processPkg_fields]
  rw [flatMap_get (g := onField) (h := id) (fun _ _ => rfl), List.map_id]
  intro e he hh
  rw [hits_other hf.2.1, beq_iff_eq] at hh
  have hm : ¬ isMember e.1 = true := by
    intro hm
    simp only [isMember, Bool.or_eq_true, beq_iff_eq] at hm
    rcases hm with hm | hm
    · exact hf.2.1 (hh.symm.trans (hp e he hm))
    · exact hf.2.1 (hh.symm.trans hm)
  simp only [onField, hh, if_neg hf.1, if_neg hf.2.2, if_neg hm, List.map_id]

theorem processPkg_elems {p : MObj F} (hp : ∀ f ∈ p.fields, f.1.2 = true → f.1.1 = k!"elements") :
    (processPkg p).get k!"elements" = (p.get k!"elements").map processElement := by
  simp only [MObj.get, processPkg_fields]
  refine flatMap_get (fun _ _ => rfl) ?_
  intro e he hh
  rw [hits_elements] at hh
  have : e.1.1 = k!"elements" := by
    have hm := hh
    simp only [isMember, Bool.or_eq_true, beq_iff_eq] at hm
    rcases hm with hm | hm
    · exact hp e he hm
    · exact hm
  simp only [onField]
  rw [if_neg (by rw [this]; decide), if_neg (by rw [this]; decide), if_pos hh]

theorem processPkg_name {p : MObj F} (hp : ∀ f ∈ p.fields, f.1.2 = true → f.1.1 = k!"elements") : (processPkg p).name = p.name := by
  unfold MObj.name
  rw [processPkg_other hp (by decide)]

/-- a package and the packages in it are regular -/
def RegularP (p : MObj F) : Prop := ∀ path q, pkgAt p path = some q →
  (∀ f ∈ q.fields, f.1.2 = true → f.1.1 = k!"elements") ∧ ∀ e ∈ q.get k!"elements", ∀ f ∈ e.fields, f.1 ≠ (k!"adminData", true)

theorem RegularP.sub {p q : MObj F} (h : RegularP p) (hq : q ∈ p.get k!"arPackages") : RegularP q := by
  obtain ⟨i, hi⟩ := List.mem_iff_getElem?.1 hq
  intro path r hr
  refine h (i :: path) r ?_
  simp only [pkgAt, hi]
  exact hr

theorem regular_pkg {d q : MObj F} (h : Regular d) (hq : q ∈ d.get k!"arPackages") : RegularP q := by
  obtain ⟨i, hi⟩ := List.mem_iff_getElem?.1 hq
  intro path r hr
  refine h i path r ?_
  simp only [pkgAt, hi]
  exact hr

/-! ## writing -/

theorem mapE_image {α β ε : Type} {f : α → Except ε β} {l : List α} {r : List β} {g : α → α} {g' : β → β}
    (h : mapE f l = .ok r) (hg : ∀ a ∈ l, ∀ b, f a = .ok b → f (g a) = .ok (g' b)) : mapE f (l.map g) = .ok (r.map g') := by
  have := mapE_ok h
  clear h
  induction this with
  | nil => rfl
  | @cons a b l r h1 h2 ih =>
    have e := ih fun a ha => hg a (by simp [ha])
    simp only [List.map_cons, mapE, hg a (by simp) b h1, e]

theorem byName_process {l : List (MObj F)} (h : ∀ p ∈ l, (processPkg p).name = p.name) : byName (l.map processPkg) = (byName l).map processPkg := by
  unfold byName
  rw [sortBy_map, sortBy_congr]
  intro p hp
  rw [h p hp]

section
variable {py : Py} {repr : py.F → Str} {strict : Bool} {wr : Key → MObj py.F → Except PyErr Out}

theorem app_assoc (a b c : Out) : (a.app b).app c = a.app (b.app c) := by
  simp only [Out.app, List.append_assoc]
  by_cases hc : c.text = [] <;> by_cases hb : b.text = [] <;> simp [hb, hc]

theorem seqE_assoc (a b c : Except PyErr Out) : seqE (seqE a b) c = seqE a (seqE b c) := by
  cases a <;> cases b <;> cases c <;> simp [seqE, app_assoc]

theorem seqE_nil (a : Except PyErr Out) : seqE (.ok {}) a = a := by
  cases a with
  | error e => rfl
  | ok x =>
    simp only [seqE, Out.app, List.nil_append]
    by_cases h : x.text = [] <;> simp [h]
    rw [← h]

theorem writeB_append (o : MObj py.F) (V W : WB) :
    writeB py repr strict wr o (V.app W) = seqE (writeB py repr strict wr o V) (writeB py repr strict wr o W) := by
  induction V with
  | nil => rw [WB.app, writeB, seqE_nil]
  | attr n k f r ih | text k f r ih | prim t k f r ih | oprim u t k f r ih | each f v a cs ot r ih | fail e a r ih =>
    simp only [WB.app, writeB, ih, seqE_assoc]
  | wrap c t b r _ ih | «when» c b r _ ih =>
    simp only [WB.app, writeB, ih, seqE_assoc]

theorem elements_body : ∃ ot, W.writeARPackageElements_ARPackage =
    .wrap (.any [(k!"elements", [])]) k!"ELEMENTS" (.each k!"elements" [] .plain elementCases ot .nil) .nil := ⟨_, rfl⟩

theorem seqE_empty (a : Except PyErr Out) : seqE a (.ok {}) = a := by
  cases a with
  | error e => rfl
  | ok x => simp [seqE, Out.app]

theorem any_map {o o' : MObj py.F} {f : Key} {g : MObj py.F → MObj py.F} (h : o'.get f = (o.get f).map g) :
    Cond.holds o' (.any [(f, [])]) = Cond.holds o (.any [(f, [])]) := by
  simp only [Cond.holds, MObj.view, List.any_cons, List.any_nil, h, List.isEmpty_map]

/-- a group of things that are all changed -/
theorem group_out {o o' : MObj py.F} {f t : Key} {a : Arr} {cs : List Case} {ot : Other} {g : MObj py.F → MObj py.F} {g' : Xml → Xml} {out : Out}
    (hf : o'.get f = (o.get f).map g) (hs : a.sort = true → byName ((o.get f).map g) = (byName (o.get f)).map g) (ha : a = .plain ∨ a = .sorted)
    (hv : ∀ v ∈ o.get f, ∀ out, writeCase py strict wr cs ot v = .ok out → writeCase py strict wr cs ot (g v) = .ok (mapped g' out))
    (ht : ∀ as s kids, cleanPart (.node t as s kids) = [.node t as s (kids.map g')])
    (h : writeB py repr strict wr o (.wrap (.any [(f, [])]) t (.each f [] a cs ot .nil) .nil) = .ok out) :
    writeB py repr strict wr o' (.wrap (.any [(f, [])]) t (.each f [] a cs ot .nil) .nil) = .ok (parts out) := by
  simp only [writeB, seqE_empty] at h ⊢
  rw [any_map hf]
  split at h
  · rename_i hh
    rw [if_pos hh]
    obtain ⟨w, hw, rfl⟩ := map_ok h
    obtain ⟨os, hos, rfl⟩ := map_ok hw
    have hview : ∀ x : MObj py.F, x.view f [] = x.get f := fun _ => rfl
    rw [hview] at hos ⊢
    rw [hf]
    have e : (if a.sort = true then byName ((o.get f).map g) else (o.get f).map g) =
        (if a.sort = true then byName (o.get f) else o.get f).map g := by
      split
      · rename_i h'; exact hs h'
      · rfl
    rw [e, mapE_image (g' := mapped g') hos]
    · have eo : ∀ l : List Out, a.outs l = outs l := by
        rcases ha with rfl | rfl <;> exact fun _ => rfl
      simp only [Except.map, eo, mapped_outs]
      show Except.ok _ = Except.ok (parts { kids := [Out.node t (outs os)] })
      have : parts { kids := [Out.node t (outs os)] } = { kids := cleanPart (Out.node t (outs os)) } := by
        simp [parts]
      rw [this]
      show _ = Except.ok (Out.mk [] [] (cleanPart (.node _ _ _ _)))
      rw [ht]
      rfl
    · intro v hv'
      refine hv v ?_
      split at hv'
      · exact mem_byName.1 hv'
      · exact hv'
  · rename_i hh
    rw [if_neg hh]
    cases h
    rfl

theorem sub_case {o : MObj py.F} {n : Nat} {out : Out}
    (ih : ∀ out, writeObj py repr strict writers n k!"writeARPackage_ARPackage" o = .ok out →
      writeObj py repr strict writers n k!"writeARPackage_ARPackage" (processPkg o) = .ok (mapped cleanPkg out))
    (h : writeCase py strict (writeObj py repr strict writers n) [⟨[(false, [k!"ARPackage"])], [], k!"writeARPackage_ARPackage"⟩] .unsupported o = .ok out) :
    writeCase py strict (writeObj py repr strict writers n) [⟨[(false, [k!"ARPackage"])], [], k!"writeARPackage_ARPackage"⟩] .unsupported (processPkg o) =
      .ok (mapped cleanPkg out) := by
  unfold writeCase at h ⊢
  rw [processPkg_cls]
  split at h
  · rename_i k hk
    have hm := List.mem_of_find?_eq_some hk
    simp only [List.mem_singleton] at hm
    subst hm
    exact ih _ h
  · split at h
    · cases h
    · cases h
    · cases h; rfl

theorem names_same {o : MObj py.F} (h : ∀ q ∈ o.get k!"arPackages", RegularP q) :
    byName ((o.get k!"arPackages").map processPkg) = (byName (o.get k!"arPackages")).map processPkg :=
  byName_process fun p hp => processPkg_name (h p hp [] p rfl).1

theorem seq_parts {X Y X' Y' : Except PyErr Out} {out : Out} (h : seqE X Y = .ok out) (hX : ∀ a, X = .ok a → X' = .ok (parts a))
    (hY : ∀ a, Y = .ok a → Y' = .ok (parts a)) : seqE X' Y' = .ok (parts out) := by
  obtain ⟨a, b, ha, hb, rfl⟩ := seqE_ok h
  rw [hX a ha, hY b hb, seqE, parts_app]

theorem identifiable_ok : wAdmin pkgAttrs pkgTags W.writeIdentifiable_ARPackage = true := by decide +kernel

/-- a package -/
theorem pkg_out (n : Nat) : ∀ (p : MObj py.F) (out : Out), RegularP p → writeObj py repr strict writers n k!"writeARPackage_ARPackage" p = .ok out →
    writeObj py repr strict writers n k!"writeARPackage_ARPackage" (processPkg p) = .ok (mapped cleanPkg out) := by
  induction n with
  | zero => intro p out _ h; cases h
  | succ n ih =>
    intro p out hr h
    have hb : writers k!"writeARPackage_ARPackage" = some W.writeARPackage_ARPackage := by
      unfold writers
      rw [if_neg (by decide)]
      rfl
    simp only [writeObj, hb] at h ⊢
    obtain ⟨hp, hel⟩ := hr [] p rfl
    have hg : ∀ f, f ∉ pkgAttrs → (processPkg p).get f = p.get f := fun f hf => processPkg_other hp hf
    rw [W.writeARPackage_ARPackage, writeB] at h ⊢
    have hn : ∀ o : MObj py.F, writeB py repr strict (writeObj py repr strict writers n) o .nil = .ok {} := fun _ => rfl
    rw [hn, seqE_empty, if_pos (show Cond.holds _ Cond.always = true from rfl)] at h ⊢
    obtain ⟨w, hw, rfl⟩ := map_ok h
    have main : writeB py repr strict (writeObj py repr strict writers n) (processPkg p)
        (W.writeIdentifiable_ARPackage.app <|
          .wrap (.any [(k!"referenceBases", [])]) k!"REFERENCE-BASES" (
            .each k!"referenceBases" [] .plain [⟨[], [], k!"writeARPackage_ARPackage_L9513"⟩] .skip .nil) <|
          W.writeARPackageElements_ARPackage.app <|
          .wrap (.any [(k!"arPackages", [])]) k!"AR-PACKAGES" (
            .each k!"arPackages" [] .sorted [⟨[(false, [k!"ARPackage"])], [], k!"writeARPackage_ARPackage"⟩] .unsupported .nil)
          .nil) = .ok (parts w) := by
      rw [writeB_append] at hw ⊢
      refine seq_parts hw ?_ ?_
      · intro a ha
        obtain ⟨h1, h2⟩ := wAdmin_out (processPkg_cls p) hg (processPkg_admin p) (by decide)
          (fun k v out hq he => quiet_out tags_pkg n k v out hq he) (fun v out he => setAdmin_out he) identifiable_ok ha
        rw [h1, parts_keep h2]
      intro a ha
      rw [writeB] at ha ⊢
      refine seq_parts ha ?_ ?_
      · intro a ha
        rw [cond_free (processPkg_cls p) hg (by decide), writeB_free (processPkg_cls p) hg (by decide)]
        split at ha
        · rename_i hh
          rw [if_pos hh]
          obtain ⟨x, hx, rfl⟩ := map_ok ha
          rw [hx]
          show Except.ok _ = Except.ok (parts { kids := [Out.node k!"REFERENCE-BASES" x] })
          have : parts { kids := [Out.node k!"REFERENCE-BASES" x] } = { kids := cleanPart (Out.node k!"REFERENCE-BASES" x) } := by
            simp [parts]
          rw [this, cleanPart_other (by show k!"REFERENCE-BASES" ∉ pkgTags; decide)]
        · rename_i hh
          rw [if_neg hh]
          cases ha
          rfl
      intro a ha
      rw [writeB_append] at ha ⊢
      refine seq_parts ha ?_ ?_
      · intro a ha
        obtain ⟨ot, e⟩ := elements_body
        rw [e] at ha ⊢
        refine group_out (processPkg_elems hp) (fun h => by cases h) (.inl rfl) (fun v hv out ho => case_out (hel v hv) ho) ?_ ha
        intro as s kids
        rfl
      · intro a ha
        refine group_out (processPkg_pkgs p) (fun _ => names_same fun q hq => hr.sub hq) (.inr rfl)
          (fun v hv out ho => sub_case (fun out => ih v out (hr.sub hv)) ho) ?_ ha
        intro as s kids
        rfl
    rw [main]
    simp only [Except.map, parts_node]
    rfl

/-! ## the document -/

theorem withSchema_cls (d : MObj py.F) : (withSchema py d).cls = d.cls := by
  unfold withSchema
  split
  · cases d <;> rfl
  · rfl

theorem withSchema_other (d : MObj py.F) {f : Key} (hf : f ≠ k!"schema_location") (he : f ≠ k!"elements") : (withSchema py d).get f = d.get f := by
  unfold withSchema
  split
  · cases d with
    | scal s => rfl
    | mk c fs =>
      simp only [MObj.get, MObj.fields]
      rw [flatMap_get (h := id), List.map_id]
      · intro e _; split <;> rfl
      · intro e _ hh
        rw [hits_other he, beq_iff_eq] at hh
        rw [if_neg (by rw [hh]; exact hf), List.map_id]
  · rfl

theorem removeAll_schema (d : MObj py.F) : (removeAll d).get k!"schema_location" = d.get k!"schema_location" := by
  simp only [MObj.get, removeAll_fields]
  rw [flatMap_get (h := id), List.map_id]
  · intro e _; split
    · rfl
    · split <;> rfl
  · intro e _ hh
    rw [hits_other (by decide), beq_iff_eq] at hh
    rw [if_neg (by rw [hh]; decide), if_neg (by rw [hh]; decide), List.map_id]

theorem removeAll_admin (d : MObj py.F) : (removeAll d).get k!"adminData" = [] := by
  simp only [MObj.get, removeAll_fields, List.flatMap_eq_nil_iff, List.mem_map, hits_admin]
  rintro x ⟨y, _, rfl⟩
  by_cases h : y.1.1 = k!"adminData" <;> simp [h]
  split <;> simp [h]

theorem withSchema_removeAll_schema (d : MObj py.F) :
    (withSchema py (removeAll d)).get k!"schema_location" = (withSchema py d).get k!"schema_location" := by
  unfold withSchema
  rw [removeAll_schema]
  by_cases h : d.get k!"schema_location" = []
  · rw [if_pos h, if_pos h]
    cases d with
    | scal s => rfl
    | mk c fs =>
      simp only [removeAll, MObj.get, MObj.fields, List.map_map]
      clear h
      induction fs with
      | nil => rfl
      | cons e fs ih =>
        rw [List.map_cons, List.map_cons, List.flatMap_cons, List.flatMap_cons, ih]
        congr 1
        have hk : ∀ k : Key × Bool, hits k!"schema_location" k = (k.1 == k!"schema_location") := hits_other (by decide)
        simp only [Function.comp, hk]
        by_cases h1 : e.1.1 = k!"adminData"
        · rw [if_pos h1]
          have : ¬ e.1.1 = k!"schema_location" := by rw [h1]; decide
          simp [this]
        · rw [if_neg h1]
          by_cases h2 : e.1.1 = k!"arPackages"
          · rw [if_pos h2]
            have : ¬ e.1.1 = k!"schema_location" := by rw [h2]; decide
            simp [this]
          · rw [if_neg h2]
  · rw [if_neg h, if_neg h, removeAll_schema]

theorem save_removeAll {d : MObj py.F} {x : Xml} (hr : Regular d) (h : save py repr strict d = .ok x) :
    save py repr strict (removeAll d) = .ok (cleanPkg x) := by
  unfold save at h ⊢
  generalize ho : withSchema py d = o at h
  generalize ho' : withSchema py (removeAll d) = o'
  have hpk : o.get k!"arPackages" = d.get k!"arPackages" := by rw [← ho]; exact withSchema_other d (by decide) (by decide)
  have hpk' : o'.get k!"arPackages" = (o.get k!"arPackages").map processPkg := by
    rw [← ho', withSchema_other _ (by decide) (by decide), removeAll_pkgs, hpk]
  have had : o'.get k!"adminData" = [] := by
    rw [← ho', withSchema_other _ (by decide) (by decide), removeAll_admin]
  have hsl : o'.get k!"schema_location" = o.get k!"schema_location" := by
    rw [← ho', ← ho, withSchema_removeAll_schema]
  have hreg : ∀ q ∈ o.get k!"arPackages", RegularP q := fun q hq => regular_pkg hr (by rw [← hpk]; exact hq)
  rw [writeObj_stable (n := o.depth) (m := max o.depth o'.depth + 1) (by omega) (by omega)] at h
  rw [writeObj_stable (n := o'.depth) (m := max o.depth o'.depth + 1) (by omega) (by omega)]
  generalize max o.depth o'.depth = n at h ⊢
  have hb : writers k!"save" = some saveBody := if_pos rfl
  have key : ∀ out, writeObj py repr strict writers (n + 1) k!"save" o = .ok out →
      writeObj py repr strict writers (n + 1) k!"save" o' = .ok (mapped cleanPkg out) := by
    intro out h
    simp only [writeObj, hb] at h ⊢
    rw [saveBody, writeB] at h ⊢
    have hn : ∀ o : MObj py.F, writeB py repr strict (writeObj py repr strict writers n) o .nil = .ok {} := fun _ => rfl
    rw [hn, seqE_empty, if_pos (show Cond.holds _ Cond.always = true from rfl)] at h ⊢
    obtain ⟨w, hw, rfl⟩ := map_ok h
    have main : writeB py repr strict (writeObj py repr strict writers n) o'
        (.attr k!"xsi:schemaLocation" .raw k!"schema_location" <|
          .each k!"adminData" [] .plain [⟨[], [], k!"setAdminData_AdminData"⟩] .skip <|
          .wrap (.any [(k!"arPackages", [])]) k!"AR-PACKAGES" (
            .each k!"arPackages" [] .sorted [⟨[(false, [k!"ARPackage"])], [], k!"writeARPackage_ARPackage"⟩] .unsupported .nil)
          .nil) = .ok (parts w) := by
      rw [writeB] at hw ⊢
      refine seq_parts hw ?_ ?_
      · intro a ha
        rw [hsl, ha]
        have : a.kids = [] := by
          unfold writeAttrOf at ha
          split at ha
          · split at ha <;> cases ha <;> rfl
          · cases ha
          · cases ha; rfl
        obtain ⟨as, s, ks⟩ := a
        simp only at this
        subst this
        rfl
      intro a ha
      rw [writeB] at ha ⊢
      refine seq_parts ha ?_ ?_
      · intro a ha
        have hw' : writeB py repr strict (writeObj py repr strict writers n) o (.each k!"adminData" [] .plain adminCases .skip .nil) = .ok a := by
          rw [writeB, hn, seqE_empty]; exact ha
        have hg2 : ∀ f, f ∉ [k!"adminData", k!"elements"] → (MObj.removeAdminData (.mk o.cls o.fields)).get f = o.get f := by
          intro f hf
          simp only [List.mem_cons, List.not_mem_nil, or_false, not_or] at hf
          simp only [MObj.get]
          show ((o.fields.map _).flatMap _) = _
          rw [flatMap_get (h := id), List.map_id]
          · intro e _; split <;> rfl
          · intro e _ hh
            rw [hits_other hf.2, beq_iff_eq] at hh
            rw [if_neg (by rw [hh]; exact hf.1), List.map_id]
        have ha2 := removeAdminData_get (.mk o.cls o.fields)
        obtain ⟨h1, h2⟩ := wAdmin_out (o := o) (o' := MObj.removeAdminData (.mk o.cls o.fields)) (S := [k!"adminData", k!"elements"]) (B := pkgTags) rfl hg2 ha2 (by decide)
          (fun k v out hq he => quiet_out tags_pkg n k v out hq he) (fun v out he => setAdmin_out he)
          (W := .each k!"adminData" [] .plain adminCases .skip .nil) (by decide) hw'
        rw [parts_keep h2, ← h1, writeB, hn, seqE_empty]
        have e1 : ∀ z : MObj py.F, z.view k!"adminData" [] = z.get k!"adminData" := fun _ => rfl
        simp only [Arr.sort, e1, had, ha2]
        rfl
      · intro a ha
        refine group_out hpk' (fun _ => names_same hreg) (.inr rfl) (fun v hv out ho => sub_case (fun out => pkg_out n v out (hreg v hv)) ho) ?_ ha
        intro as s kids
        rfl
    rw [main]
    simp only [Except.map, parts_node]
    rfl
  split at h
  · cases h
  · rename_i out hout
    rw [key out hout]
    simp only [mapped]
    split at h
    · rename_i y hy
      cases h
      rw [hy]
      rfl
    · cases h

end

end Verif.Lemmas
