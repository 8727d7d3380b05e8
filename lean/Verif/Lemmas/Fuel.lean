import Verif.Lemmas.Main
import Verif.Model.Document
import Verif.Spec.Scalar
/-!
# The recursion bounds do not matter
-/
namespace Verif.Lemmas
open Verif Verif.Model Verif.Spec

/-! ## depth -/

theorem depth_pos (x : Xml) : 0 < x.depth := by
  cases x; simp only [Xml.depth]; omega

theorem depth_kid {x y : Xml} (h : y ∈ x.kids) : y.depth < x.depth := by
  cases x with
  | node t a s kids =>
    simp only [Xml.kids] at h
    simp only [Xml.depth]
    induction kids with
    | nil => cases h
    | cons z l ih =>
      simp only [Xml.depths]
      rcases List.mem_cons.1 h with rfl | h
      · omega
      · have := ih h; omega

theorem walk_depth {ts : List Key} {x y : Xml} (h : y ∈ walk ts x) : y.depth + ts.length ≤ x.depth := by
  induction ts generalizing x with
  | nil => simp only [walk, List.mem_singleton] at h; subst h; simp
  | cons t ts ih =>
    simp only [walk, List.mem_flatMap, List.mem_filter] at h
    obtain ⟨z, hz, hy⟩ := h
    have := ih hy
    have := depth_kid hz.1
    simp only [List.length_cons]
    omega

theorem pickKid_mem {ts : List Key} {x y : Xml} (h : pickKid ts x = some y) : y ∈ x.kids := by
  induction ts with
  | nil => cases h
  | cons t ts ih =>
    simp only [pickKid] at h
    split at h
    · rename_i z hz
      cases h
      exact List.mem_of_find?_eq_some hz
    · exact ih h

theorem select_depth {p : Path} {x y : Xml} (h : y ∈ select p x) : y.depth ≤ x.depth ∧ (moves p = true → y.depth < x.depth) := by
  induction p generalizing x with
  | nil => simp only [select, List.mem_singleton] at h; subst h; simp [moves]
  | all t r ih =>
    simp only [select, List.mem_flatMap, List.mem_filter] at h
    obtain ⟨z, hz, hy⟩ := h
    have := (ih hy).1
    have := depth_kid hz.1
    exact ⟨by omega, fun _ => by omega⟩
  | first ts r ih =>
    simp only [select] at h
    split at h
    · cases h
    · rename_i z l hw
      have h1 := walk_depth (show z ∈ walk ts x by rw [hw]; simp)
      have h2 := ih h
      refine ⟨by omega, fun hm => ?_⟩
      cases ts with
      | nil => have := h2.2 (by simpa [moves] using hm); omega
      | cons t ts => simp only [List.length_cons] at h1; omega
  | pick ts r ih =>
    simp only [select] at h
    split at h
    · cases h
    · rename_i z hz
      have h1 := depth_kid (pickKid_mem hz)
      have h2 := (ih h).1
      exact ⟨by omega, fun _ => by omega⟩
  | need p r _ ih =>
    simp only [select] at h
    split at h
    · cases h
    · exact ⟨(ih h).1, fun hm => (ih h).2 (by simpa [moves] using hm)⟩
  | lack p r _ ih =>
    simp only [select] at h
    split at h
    · exact ⟨(ih h).1, fun hm => (ih h).2 (by simpa [moves] using hm)⟩
    · cases h
  | alt p q ihp ihq =>
    simp only [select] at h
    split at h
    · exact ⟨(ihq h).1, fun hm => (ihq h).2 (by simp only [moves, Bool.and_eq_true] at hm; exact hm.2)⟩
    · exact ⟨(ihp h).1, fun hm => (ihp h).2 (by simp only [moves, Bool.and_eq_true] at hm; exact hm.1)⟩

theorem depthL_mem {F : Type} {v : MObj F} {vs : List (MObj F)} (h : v ∈ vs) : v.depth ≤ MObj.depthL vs := by
  induction vs with
  | nil => cases h
  | cons u vs ih =>
    simp only [MObj.depthL]
    rcases List.mem_cons.1 h with rfl | h
    · omega
    · have := ih h; omega

theorem depth_get {F : Type} {o v : MObj F} {f : Key} (h : v ∈ o.get f) : v.depth < o.depth := by
  cases o with
  | scal s => simp [MObj.get, MObj.fields] at h
  | mk c fs =>
    simp only [MObj.get, MObj.fields] at h
    obtain ⟨e, he, hv⟩ := List.mem_flatMap.1 h
    have hv : v ∈ e.2 := by
      split at hv
      · exact hv
      · cases hv
    clear h
    simp only [MObj.depth]
    induction fs with
    | nil => cases he
    | cons g fs ih =>
      obtain ⟨k, vs⟩ := g
      simp only [MObj.depthF]
      rcases List.mem_cons.1 he with rfl | he
      · have := depthL_mem hv
        simp only at this
        omega
      · have := ih he; omega

/-! ## the reader -/

section
variable {py : Py} {repr : py.F → Str} {strict : Bool}

theorem mapE_eq {α β ε : Type} {f g : α → Except ε β} {l : List α} (h : ∀ x ∈ l, f x = g x) : mapE f l = mapE g l := by
  induction l with
  | nil => rfl
  | cons x l ih => simp only [mapE]; rw [h x (by simp), ih fun y hy => h y (by simp [hy])]

theorem mapE_mono {α β ε : Type} {f g : α → Except ε β} {l : List α} {r : List β} (h : ∀ x ∈ l, ∀ y, f x = .ok y → g x = .ok y)
    (hr : mapE f l = .ok r) : mapE g l = .ok r := by
  rw [← hr]
  apply mapE_eq
  have hall := mapE_ok hr
  clear hr
  induction hall with
  | nil => intro x hx; cases hx
  | cons h1 _ ih =>
    intro x hx
    rcases List.mem_cons.1 hx with rfl | hx
    · rw [h1, h _ (by simp) _ h1]
    · exact ih (fun x hx => h x (by simp [hx])) x hx

theorem readItem_congr {rd rd' : Key → Xml → Except RErr (MObj py.F)} {i : Item} {y : Xml} (h : deep i = true → ∀ k, rd k y = rd' k y) :
    readItem py strict rd i y = readItem py strict rd' i y := by
  cases i with
  | objs alts => simp only [readItem]; split <;> simp only [h rfl]
  | _ => rfl

theorem readSlot_eq {rd rd' : Key → Xml → Except RErr (MObj py.F)} {s : RSlot} {x : Xml}
    (h : deep s.item = true → ∀ y ∈ select s.path x, ∀ k, rd k y = rd' k y) :
    readSlot py strict rd x s = readSlot py strict rd' x s := by
  simp only [readSlot]
  rw [mapE_eq fun y hy => readItem_congr fun hd => h hd y hy]

theorem readBody_congr {rd rd' : Key → Xml → Except RErr (MObj py.F)} {b : RBody} {x : Xml}
    (h : ∀ s ∈ b.slots, deep s.item = true → ∀ y ∈ select s.path x, ∀ k, rd k y = rd' k y) :
    readBody py strict rd b x = readBody py strict rd' b x := by
  simp only [readBody]
  rw [mapE_eq fun s hs => readSlot_eq (h s hs)]

/-- every object is made from an element below -/
def Moving (T : Key → Option RBody) : Prop := ∀ k b, T k = some b → ∀ s ∈ b.slots, deep s.item = true → moves s.path = true

theorem readObj_stable {T : Key → Option RBody} (hT : Moving T) {n m : Nat} {k : Key} {x : Xml} (hn : x.depth ≤ n) (hm : x.depth ≤ m) :
    readObj py strict T n k x = readObj py strict T m k x := by
  induction n generalizing m k x with
  | zero => have := depth_pos x; omega
  | succ n ih =>
    cases m with
    | zero => have := depth_pos x; omega
    | succ m =>
      simp only [readObj]
      cases hb : T k with
      | none => rfl
      | some b =>
        apply readBody_congr
        intro s hs hd y hy k'
        have := (select_depth hy).2 (hT k b hb s hs hd)
        exact ih (by omega) (by omega)

theorem readItem_mono {rd rd' : Key → Xml → Except RErr (MObj py.F)} (h : ∀ k y o, rd k y = .ok o → rd' k y = .ok o) {i : Item} {y : Xml}
    {r : List (MObj py.F)} (hr : readItem py strict rd i y = .ok r) : readItem py strict rd' i y = .ok r := by
  cases i with
  | objs alts =>
    simp only [readItem] at hr ⊢
    split at hr
    · exact hr
    · rename_i k hk
      split at hr
      · cases hr
      · rename_i o ho
        rw [h _ _ _ ho]
        exact hr
  | _ => exact hr

theorem readSlot_mono {rd rd' : Key → Xml → Except RErr (MObj py.F)} (h : ∀ k y o, rd k y = .ok o → rd' k y = .ok o) {x : Xml} {s : RSlot}
    {r : List (MObj py.F)} (hr : readSlot py strict rd x s = .ok r) : readSlot py strict rd' x s = .ok r := by
  simp only [readSlot] at hr ⊢
  split at hr
  · cases hr
  · rename_i vs hvs
    rw [mapE_mono (fun y _ o ho => readItem_mono h ho) hvs]
    exact hr

theorem readObj_mono {T : Key → Option RBody} {n m : Nat} (hnm : n ≤ m) {k : Key} {x : Xml} {o : MObj py.F}
    (h : readObj py strict T n k x = .ok o) : readObj py strict T m k x = .ok o := by
  induction n generalizing m k x o with
  | zero => cases h
  | succ n ih =>
    cases m with
    | zero => omega
    | succ m =>
      simp only [readObj] at h ⊢
      split at h
      · cases h
      · rename_i b hb
        simp only [readBody] at h ⊢
        split at h
        · cases h
        · rename_i vs hvs
          rw [mapE_mono (fun s _ r hr => readSlot_mono (fun k y o ho => ih (by omega) ho) hr) hvs]
          exact h

/-! ## the writer -/

theorem mem_byName {F : Type} {l : List (MObj F)} {v : MObj F} : v ∈ byName l ↔ v ∈ l :=
  (sortBy_perm _ _).mem_iff

theorem mem_view {F : Type} {o v : MObj F} {f : Key} {w : List Key} (h : v ∈ o.view f w) : v ∈ o.get f := by
  unfold MObj.view at h
  split at h
  · exact h
  · exact (List.mem_filter.1 h).1

theorem writeB_congr {wr wr' : Key → MObj py.F → Except PyErr Out} {o : MObj py.F} (h : ∀ v, v.depth < o.depth → ∀ k, wr k v = wr' k v)
    (W : WB) : writeB py repr strict wr o W = writeB py repr strict wr' o W := by
  induction W with
  | nil => rfl
  | attr n k f r ih => simp only [writeB, ih]
  | text k f r ih => simp only [writeB, ih]
  | prim t k f r ih => simp only [writeB, ih]
  | oprim u t k f r ih => simp only [writeB, ih]
  | each f v s cases other r ih =>
    simp only [writeB, ih]
    rw [mapE_eq (g := writeCase py strict wr' cases other)]
    intro u hu
    have hu : u ∈ o.get f := by
      split at hu
      · exact mem_view (mem_byName.1 hu)
      · exact mem_view hu
    simp only [writeCase]
    split
    · exact h u (depth_get hu) _
    · rfl
  | wrap c t b r ihb ihr => simp only [writeB, ihb, ihr]
  | when c b r ihb ihr => simp only [writeB, ihb, ihr]
  | fail e a r ih => simp only [writeB, ih]

theorem mdepth_pos {F : Type} (o : MObj F) : 0 < o.depth := by
  cases o <;> simp only [MObj.depth] <;> omega

theorem writeObj_stable {T : Key → Option WB} {n m : Nat} {k : Key} {o : MObj py.F} (hn : o.depth ≤ n) (hm : o.depth ≤ m) :
    writeObj py repr strict T n k o = writeObj py repr strict T m k o := by
  induction n generalizing m k o with
  | zero => have := mdepth_pos o; omega
  | succ n ih =>
    cases m with
    | zero => have := mdepth_pos o; omega
    | succ m =>
      simp only [writeObj]
      cases hb : T k with
      | none => rfl
      | some b => exact writeB_congr (fun v hv k' => ih (by omega) (by omega)) b

theorem seqE_mono {a a' b b' : Except PyErr Out} {r : Out} (ha : ∀ x, a = .ok x → a' = .ok x) (hb : ∀ x, b = .ok x → b' = .ok x)
    (h : seqE a b = .ok r) : seqE a' b' = .ok r := by
  unfold seqE at h
  split at h
  · cases h
  · rename_i x
    split at h
    · cases h
    · rename_i y
      rw [ha x rfl, hb y rfl]
      exact h

theorem map_mono {α : Type} {a a' : Except PyErr α} {f : α → Out} {r : Out} (ha : ∀ x, a = .ok x → a' = .ok x) (h : a.map f = .ok r) :
    a'.map f = .ok r := by
  cases a with
  | error e => cases h
  | ok x => rw [ha x rfl]; exact h

theorem writeB_mono {wr wr' : Key → MObj py.F → Except PyErr Out} {o : MObj py.F} (h : ∀ v k r, wr k v = .ok r → wr' k v = .ok r) {W : WB}
    {r : Out} (hr : writeB py repr strict wr o W = .ok r) : writeB py repr strict wr' o W = .ok r := by
  induction W generalizing r with
  | nil => exact hr
  | attr n k f rest ih => exact seqE_mono (fun _ h => h) (fun _ h => ih h) hr
  | text k f rest ih => exact seqE_mono (fun _ h => h) (fun _ h => ih h) hr
  | prim t k f rest ih => exact seqE_mono (fun _ h => h) (fun _ h => ih h) hr
  | oprim u t k f rest ih => exact seqE_mono (fun _ h => h) (fun _ h => ih h) hr
  | each f v s cases other rest ih =>
    simp only [writeB] at hr ⊢
    refine seqE_mono (fun x hx => map_mono (fun y hy => ?_) hx) (fun _ h => ih h) hr
    refine mapE_mono (fun u _ z hz => ?_) hy
    simp only [writeCase] at hz ⊢
    split at hz
    · exact h _ _ _ hz
    · exact hz
  | wrap c t b rest ihb ihr =>
    simp only [writeB] at hr ⊢
    refine seqE_mono (fun x hx => ?_) (fun _ h => ihr h) hr
    by_cases hc : c.holds o = true
    · rw [if_pos hc] at hx ⊢
      exact map_mono (fun y hy => ihb hy) hx
    · rw [if_neg hc] at hx ⊢
      exact hx
  | when c b rest ihb ihr =>
    simp only [writeB] at hr ⊢
    refine seqE_mono (fun x hx => ?_) (fun _ h => ihr h) hr
    by_cases hc : c.holds o = true
    · rw [if_pos hc] at hx ⊢
      exact ihb hx
    · rw [if_neg hc] at hx ⊢
      exact hx
  | fail e a rest ih => exact seqE_mono (fun _ h => h) (fun _ h => ih h) hr

theorem writeObj_mono {T : Key → Option WB} {n m : Nat} (hnm : n ≤ m) {k : Key} {o : MObj py.F} {r : Out}
    (h : writeObj py repr strict T n k o = .ok r) : writeObj py repr strict T m k o = .ok r := by
  induction n generalizing m k o r with
  | zero => cases h
  | succ n ih =>
    cases m with
    | zero => omega
    | succ m =>
      simp only [writeObj] at h ⊢
      split at h
      · cases h
      · exact writeB_mono (fun v k r hr => ih (by omega) hr) h

end
end Verif.Lemmas
