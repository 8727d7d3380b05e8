import Verif.Lemmas.Main
import Verif.Lemmas.PairTable
/-!
# Conditions that hold for every object that was read
-/
namespace Verif.Lemmas
open Verif Verif.Model Verif.Spec

section
variable {py : Py} {strict : Bool} {T : Key → Option RBody}

/-- the fields of an object that was read -/
theorem read_fields {n : Nat} {k : Key} {x : Xml} {o : MObj py.F} (h : readObj py strict T n k x = .ok o) :
    ∃ m b fs, n = m + 1 ∧ T k = some b ∧ o = .mk b.cls fs ∧ ∀ e ∈ fs, ∃ s ∈ b.slots, s.key = e.1 ∧
      readSlot py strict (readObj py strict T m) x s = .ok e.2 := by
  cases n with
  | zero => cases h
  | succ n =>
    simp only [readObj] at h
    split at h
    · cases h
    rename_i b hb
    simp only [readBody] at h
    split at h
    · cases h
    rename_i vss hvss
    split at h
    swap
    · cases h
    cases h
    refine ⟨n, b, _, rfl, hb, rfl, ?_⟩
    have hall := mapE_ok hvss
    clear hvss hb
    intro e he
    rename_i hnm
    clear hnm
    generalize b.slots = sl at *
    induction hall with
    | nil => cases he
    | cons h1 _ ih =>
      simp only [List.map_cons, List.zip_cons_cons] at he
      rcases List.mem_cons.1 he with rfl | he
      · exact ⟨_, by simp, rfl, h1⟩
      · obtain ⟨s, hs, h⟩ := ih he
        exact ⟨s, by simp [hs], h⟩

/-- Conditions that follow, for what the methods `P` read, from other conditions. -/
theorem clean_read {P : Key → Prop} {D D' : Key → List Need}
    (hP : ∀ k b, P k → T k = some b → ∀ s ∈ b.slots, ∀ alts, s.item = .objs alts → ∀ a ∈ alts, P a.2)
    (hD : ∀ n k x (o : MObj py.F), P k → readObj py strict T n k x = .ok o → (∀ m ∈ D o.cls, m.ok strict o) → ∀ m ∈ D' o.cls, m.ok strict o)
    {n : Nat} {k : Key} (hk : P k) {x : Xml} {o : MObj py.F} (h : readObj py strict T n k x = .ok o) (hc : Clean D strict o) :
    Clean D' strict o := by
  induction n generalizing k x o with
  | zero => cases h
  | succ n ih =>
    obtain ⟨m, b, fs, hm, hb, ho, hf⟩ := read_fields h
    obtain rfl : n = m := by omega
    have hneeds := hD _ _ _ _ hk h (by rw [ho]; exact clean_needs (ho ▸ hc) rfl)
    subst ho
    refine .mk _ _ hneeds ?_
    intro e he v hv
    have hcv := clean_kids hc (by exact he) hv
    obtain ⟨s, hs, _, hrs⟩ := hf e he
    have horg := readSlot_origin hrs v hv
    have hsl := hP k b hk hb s hs
    cases hi : s.item with
    | objs alts =>
      rw [hi] at horg
      obtain ⟨t, k', y, hk', hy⟩ := horg.objs
      obtain ⟨t', ht'⟩ := altOf_mem hk'
      exact ih (hsl alts hi _ ht') hy hcv
    | prim kk => rw [hi] at horg; obtain ⟨_, sc, rfl, _⟩ := horg.prim; exact .scal sc
    | attr a kk => rw [hi] at horg; obtain ⟨_, sc, rfl, _⟩ := horg.attr; exact .scal sc
    | name => rw [hi] at horg; obtain ⟨w, _, rfl⟩ := horg.name; exact .scal _
    | guard tags g => rw [hi] at horg; exact horg.guard.elim
    | want t e => rw [hi] at horg; exact horg.want.elim
    | crash e => rw [hi] at horg; exact horg.crash.elim

/-- a value was read from an element -/
theorem read_select {n : Nat} {k : Key} {x : Xml} {o : MObj py.F} (h : readObj py strict T n k x = .ok o) {f : Key} (hf : o.get f ≠ []) :
    ∃ b, T k = some b ∧ ∃ s ∈ b.slots, hits f s.key = true ∧ select s.path x ≠ [] := by
  obtain ⟨m, b, fs, _, hb, rfl, hfs⟩ := read_fields h
  obtain ⟨v, hv⟩ := List.exists_mem_of_ne_nil _ hf
  obtain ⟨e, he, hve⟩ := List.mem_flatMap.1 hv
  obtain ⟨s, hs, hk, hr⟩ := hfs e he
  refine ⟨b, hb, s, hs, ?_, ?_⟩
  · rw [hk]
    by_cases hh : hits f e.1 = true
    · exact hh
    · rw [if_neg hh] at hve; cases hve
  · intro h0
    have : v ∈ e.2 := by
      split at hve
      · exact hve
      · cases hve
    obtain ⟨ls, hls, hls2, _⟩ := readSlot_ok hr
    rw [h0] at hls
    cases hls
    rw [← hls2] at this
    simp [keepLast] at this

/-- the attributes are read from elements that exclude each other -/
def exclusive (sl : List RSlot) (f g : Key) : Bool := sl.all fun s => !hits f s.key || sl.all fun t => !hits g t.key || match s.path with
  | .lack p _ => t.path == p
  | _ => false

theorem exclusive_sound {n : Nat} {k : Key} {x : Xml} {o : MObj py.F} (h : readObj py strict T n k x = .ok o) {f g : Key}
    (hex : ∀ b, T k = some b → exclusive b.slots f g = true) : o.get f = [] ∨ o.get g = [] := by
  by_cases hf : o.get f = []
  · exact .inl hf
  by_cases hg : o.get g = []
  · exact .inr hg
  exfalso
  obtain ⟨b, hb, s, hs, hsf, hsx⟩ := read_select h hf
  obtain ⟨b', hb', t, ht, htg, htx⟩ := read_select h hg
  rw [hb] at hb'
  cases hb'
  have := List.all_eq_true.1 (hex b hb) s hs
  simp only [hsf, Bool.not_true, Bool.false_or] at this
  have := List.all_eq_true.1 this t ht
  simp only [htg, Bool.not_true, Bool.false_or] at this
  split at this
  · rename_i p q hp
    simp only [beq_iff_eq] at this
    rw [hp] at hsx
    simp only [select] at hsx
    split at hsx
    · rename_i h0
      rw [this] at htx
      exact htx (by simpa using h0)
    · exact hsx rfl
  · cases this
end

/-- only one method makes scales -/
theorem scale_reader : Gen.readTable.all (fun _ b => b.cls != k!"CompuScale" ||
    exclusive b.slots k!"compuScaleContents.compuConst.compuConstContentType.vt" k!"compuScaleContents.compuRationalCoeffs") = true := by
  decide +kernel

theorem clean_conds {py : Py} {strict : Bool} {n : Nat} {k : Key} {x : Xml} {o : MObj py.F} (h : readObj py strict readers n k x = .ok o)
    (hc : Clean lossy strict o) : Clean conds strict o := by
  refine clean_read (P := fun _ => True) (fun _ _ _ _ _ _ _ _ _ _ => trivial) ?_ trivial h hc
  intro n k x o _ h hl m hm
  rcases List.mem_append.1 hm with hm | hm
  · exact hl m hm
  · unfold invariants at hm
    split at hm
    · rename_i hcls
      rw [List.mem_singleton] at hm
      subst hm
      refine exclusive_sound h ?_
      intro b hb
      have hcb : b.cls = k!"CompuScale" := by
        have := readObj_cls h
        rw [hb] at this
        simpa [hcls] using this
      unfold readers at hb
      split at hb
      · cases hb; exact absurd hcb (by decide)
      · have := (Bst.all_toList _ _).1 scale_reader _ (Bst.find?_mem hb)
        simpa [hcb] using this
    · cases hm

end Verif.Lemmas
