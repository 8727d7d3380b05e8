import Verif.Lemmas.MarkupMain
import Verif.Spec.Codec
/-!
# Saving and reading again and again
-/
namespace Verif.Lemmas
open Verif Verif.Model Verif.Spec

theorem laidAll_map (d : Nat) (l : List Xml) : laidAll d l = l.map (laid d) := by
  induction l with
  | nil => rfl
  | cons x l ih => rw [laidAll, ih]; rfl

theorem laid_tag (d : Nat) (x : Xml) : (laid d x).tag = x.tag := by
  cases x with
  | node t as s kids => cases kids <;> simp [laid, Xml.tag]

theorem laid_attrs (d : Nat) (x : Xml) : (laid d x).attrs = x.attrs.map fun a => (a.1, flatValue a.2) := by
  cases x with
  | node t as s kids => cases kids <;> simp [laid, Xml.attrs]

theorem laid_kids (d : Nat) (x : Xml) : (laid d x).kids = x.kids.map (laid (d + 1)) := by
  cases x with
  | node t as s kids => cases kids <;> simp [laid, Xml.kids, laidAll_map]

theorem laid_text (d : Nat) (x : Xml) : (laid d x).text =
    if x.kids = [] then newlines x.text else lineBreak d ++ if x.text = [] then [] else newlines x.text ++ lineBreak d := by
  cases x with
  | node t as s kids =>
    cases kids with
    | nil => simp [laid, Xml.text, Xml.kids]
    | cons k l =>
      rw [laid, if_neg (show (Xml.node t as s (k :: l)).kids ≠ [] from List.cons_ne_nil k l)]
      show _ = lineBreak d ++ if s = [] then [] else newlines s ++ lineBreak d
      by_cases hs : s = []
      · rw [if_pos hs]; rfl
      · rw [if_neg hs]; rfl

theorem at_laid (d : Nat) (p : List Nat) (x : Xml) : at? p (laid d x) = (at? p x).map (laid (d + p.length)) := by
  induction p generalizing d x with
  | nil => rfl
  | cons i p ih =>
    rw [at?, at?, laid_kids, List.getElem?_map]
    cases x.kids[i]? with
    | none => rfl
    | some y =>
      simp only [Option.map_some]
      rw [ih, List.length_cons, Nat.add_assoc, Nat.add_comm 1]

theorem flatValue_mem {v : Str} {c : Char} (h : c ∈ flatValue v) : c = ' ' ∨ c ∈ v := by
  unfold flatValue at h
  obtain ⟨b, hb, rfl⟩ := List.mem_map.1 h
  by_cases hc : b = '\t' ∨ b = '\n'
  · rw [if_pos hc]; exact .inl rfl
  · rw [if_neg hc]
    rcases newlines_mem hb with rfl | hb
    · exact absurd (.inr rfl) hc
    · exact .inr hb

theorem lineBreak_mem {d : Nat} {c : Char} (h : c ∈ lineBreak d) : c = '\n' ∨ c = ' ' := by
  rcases List.mem_cons.1 h with rfl | h
  · exact .inl rfl
  · exact .inr (List.eq_of_mem_replicate h)

theorem laid_goodNames {nc : NameChars} {x : Xml} (h : GoodNames nc x) (d : Nat) : GoodNames nc (laid d x) := by
  obtain ⟨h1, h2, h3⟩ := h
  refine ⟨by rw [laid_tag]; exact h1, ?_, ?_⟩
  · intro a ha
    rw [laid_attrs] at ha
    obtain ⟨b, hb, rfl⟩ := List.mem_map.1 ha
    exact h2 b hb
  · rw [laid_attrs, List.map_map]; exact h3

theorem laid_goodChars {x : Xml} (h : GoodChars x) (d : Nat) : GoodChars (laid d x) := by
  obtain ⟨h1, h2⟩ := h
  have hn : ∀ c ∈ newlines x.text, XmlChar c := by
    intro c hc
    rcases newlines_mem hc with rfl | hc
    · exact .inr (.inl rfl)
    · exact h2 c hc
  have hl : ∀ c ∈ lineBreak d, XmlChar c := by
    intro c hc
    rcases lineBreak_mem hc with rfl | rfl
    · exact .inr (.inl rfl)
    · exact .inr (.inr (.inr (by decide)))
  constructor
  · intro a ha c hc
    rw [laid_attrs] at ha
    obtain ⟨b, hb, rfl⟩ := List.mem_map.1 ha
    rcases flatValue_mem hc with rfl | hc
    · exact .inr (.inr (.inr (by decide)))
    · exact h1 b hb c hc
  · intro c hc
    rw [laid_text] at hc
    split at hc
    · exact hn c hc
    · rcases List.mem_append.1 hc with hc | hc
      · exact hl c hc
      · split at hc
        · cases hc
        · rcases List.mem_append.1 hc with hc | hc
          · exact hn c hc
          · exact hl c hc

theorem every_laid {P : Xml → Prop} (hP : ∀ x d, P x → P (laid d x)) {x : Xml} (h : Every P x) (d : Nat) : Every P (laid d x) := by
  induction h generalizing d with
  | node t as s kids hp hk ih =>
    have h1 := hP _ d hp
    have h2 := laid_kids d (.node t as s kids)
    generalize laid d (.node t as s kids) = y at h1 h2
    cases y with
    | node t' as' s' kids' =>
      refine .node _ _ _ _ h1 fun k hk' => ?_
      have hk' : k ∈ (Xml.node t' as' s' kids').kids := hk'
      rw [h2] at hk'
      obtain ⟨z, hz, rfl⟩ := List.mem_map.1 hk'
      exact ih z hz (d + 1)

theorem writable_laid {nc : NameChars} {x : Xml} (h : Writable nc x) (d : Nat) : Writable nc (laid d x) :=
  ⟨every_laid (P := GoodNames nc) (fun _ d h => laid_goodNames h d) h.1 d, every_laid (P := GoodChars) (fun _ d h => laid_goodChars h d) h.2 d⟩

theorem cycle_eq {py : Py} {nc : NameChars} {x : Xml} (h : Writable nc x) : cycle py nc x = some (laid 0 x) :=
  file_read false h (fun h => by cases h)

/-- repeated layout -/
def laids : Nat → Nat → Xml → Xml
  | 0, _, x => x
  | n + 1, d, x => laids n d (laid d x)

theorem cycles_eq {py : Py} {nc : NameChars} (n : Nat) {x : Xml} (h : Writable nc x) : cycles py nc n x = some (laids n 0 x) := by
  induction n generalizing x with
  | zero => rfl
  | succ n ih => rw [cycles, cycle_eq h, Option.bind_some, ih (writable_laid h 0), laids]

theorem at_laids (n d : Nat) (p : List Nat) (x : Xml) : at? p (laids n d x) = (at? p x).map (laids n (d + p.length)) := by
  induction n generalizing x with
  | zero => simp [laids]
  | succ n ih =>
    rw [laids, ih, at_laid, Option.map_map]
    rfl

theorem laids_kids (n d : Nat) (x : Xml) : (laids n d x).kids = x.kids.map (laids n (d + 1)) := by
  induction n generalizing x with
  | zero => simp [laids]
  | succ n ih =>
    rw [laids, ih, laid_kids, List.map_map]
    rfl

theorem times_succ (n : Nat) (s : Str) : times (n + 1) s = s ++ times n s := by
  simp [times, List.replicate_succ]

theorem times_succ' (n : Nat) (s : Str) : times (n + 1) s = times n s ++ s := by
  induction n with
  | zero => simp [times]
  | succ n ih => rw [times_succ, ih, ← List.append_assoc, ← times_succ, ih]

theorem lineBreak_no_cr (d : Nat) : '\r' ∉ lineBreak d := by
  intro h
  rcases lineBreak_mem h with h | h <;> revert h <;> decide

theorem times_no_cr (n d : Nat) : '\r' ∉ times n (lineBreak d) := by
  intro h
  obtain ⟨l, hl, h⟩ := List.mem_flatten.1 h
  rw [List.eq_of_mem_replicate hl] at h
  exact lineBreak_no_cr d h

theorem laids_text_mixed (n d : Nat) (x : Xml) (hk : x.kids ≠ []) (hs : x.text ≠ []) (hr : '\r' ∉ x.text) :
    (laids n d x).text = times n (lineBreak d) ++ x.text ++ times n (lineBreak d) := by
  have : ∀ n (x : Xml) (t : Str), x.kids ≠ [] → x.text ≠ [] → '\r' ∉ x.text →
      (laids n d x).text = times n (lineBreak d) ++ x.text ++ times n (lineBreak d) := by
    intro n
    induction n with
    | zero => intro x _ _ _ _; simp [laids, times]
    | succ n ih =>
      intro x t hk hs hr
      have ht : (laid d x).text = lineBreak d ++ (x.text ++ lineBreak d) := by
        rw [laid_text, if_neg hk, if_neg hs, newlines_plain hr]
      rw [laids, ih (laid d x) t, ht, times_succ]
      · have : ∀ r, times n (lineBreak d) ++ (lineBreak d ++ r) = lineBreak d ++ (times n (lineBreak d) ++ r) := by
          intro r; rw [← List.append_assoc, ← times_succ', times_succ, List.append_assoc]
        simp only [List.append_assoc]
        rw [this]
      · rw [laid_kids]
        intro h
        rw [List.map_eq_nil_iff] at h
        exact hk h
      · rw [ht]; simp [lineBreak]
      · rw [ht]
        simp only [List.mem_append, not_or]
        exact ⟨lineBreak_no_cr d, hr, lineBreak_no_cr d⟩
  exact this n x [] hk hs hr

theorem laids_text_leaf (n d : Nat) (x : Xml) (hk : x.kids = []) (hr : '\r' ∉ x.text) : (laids n d x).text = x.text := by
  induction n generalizing x with
  | zero => rfl
  | succ n ih =>
    have ht : (laid d x).text = x.text := by rw [laid_text, if_pos hk, newlines_plain hr]
    rw [laids, ih, ht]
    · rw [laid_kids, hk]; rfl
    · rw [ht]; exact hr

theorem flatValue_plain {v : Str} (h : '\t' ∉ v ∧ '\n' ∉ v ∧ '\r' ∉ v) : flatValue v = v := by
  unfold flatValue
  rw [newlines_plain h.2.2]
  conv => rhs; rw [← List.map_id v]
  refine List.map_congr_left fun c hc => ?_
  rw [if_neg]
  · rfl
  · rintro (rfl | rfl)
    · exact h.1 hc
    · exact h.2.1 hc

theorem flatValue_eq_self {v : Str} (h : flatValue v = v) : '\t' ∉ v ∧ '\n' ∉ v ∧ '\r' ∉ v := by
  have hv : ∀ c ∈ flatValue v, c ≠ '\t' ∧ c ≠ '\n' ∧ c ≠ '\r' := by
    intro c hc
    unfold flatValue at hc
    obtain ⟨b, hb, rfl⟩ := List.mem_map.1 hc
    by_cases hc : b = '\t' ∨ b = '\n'
    · rw [if_pos hc]; decide
    · rw [if_neg hc]
      exact ⟨fun e => hc (.inl e), fun e => hc (.inr e), fun e => newlines_no_cr v (e ▸ hb)⟩
  rw [h] at hv
  exact ⟨fun hc => (hv _ hc).1 rfl, fun hc => (hv _ hc).2.1 rfl, fun hc => (hv _ hc).2.2 rfl⟩

theorem attrs_plain {as : List (Key × Str)} (h : ∀ a ∈ as, '\t' ∉ a.2 ∧ '\n' ∉ a.2 ∧ '\r' ∉ a.2) :
    (as.map fun a => (a.1, flatValue a.2)) = as := by
  conv => rhs; rw [← List.map_id as]
  refine List.map_congr_left fun a ha => ?_
  rw [flatValue_plain (h a ha)]
  rfl

theorem attrs_of_plain {as : List (Key × Str)} (h : (as.map fun a => (a.1, flatValue a.2)) = as) :
    ∀ a ∈ as, '\t' ∉ a.2 ∧ '\n' ∉ a.2 ∧ '\r' ∉ a.2 := by
  intro x hx
  obtain ⟨i, hi, e⟩ := List.getElem_of_mem hx
  have h2 : (as.map fun a => (a.1, flatValue a.2))[i]? = as[i]? := by rw [h]
  rw [List.getElem?_map, List.getElem?_eq_getElem hi, Option.map_some, e, Option.some_inj] at h2
  exact flatValue_eq_self (congrArg Prod.snd h2)

mutual
theorem reload_laid (d : Nat) : (x : Xml) → Every Smooth x → Reload x (laid d x)
  | .node t as s [], h => by
    obtain ⟨h1, h2⟩ := h.here
    rw [laid, attrs_plain (as := as) h1, newlines_plain (s := s) (h2 rfl)]
    exact .leaf t as s
  | .node t as s (x :: l), h => by
    obtain ⟨h1, _⟩ := h.here
    rw [laid, attrs_plain (as := as) h1, laidAll]
    exact .node t as s _ x _ l _ (reload_laid (d + 1) x (h.kid (by simp [Xml.kids]))) (reload_laidAll (d + 1) l fun k hk => h.kid (by simp [Xml.kids, hk]))
theorem reload_laidAll (d : Nat) : (l : List Xml) → (∀ x ∈ l, Every Smooth x) → ReloadAll l (laidAll d l)
  | [], _ => .nil
  | x :: l, h => .cons _ _ _ _ (reload_laid d x (h x (by simp))) (reload_laidAll d l fun k hk => h k (by simp [hk]))
end

mutual
theorem smooth_of_reload (d : Nat) : (x : Xml) → Reload x (laid d x) → Every Smooth x
  | .node t as s [], h => by
    rw [laid] at h
    have e : ∃ a b, Reload (.node t as s []) (.node t a b []) ∧ a = (as.map fun a => (a.1, flatValue a.2)) ∧ b = newlines s := ⟨_, _, h, rfl, rfl⟩
    obtain ⟨a, b, h, ha, hb⟩ := e
    cases h
    refine .node _ _ _ _ ⟨fun x hx => ?_, fun _ hr => newlines_no_cr s (hb ▸ hr)⟩ (by simp)
    exact attrs_of_plain ha.symm x hx
  | .node t as s (x :: l), h => by
    rw [laid, laidAll] at h
    have e : ∃ a b, Reload (.node t as s (x :: l)) (.node t a b (laid (d + 1) x :: laidAll (d + 1) l)) ∧ a = (as.map fun a => (a.1, flatValue a.2)) :=
      ⟨_, _, h, rfl⟩
    obtain ⟨a, b, h, ha⟩ := e
    cases h with
    | node _ _ _ _ _ _ _ _ hx hl =>
    refine .node _ _ _ _ ⟨fun y hy => ?_, fun e => by cases e⟩ ?_
    · exact attrs_of_plain ha.symm y hy
    · intro k hk
      rcases List.mem_cons.1 hk with e | hk
      · rw [e]; exact smooth_of_reload (d + 1) x hx
      · exact smooth_of_reloads (d + 1) l hl k hk
theorem smooth_of_reloads (d : Nat) : (l : List Xml) → ReloadAll l (laidAll d l) → ∀ x ∈ l, Every Smooth x
  | [], _ => by simp
  | x :: l, h => by
    rw [laidAll] at h
    cases h with
    | cons _ _ _ _ h1 h2 =>
      intro y hy
      rcases List.mem_cons.1 hy with e | hy
      · rw [e]; exact smooth_of_reload d x h1
      · exact smooth_of_reloads d l h2 y hy
end

end Verif.Lemmas
