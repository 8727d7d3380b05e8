import Verif.Lemmas.Document
import Verif.Lemmas.MarkupMain
/-!
# Every name the writer uses is an XML name
-/
namespace Verif.Lemmas
open Verif Verif.Model Verif.Spec

/-- the digits of a key in base 256, last first -/
def keyDigits : Nat → Nat → List Nat
  | 0, _ => []
  | n + 1, k => if k = 0 then [] else k % 256 :: keyDigits n (k / 256)

theorem keyDigits_eq (n k : Nat) (h : k < 256 ^ n) : keyDigits n k = Nat.digits 256 k := by
  induction n generalizing k with
  | zero =>
    have : k = 0 := by simpa using h
    subst this; rfl
  | succ n ih =>
    rw [keyDigits]
    split
    · next h0 => subst h0; rfl
    · next h0 =>
      rw [Nat.digits_def' (by decide) (Nat.pos_of_ne_zero h0), ih]
      rw [Nat.pow_succ] at h
      exact Nat.div_lt_of_lt_mul (by rwa [Nat.mul_comm])

def letterB (d : Nat) : Bool := (Nat.ble 65 d && Nat.ble d 90) || (Nat.ble 97 d && Nat.ble d 122)

def nameDigitB (d : Nat) : Bool := letterB d || (Nat.ble 48 d && Nat.ble d 58) || d == 45

/-- sufficient for a key to be a name: a letter, then letters, digits, colons and hyphens; not `xmlns` -/
def nameB (k : Key) : Bool :=
  Nat.blt k (256 ^ 128) && (match (keyDigits 128 k).reverse with
    | [] => false
    | d :: l => letterB d && l.all nameDigitB && !(([120, 109, 108, 110, 115] : List Nat).isPrefixOf (d :: l)))

theorem ofNat_toNat_lt {d : Nat} (h : d < 256) : (Char.ofNat d).toNat = d := by
  exact toNat_ofNat d (by omega)

theorem nameDigit_char (nc : NameChars) {d : Nat} (h : nameDigitB d = true) : nc.char (Char.ofNat d) = true := by
  have hd : d < 128 := by
    simp only [nameDigitB, letterB, Bool.or_eq_true, Bool.and_eq_true, Nat.ble_eq, beq_iff_eq] at h
    omega
  have e : (Char.ofNat d).toNat = d := ofNat_toNat_lt (by omega)
  rw [nc.char_ascii _ (by omega)]
  have : ∀ d < 128, nameDigitB d = true → (asciiWord (Char.ofNat d) || Char.ofNat d == '-' || Char.ofNat d == '.' || Char.ofNat d == ':') = true := by
    decide +kernel
  exact this d hd h

theorem letter_start (nc : NameChars) {d : Nat} (h : letterB d = true) : nc.start (Char.ofNat d) = true := by
  have hd : d < 128 := by
    simp only [letterB, Bool.or_eq_true, Bool.and_eq_true, Nat.ble_eq] at h
    omega
  have e : (Char.ofNat d).toNat = d := ofNat_toNat_lt (by omega)
  rw [nc.start_ascii _ (by omega)]
  have : ∀ d < 128, letterB d = true → ((asciiWord (Char.ofNat d) && !asciiDigit (Char.ofNat d)) || Char.ofNat d == ':') = true := by
    decide +kernel
  exact this d hd h

theorem name_ok (nc : NameChars) {k : Key} (h : nameB k = true) :
    XmlName nc (keyName k) ∧ keyName k ≠ "xmlns".toList ∧ ¬ "xmlns:".toList <+: keyName k := by
  rw [nameB, Bool.and_eq_true] at h
  obtain ⟨h1, h2⟩ := h
  have hk : k < 256 ^ 128 := by simpa [Nat.blt_eq] using h1
  have e : keyName k = ((keyDigits 128 k).reverse).map Char.ofNat := by
    rw [keyName, keyDigits_eq 128 k hk, List.map_reverse]
  have hlt : ∀ d ∈ (keyDigits 128 k).reverse, d < 256 := by
    rw [keyDigits_eq 128 k hk]
    intro d hd
    exact Nat.digits_lt_base (by decide) (List.mem_reverse.1 hd)
  rw [e]
  cases hr : (keyDigits 128 k).reverse with
  | nil => rw [hr] at h2; cases h2
  | cons d l =>
    rw [hr] at h2 hlt
    simp only [Bool.and_eq_true, Bool.not_eq_true'] at h2
    obtain ⟨⟨h2, h3⟩, h4⟩ := h2
    have key : ∀ r : Str, ¬ ("xmlns".toList ++ r = (d :: l).map Char.ofNat) := by
      intro r hr
      have hr := congrArg (List.map Char.toNat) hr
      rw [List.map_append, List.map_map] at hr
      have e2 : (d :: l).map (Char.toNat ∘ Char.ofNat) = d :: l := by
        conv => rhs; rw [← List.map_id (d :: l)]
        exact List.map_congr_left fun x hx => ofNat_toNat_lt (hlt x hx)
      rw [e2] at hr
      have : ([120, 109, 108, 110, 115] : List Nat) <+: d :: l := ⟨_, hr⟩
      rw [← List.isPrefixOf_iff_prefix, h4] at this
      cases this
    refine ⟨⟨_, _, rfl, letter_start nc h2, ?_⟩, ?_, ?_⟩
    · intro x hx
      obtain ⟨y, hy, rfl⟩ := List.mem_map.1 hx
      exact nameDigit_char nc (List.all_eq_true.1 h3 y hy)
    · intro hx
      exact key [] (by rw [hx]; rfl)
    · rintro ⟨r, hr⟩
      exact key (':' :: r) (by rw [← hr]; rfl)

/-! ### Colons -/

/-- a name without a colon -/
def tagB (k : Key) : Bool := nameB k && !(keyDigits 128 k).contains 58

/-- the two attributes with a prefix are the usual ones -/
def attrB (k : Key) : Bool := nameB k && (!(keyDigits 128 k).contains 58 || k == k!"xml:space" || k == k!"xsi:schemaLocation")

/-- tags have no prefix, and attributes only the usual ones -/
def NoColons (x : Xml) : Prop := ':' ∉ keyName x.tag ∧ ∀ a ∈ x.attrs, ':' ∉ keyName a.1 ∨ a.1 = k!"xml:space" ∨ a.1 = k!"xsi:schemaLocation"

def NamedX (nc : NameChars) (x : Xml) : Prop := GoodNames nc x ∧ NoColons x

theorem noColon_of {k : Key} (h : nameB k = true) (hc : (keyDigits 128 k).contains 58 = false) : ':' ∉ keyName k := by
  rw [nameB, Bool.and_eq_true] at h
  have hk : k < 256 ^ 128 := by simpa [Nat.blt_eq] using h.1
  rw [keyName, List.mem_reverse, List.mem_map]
  rintro ⟨d, hd, h1⟩
  have hlt := Nat.digits_lt_base (by decide : 1 < 256) hd
  have h2 := congrArg Char.toNat h1
  rw [ofNat_toNat_lt hlt] at h2
  rw [← keyDigits_eq 128 k hk, show d = 58 from h2] at hd
  rw [List.contains_eq_mem, decide_eq_false_iff_not] at hc
  exact hc hd

theorem tag_ok {k : Key} (h : tagB k = true) : nameB k = true ∧ ':' ∉ keyName k := by
  rw [tagB, Bool.and_eq_true, Bool.not_eq_true'] at h
  exact ⟨h.1, noColon_of h.1 h.2⟩

theorem attr_ok {k : Key} (h : attrB k = true) : nameB k = true ∧ (':' ∉ keyName k ∨ k = k!"xml:space" ∨ k = k!"xsi:schemaLocation") := by
  rw [attrB, Bool.and_eq_true, Bool.or_eq_true, Bool.or_eq_true, Bool.not_eq_true', beq_iff_eq, beq_iff_eq] at h
  refine ⟨h.1, ?_⟩
  rcases h.2 with (h2 | h2) | h2
  · exact .inl (noColon_of h.1 h2)
  · exact .inr (.inl h2)
  · exact .inr (.inr h2)

theorem every_imp {P Q : Xml → Prop} (h : ∀ x, P x → Q x) {x : Xml} (hx : Every P x) : Every Q x := by
  induction hx with
  | node t as s kids h1 _ ih => exact .node t as s kids (h _ h1) ih

/-! ### The names of a writer method -/

/-- the attributes a method may add to the element it is given, in this order -/
def topAttrs : WB → List Key
  | .nil => []
  | .attr n _ _ r => n :: topAttrs r
  | .text _ _ r | .prim _ _ _ r | .oprim _ _ _ _ r | .each _ _ _ _ _ r | .wrap _ _ _ r | .fail _ _ r => topAttrs r
  | .when _ b r => topAttrs b ++ topAttrs r

def distinctB : List Key → Bool
  | [] => true
  | k :: l => !l.contains k && distinctB l

/-- all names are XML names and no element gets an attribute twice -/
def namesB : WB → Bool
  | .nil => true
  | .attr n _ _ r => attrB n && namesB r
  | .text _ _ r | .each _ _ _ _ _ r | .fail _ _ r => namesB r
  | .prim t _ _ r => tagB t && namesB r
  | .oprim u t _ _ r => tagB u && tagB t && namesB r
  | .wrap _ t b r => tagB t && distinctB (topAttrs b) && namesB b && namesB r
  | .when _ b r => namesB b && namesB r

def bodyB (b : WB) : Bool := (topAttrs b).isEmpty && namesB b

theorem distinct_nodup {l : List Key} (h : distinctB l = true) : l.Nodup := by
  induction l with
  | nil => exact List.nodup_nil
  | cons k l ih =>
    rw [distinctB, Bool.and_eq_true] at h
    refine List.nodup_cons.2 ⟨?_, ih h.2⟩
    simpa using h.1

/-- what a method adds -/
structure Fine (nc : NameChars) (ns : List Key) (o : Out) : Prop where
  names : (o.attrs.map Prod.fst).Sublist ns
  good : ∀ a ∈ o.attrs, attrB a.1 = true
  kids : ∀ x ∈ o.kids, Every (NamedX nc) x

theorem Fine.app {nc : NameChars} {ns ms : List Key} {a b : Out} (ha : Fine nc ns a) (hb : Fine nc ms b) : Fine nc (ns ++ ms) (a.app b) := by
  refine ⟨?_, ?_, ?_⟩
  · simp only [Out.app, List.map_append]
    exact ha.names.append hb.names
  · intro x hx
    rcases List.mem_append.1 hx with hx | hx
    · exact ha.good x hx
    · exact hb.good x hx
  · intro x hx
    rcases List.mem_append.1 hx with hx | hx
    · exact ha.kids x hx
    · exact hb.kids x hx

theorem Fine.empty (nc : NameChars) (ns : List Key) : Fine nc ns {} := ⟨by simp, by simp, by simp⟩

theorem Fine.seqE {nc : NameChars} {ns ms : List Key} {a b : Except PyErr Out} {o : Out} (h : seqE a b = .ok o)
    (ha : ∀ x, a = .ok x → Fine nc ns x) (hb : ∀ x, b = .ok x → Fine nc ms x) : Fine nc (ns ++ ms) o := by
  unfold Model.seqE at h
  cases a with
  | error e => cases h
  | ok x => cases b with
    | error e => cases h
    | ok y => cases h; exact (ha x rfl).app (hb y rfl)

theorem named_of {nc : NameChars} {t : Key} {as : List (Key × Str)} (ht : tagB t = true) (ha : ∀ a ∈ as, attrB a.1 = true)
    (hn : (as.map Prod.fst).Nodup) (s : Str) (kids : List Xml) : NamedX nc (.node t as s kids) :=
  ⟨⟨(name_ok nc (tag_ok ht).1).1, fun a h => name_ok nc (attr_ok (ha a h)).1, hn⟩, (tag_ok ht).2, fun a h => (attr_ok (ha a h)).2⟩

theorem optAttr_names (k : Key) (v : Option Str) : ((optAttr k v).map Prod.fst).Sublist [k] := by cases v <;> simp [optAttr]

theorem writeKind_good {py : Py} {repr : py.F → Str} {nc : NameChars} {k : WKind} {t : Key} {s : Scalar py.F} {y : Xml} (h : writeKind py repr k t s = .ok y)
    (ht : tagB t = true) : Every (NamedX nc) y := by
  have leaf : ∀ (ns : List Key) (as : List (Key × Str)) (v : Str), (as.map Prod.fst).Sublist ns → (ns.all attrB = true ∧ distinctB ns = true) →
      Every (NamedX nc) (.leaf t as v) := by
    intro ns as v hs hn
    refine .node _ _ _ _ (named_of ht ?_ (hs.nodup (distinct_nodup hn.2)) _ _) (by simp)
    intro a ha
    exact List.all_eq_true.1 hn.1 _ (hs.subset (List.mem_map_of_mem ha))
  have m : ∀ t u, ((metaAttrs t u).map Prod.fst).Sublist [k!"T", k!"UUID"] := by
    intro t u
    rw [metaAttrs, List.map_append]
    exact (optAttr_names _ t).append (optAttr_names _ u)
  unfold writeKind at h
  split at h
  all_goals try (cases h; done)
  all_goals
    cases h
    first
      | exact leaf _ _ _ (m _ _) (by decide +kernel)
      | exact leaf [] _ _ (List.Sublist.refl _) (by decide +kernel)
      | exact leaf [k!"T", k!"UUID", k!"SHORT-LABEL"] _ _ (by rw [List.map_append]; exact (m _ _).append (optAttr_names _ _)) (by decide +kernel)
      | exact leaf [k!"T", k!"UUID", k!"INTERVAL-TYPE"] _ _ (by rw [List.map_append]; exact (m _ _).append (optAttr_names _ _)) (by decide +kernel)
      | exact leaf [k!"BASE", k!"DEST"] _ _ (by rw [List.map_append]; exact (optAttr_names _ _).append (optAttr_names _ _)) (by decide +kernel)

theorem mapE_fine {α β : Type} {f : α → Except PyErr β} {P : β → Prop} (hf : ∀ a b, f a = .ok b → P b) {l : List α} {r : List β}
    (h : mapE f l = .ok r) : ∀ b ∈ r, P b := by
  induction l generalizing r with
  | nil => cases h; simp
  | cons a l ih =>
    unfold mapE at h
    cases ha : f a with
    | error e => rw [ha] at h; cases h
    | ok b =>
      rw [ha] at h
      cases hl : mapE f l with
      | error e => rw [hl] at h; cases h
      | ok bs =>
        rw [hl] at h
        cases h
        intro x hx
        rcases List.mem_cons.1 hx with rfl | hx
        · exact hf a _ ha
        · exact ih hl x hx

theorem Fine.into {nc : NameChars} {a b : Out} (ha : Fine nc [] a) (hb : Fine nc [] b) : Fine nc [] (a.into b) := by
  unfold Out.into
  split
  · rename_i t as s ks hk
    have hb0 : b.attrs = [] := List.map_eq_nil_iff.1 (List.sublist_nil.1 hb.names)
    refine ⟨ha.names, ha.good, ?_⟩
    intro x hx
    obtain rfl := List.mem_singleton.1 hx
    have hx := ha.kids (.node t as s ks) (by rw [hk]; simp)
    cases hx with
    | node _ _ _ _ h1 h2 =>
      refine .node _ _ _ _ ?_ ?_
      · simpa [NamedX, NoColons, GoodNames, Xml.tag, Xml.attrs, hb0] using h1
      · intro k hk
        rcases List.mem_append.1 hk with hk | hk
        · exact h2 k hk
        · exact hb.kids k hk
  · exact ha.app hb

theorem nest_fine {nc : NameChars} {l : List Out} (h : ∀ o ∈ l, Fine nc [] o) : Fine nc [] (nest l) := by
  induction l with
  | nil => exact Fine.empty nc []
  | cons a l ih => exact (h a (by simp)).into (ih fun o ho => h o (by simp [ho]))

theorem outs_fine {nc : NameChars} {l : List Out} (h : ∀ o ∈ l, Fine nc [] o) : Fine nc [] (outs l) := by
  induction l with
  | nil => exact Fine.empty nc []
  | cons a l ih => exact (h a (by simp)).app (ih fun o ho => h o (by simp [ho]))

theorem arr_fine {nc : NameChars} {arr : Arr} {l : List Out} (h : ∀ o ∈ l, Fine nc [] o) : Fine nc [] (arr.outs l) := by
  cases arr with
  | nested => exact nest_fine h
  | _ => exact outs_fine h

theorem writeB_fine {py : Py} {repr : py.F → Str} {strict : Bool} {nc : NameChars} {wr : Key → MObj py.F → Except PyErr Out}
    (hwr : ∀ k o out, wr k o = .ok out → Fine nc [] out) (o : MObj py.F) (b : WB) (hb : namesB b = true) (out : Out)
    (h : writeB py repr strict wr o b = .ok out) : Fine nc (topAttrs b) out := by
  induction b generalizing out with
  | nil => cases h; exact Fine.empty nc _
  | attr n k f r ih =>
    simp only [namesB, Bool.and_eq_true] at hb
    refine Fine.seqE (ns := [n]) (ms := topAttrs r) h ?_ (fun x hx => ih hb.2 x hx)
    intro x hx
    unfold writeAttrOf at hx
    split at hx
    · split at hx
      · cases hx
      · cases hx; exact Fine.empty nc _
      · cases hx; exact ⟨by simp, by simpa using hb.1, by simp⟩
    · cases hx
    · cases hx; exact Fine.empty nc _
  | text k f r ih =>
    simp only [namesB] at hb
    refine Fine.seqE (ns := []) (ms := topAttrs r) h ?_ (fun x hx => ih hb x hx)
    intro x hx
    unfold writeTextOf at hx
    split at hx
    · split at hx
      · cases hx
      · cases hx; exact Fine.empty nc _
      · cases hx; exact ⟨by simp, by simp, by simp⟩
    · cases hx
    · cases hx; exact Fine.empty nc _
  | prim t k f r ih =>
    simp only [namesB, Bool.and_eq_true] at hb
    refine Fine.seqE (ns := []) (ms := topAttrs r) h ?_ (fun x hx => ih hb.2 x hx)
    intro x hx
    cases hm : mapE (writePrim py repr t k) (o.get f) with
    | error e => rw [hm] at hx; cases hx
    | ok ys =>
      rw [hm] at hx; cases hx
      refine ⟨by simp, by simp, ?_⟩
      refine mapE_fine (fun a b hab => ?_) hm
      unfold writePrim at hab
      split at hab
      · exact writeKind_good hab hb.1
      · cases hab
  | oprim u t k f r ih =>
    simp only [namesB, Bool.and_eq_true] at hb
    refine Fine.seqE (ns := []) (ms := topAttrs r) h ?_ (fun x hx => ih hb.2 x hx)
    intro x hx
    cases hm : mapE (writePrim py repr t k) (o.get f) with
    | error e => rw [hm] at hx; cases hx
    | ok ys =>
      rw [hm] at hx; cases hx
      refine ⟨by simp, by simp, ?_⟩
      intro z hz
      obtain ⟨y, hy, rfl⟩ := List.mem_map.1 hz
      refine .node _ _ _ _ (named_of hb.1.1 (by simp) (by simp) _ _) ?_
      intro w hw
      simp only [List.mem_singleton] at hw
      subst hw
      have := mapE_fine (P := Every (NamedX nc)) (fun a b hab => by
        unfold writePrim at hab
        split at hab
        · exact writeKind_good hab hb.1.2
        · cases hab) hm
      exact this w hy
  | each f v s cases' other r ih =>
    simp only [namesB] at hb
    refine Fine.seqE (ns := []) (ms := topAttrs r) h ?_ (fun x hx => ih hb x hx)
    intro x hx
    cases hm : mapE (writeCase py strict wr cases' other) (if s.sort then byName (o.view f v) else o.view f v) with
    | error e => rw [hm] at hx; cases hx
    | ok ys =>
      rw [hm] at hx; cases hx
      refine arr_fine (mapE_fine (fun a b hab => ?_) hm)
      unfold writeCase at hab
      split at hab
      · exact hwr _ _ _ hab
      · split at hab <;> cases hab
        exact Fine.empty nc _
  | wrap c t b r ihb ihr =>
    simp only [namesB, Bool.and_eq_true] at hb
    refine Fine.seqE (ns := []) (ms := topAttrs r) h ?_ (fun x hx => ihr hb.2 x hx)
    intro x hx
    split at hx
    · cases hm : writeB py repr strict wr o b with
      | error e => rw [hm] at hx; cases hx
      | ok y =>
        rw [hm] at hx; cases hx
        have hy := ihb hb.1.2 y hm
        refine ⟨by simp, by simp, ?_⟩
        intro z hz
        simp only [List.mem_singleton] at hz
        subst hz
        exact .node _ _ _ _ (named_of hb.1.1.1 hy.good (hy.names.nodup (distinct_nodup hb.1.1.2)) _ _) hy.kids
    · cases hx; exact Fine.empty nc _
  | when c b r ihb ihr =>
    simp only [namesB, Bool.and_eq_true] at hb
    refine Fine.seqE (ns := topAttrs b) (ms := topAttrs r) h ?_ (fun x hx => ihr hb.2 x hx)
    intro x hx
    split at hx
    · exact ihb hb.1 x hx
    · cases hx; exact Fine.empty nc _
  | fail e a r ih =>
    simp only [namesB] at hb
    refine Fine.seqE (ns := []) (ms := topAttrs r) h ?_ (fun x hx => ih hb x hx)
    intro x hx
    split at hx
    · cases hx
    · cases hx; exact Fine.empty nc _

theorem writeObj_fine {py : Py} {repr : py.F → Str} {strict : Bool} {nc : NameChars} {T : Key → Option WB} (hT : ∀ k b, T k = some b → bodyB b = true)
    (n : Nat) (k : Key) (o : MObj py.F) (out : Out) (h : writeObj py repr strict T n k o = .ok out) : Fine nc [] out := by
  induction n generalizing k o out with
  | zero => cases h
  | succ n ih =>
    rw [writeObj] at h
    cases hb : T k with
    | none => rw [hb] at h; cases h
    | some b =>
      rw [hb] at h
      have := hT k b hb
      rw [bodyB, Bool.and_eq_true, List.isEmpty_iff] at this
      have h2 := writeB_fine (nc := nc) ih o b this.2 out h
      rwa [this.1] at h2

theorem writeTable_names : Gen.writeTable.all (fun _ b => bodyB b) = true := by decide +kernel

theorem writers_names (k : Key) (b : WB) (h : writers k = some b) : bodyB b = true := by
  unfold writers at h
  split at h
  · cases h; decide +kernel
  · exact (Bst.all_toList _ _).1 writeTable_names _ (Bst.find?_mem h)

theorem save_named {py : Py} {repr : py.F → Str} {strict : Bool} {d : MObj py.F} {y : Xml} (nc : NameChars) (h : save py repr strict d = .ok y) :
    Every (NamedX nc) y := by
  unfold save at h
  cases hw : writeObj py repr strict writers (withSchema py d).depth k!"save" (withSchema py d) with
  | error e => rw [hw] at h; cases h
  | ok out =>
    rw [hw] at h
    have hf := writeObj_fine (nc := nc) writers_names _ _ _ _ hw
    split at h
    · next e heq => cases heq
    · next o heq =>
      cases heq
      split at h
      · next x hk => cases h; exact hf.kids _ (by rw [hk]; simp)
      · cases h

theorem save_names {py : Py} {repr : py.F → Str} {strict : Bool} {d : MObj py.F} {y : Xml} (nc : NameChars) (h : save py repr strict d = .ok y) :
    Every (GoodNames nc) y := every_imp (fun _ h => h.1) (save_named nc h)

end Verif.Lemmas
