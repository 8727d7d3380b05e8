import Verif.Model.Document
import Verif.Model.Accessors
import Verif.Model.Program
import Verif.Spec.Program
import Verif.Gen.Unsaved
/-!
# Specification for C86: attributes that can be set, loaded, written

Independent of how a document is saved or loaded.
-/
namespace Verif.Spec
open Verif Verif.Model

/-- objects of a class have a method that sets this attribute, or adds to it, and does nothing else -/
def Settable (c f : Key) : Prop := ∃ m ign, resolve c m = some (.set f ign) ∨ ∃ dedup, resolve c m = some (.add f ign dedup)

/-- `g` is `f`, or an attribute `f.x` of the object in `f` -/
def Concerns (f g : Key) : Prop := g = f ∨ ∃ n, g / 256 ^ n = f * 256 + 46

/-- a reader method fills this attribute -/
def Fills (b : RBody) (f : Key) : Prop := ∃ s ∈ b.slots, Concerns f s.field

/-- the attributes a test looks at -/
def condUses : Cond → List Key
  | .any fs => fs.map Prod.fst
  | .none fs => fs.map Prod.fst
  | _ => []

/-- the attributes a writer method looks at -/
def uses : WB → List Key
  | .nil => []
  | .attr _ _ f r | .text _ f r | .prim _ _ f r | .oprim _ _ _ f r | .each f _ _ _ _ r => f :: uses r
  | .wrap c _ b r | .when c b r => condUses c ++ uses b ++ uses r
  | .fail _ _ r => uses r

/-- the calls of other writer methods for the objects in an attribute -/
def branches : WB → List Case
  | .nil => []
  | .attr _ _ _ r | .text _ _ r | .prim _ _ _ r | .oprim _ _ _ _ r | .fail _ _ r => branches r
  | .each _ _ _ cs _ r => cs ++ branches r
  | .wrap _ _ b r | .when _ b r => branches b ++ branches r

/-- the methods of the writer that may be called for an object of a class -/
def Handed (c w : Key) : Prop := w = k!"save" ∨ ∃ w0 b, writers w0 = some b ∧ ∃ e ∈ branches b, e.takes c = true ∧ e.body = w

/-- no method of the writer that may be called for an object of this class looks at this attribute -/
def Unwritten (c f : Key) : Prop := f ≠ k!"short_name" ∧ ∀ w b, Handed c w → writers w = some b → ∀ g ∈ uses b, ¬ Concerns f g

/-- An object somewhere in a document gets values in an attribute that no method of the writer looks at. -/
inductive Enriched {F : Type} : MObj F → MObj F → Prop
  | here {c f : Key} {fs : List ((Key × Bool) × List (MObj F))} (vs : List (MObj F)) (h : Unwritten c f) :
      Enriched (.mk c fs) (.mk c (fs ++ [((f, false), vs)]))
  | inside {c : Key} {l r : List ((Key × Bool) × List (MObj F))} {a : Key × Bool} {us ws : List (MObj F)} {v v' : MObj F} (h : Enriched v v') :
      Enriched (.mk c (l ++ (a, us ++ v :: ws) :: r)) (.mk c (l ++ (a, us ++ v' :: ws) :: r))

/-- `v` is somewhere in `o`, at a place where the reader, that read `o` with the method `k`, has called the method `k'` -/
inductive ReadAs {F : Type} (T : Key → Option RBody) : Key → MObj F → Key → MObj F → Prop
  | here {k : Key} {o : MObj F} : ReadAs T k o k o
  | inside {k : Key} {b : RBody} {o v w : MObj F} {s : RSlot} {alts : List (Key × Key)} {t k' k'' : Key} {b' : RBody} (hb : T k = some b)
      (hs : slotAt b s.key = some s) (ha : s.item = .objs alts) (ht : altOf alts t = some k') (hb' : T k' = some b') (hv : v ∈ o.vals s.key)
      (hc : v.cls = b'.cls) (h : ReadAs T k' v k'' w) : ReadAs T k o k'' w

/-- the attributes in the list for a method of the reader -/
def unsaved (k : Key) : List Key := (Gen.unsavedTable.find? k).getD []

/-- the classes in the list of an attribute -/
def quiet (f : Key) : List Key := (Gen.unwrittenBy.find? f).getD []

end Verif.Spec
