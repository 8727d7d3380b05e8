import Mathlib.Logic.Relation
import Verif.Model.Document
/-!
# Specification: rearranging a file
-/
namespace Verif.Spec
open Verif Verif.Model

/-- The elements whose children are members of one list, or alternatives of which the first one is taken, whatever their tags are. -/
def mixedLists : List Key := [
  k!"ARGUMENTS", k!"CALL-POINTS", k!"COMM-CONTROLLERS", k!"COMPOUND-PRIMITIVE-ARGUMENTS", k!"COMPU-CONST", k!"COMPU-DEFAULT-VALUE", k!"CONNECTORS",
  k!"CONTAINERS", k!"COUPLING-PORT-STRUCTURAL-ELEMENTS", k!"DATA-MAPPINGS", k!"DIAG-EVENT-DEBOUNCE-ALGORITHM", k!"ECU-COMM-PORT-INSTANCES", k!"ELEMENTS",
  k!"ENTITYS", k!"EVENTS", k!"EXECUTION-TIMES", k!"FIELDS", k!"FRAME-TRIGGERINGS", k!"HEAP-USAGES", k!"INIT-VALUE", k!"INVALID-VALUE",
  k!"MODE-GROUP-IREF", k!"NM-CLUSTER-COUPLINGS", k!"NM-CLUSTERS", k!"NM-NODES", k!"PARAMETER-VALUES", k!"PARAMETERS", k!"PHYSICAL-CHANNELS",
  k!"PORT-INTERFACE-MAPPINGS", k!"PORTS", k!"PROVIDED-COM-SPECS", k!"RAM-BLOCK-INIT-VALUE", k!"REFERENCE-VALUES", k!"REFERENCES", k!"REQUIRED-COM-SPECS",
  k!"ROM-BLOCK-INIT-VALUE", k!"SERVER-CALL-POINTS", k!"SERVICE-NEEDS", k!"STACK-USAGES", k!"SUB-CONTAINERS", k!"TIMEOUT-SUBSTITUTION-VALUE",
  k!"TP-CONFIGURATION", k!"TRACED-FAILURES", k!"TRANSFORMATION-COM-SPEC-PROPS", k!"TRANSFORMATION-COM-SPEC-PROPSS", k!"TYPE-MAPPING", k!"VALUE",
  k!"VALUE-ACCESS", k!"VALUE-SPEC"]

/-- Two neighbours are exchanged somewhere in a tree: two children with different tags (not in a mixed list), or two attributes with different names. -/
inductive Exchange : Xml → Xml → Prop
  | kids (t : Key) (as : List (Key × Str)) (s : Str) (l r : List Xml) (a b : Xml) : a.tag ≠ b.tag → t ∉ mixedLists →
      Exchange (.node t as s (l ++ a :: b :: r)) (.node t as s (l ++ b :: a :: r))
  | attrs (t : Key) (as bs : List (Key × Str)) (a b : Key × Str) (s : Str) (l : List Xml) : a.1 ≠ b.1 →
      Exchange (.node t (as ++ a :: b :: bs) s l) (.node t (as ++ b :: a :: bs) s l)
  | deep (t : Key) (as : List (Key × Str)) (s : Str) (l r : List Xml) (y y' : Xml) : Exchange y y' →
      Exchange (.node t as s (l ++ y :: r)) (.node t as s (l ++ y' :: r))

/-- any number of exchanges -/
def Rearranged : Xml → Xml → Prop := Relation.ReflTransGen Exchange

end Verif.Spec
