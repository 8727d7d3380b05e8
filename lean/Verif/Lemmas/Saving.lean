import Verif.Lemmas.Program
import Verif.Lemmas.PairTable
import Verif.Lemmas.AdminTool
import Verif.Spec.Saving
/-!
# When saving stops: the check of the methods
-/
namespace Verif.Lemmas
open Verif Verif.Model Verif.Spec

/-- the classes of values an accessor of the writer can be given -/
inductive Shape
  | str | lit | num | bool | ref | limit
  deriving DecidableEq, Repr

def kindShape : RKind → Shape
  | .lit | .litPlain | .litText | .litNonblank | .revision => .lit
  | .float | .floats | .time | .numerical | .integer | .positive | .numericals => .num
  | .boolean => .bool
  | .limit => .limit
  | .ref | .refTo _ | .refDest => .ref
  | .raw | .rawNonblank => .str

def itemShape : Item → Option Shape
  | .prim k => some (kindShape k)
  | .attr _ .raw => some .str
  | .attr _ _ => some .lit
  | .name => some .str
  | _ => none

def takesShape : WKind → Shape → Bool
  | .lit, .lit | .lit, .num | .lit, .bool | .numerical, .num | .ref, .ref | .limit, .limit | .raw, .str | .getValue, .lit | .getValue, .ref
  | .getText, .lit => true
  | _, _ => false

/-- attributes without values -/
def noValues : Item → Bool
  | .guard _ _ | .want _ _ | .crash _ => true
  | _ => false

def primFine (k : WKind) (i : Item) : Bool := noValues i || match itemShape i with
  | some s => takesShape k s
  | none => false

def attrFine (k : WAKind) (i : Item) : Bool := noValues i || match k, i with
  | .raw, i => itemShape i == some .str
  | .getValue, i => itemShape i == some .lit
  | .mapped m, .attr _ (.mapped m') => m == m'
  | _, _ => false

/-- these conditions exclude that all of the attributes are not set -/
def excused (strict : Bool) (N : List Need) (cs : List Cond) : Bool := N.any fun n =>
  let n := match n with
    | .strict m => if strict then m else n
    | _ => n
  match n with
  | .oneOf fs => fs.all fun f => cs.any fun c => match c with
    | .none gs => gs.contains (f, [])
    | _ => false
  | _ => false

/-- a method of the writer is called for objects a method of the reader makes, though not all that was read is written -/
def morePairs : List (Key × Key) := [
  (k!"readEmphasisText_EmphasisText", k!"setEmphasisText_E_EmphasisText"), (k!"readIndexEntry_IndexEntry", k!"setIndexEntry_IE_IndexEntry"),
  (k!"readTt_Tt", k!"setTt_TT_Tt"), (k!"readARPackageElements_TriggerInterface", k!"writeTriggerInterface_TriggerInterface"),
  (k!"getTransformationComSpecProps_EndToEndTransformationComSpecProps", k!"writeReceiverComSpec_ReceiverComSpec_L1160"),
  (k!"readModeDeclarationMappingSetModeDeclarationMappings_ModeDeclarationMapping", k!"writeModeDeclarationMapping_ModeDeclarationMapping"),
  (k!"readSwcInternalBehaviorEvents_InternalTriggerOccurredEvent", k!"writeTriggerInterface_TriggerInterface")]

def handed (rk wk : Key) : Bool := ((pairs rk).any fun p => p.wk == wk) || morePairs.any fun e => e.1 == rk && e.2 == wk

def eachFine (strict : Bool) (N : List Need) (f : Key) (v : List Key) (cases : List Case) (other : Other) : Item → Bool
  | .objs alts => alts.all fun a => match readers a.2 with
    | none => false
    | some b => (!v.isEmpty && !v.any (armodel.sub b.cls)) || match cases.find? fun k => k.takes b.cls with
      | some k => handed a.2 k.body
      | none => other == .skip || !strict || other == .unsupported && N.contains (.strict (.never f b.cls))
  | i => noValues i

/-- a method of the writer raises no exception for objects with these attributes, other than for those the conditions exclude -/
def fineW (strict : Bool) (N : List Need) (ss : List RSlot) : List Cond → WB → Bool
  | _, .nil => true
  | cs, .attr _ k f r | cs, .text k f r => (ss.all fun s => !hits f s.key || attrFine k s.item) && fineW strict N ss cs r
  | cs, .prim _ k f r | cs, .oprim _ _ k f r => (ss.all fun s => !hits f s.key || primFine k s.item) && fineW strict N ss cs r
  | cs, .each f v _ cases other r => (ss.all fun s => !hits f s.key || eachFine strict N f v cases other s.item) && fineW strict N ss cs r
  | cs, .wrap c _ b r | cs, .when c b r => fineW strict N ss (c :: cs) b && fineW strict N ss cs r
  | cs, .fail e a r => (!(a || strict) || (excused strict N cs && (stopErrors strict).contains e)) && fineW strict N ss cs r

def finePair (strict : Bool) (rk wk : Key) : Bool := match readers rk, writers wk with
  | some b, some w => fineW strict (stopsOf b.cls) b.slots [] w
  | _, _ => false

def finePairs (strict : Bool) (rk : Key) (ps : List Pair) : Bool := ps.all fun p => finePair strict rk p.wk

end Verif.Lemmas
