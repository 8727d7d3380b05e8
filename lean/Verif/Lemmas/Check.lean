import Verif.Spec.Codec
/-!
# A check that a writer method undoes a reader method

`check` compares, for one class, the slots of the reader with the emitters of the writer.  `Lemmas/RoundTrip.lean`
shows that the check is sound, `Gen/Pairs*.lean` evaluate it on all pairs.
-/
namespace Verif.Lemmas
open Verif Verif.Model Verif.Spec

/-- a reader method for an object, the writer method for it, the tag of the element, further conditions -/
structure Pair where
  rk : Key
  wk : Key
  tag : Key
  ex : List Need
  deriving DecidableEq, Repr

/-- what is known about the object that is written -/
structure Ctx where
  cls : Key
  slots : List RSlot
  needs : List Need
  /-- the class of the objects a reader method makes -/
  cl : Key → Option Key
  /-- the attributes that may be saved in another order -/
  S : Key → Key → Bool

/-- an element that a writer method adds -/
inductive Em
  | prim (t : Key) (k : WKind) (f : Key)
  | oprim (u t : Key) (k : WKind) (f : Key)
  | each (f : Key) (v : List Key) (s : Arr) (cases : List Case) (other : Other)
  | wrap (t : Key) (b : WB)

/-- the elements a writer method adds, with the conditions around them -/
def atoms : List Cond → WB → List (List Cond × Em)
  | _, .nil => []
  | cs, .attr _ _ _ r => atoms cs r
  | cs, .text _ _ r => atoms cs r
  | cs, .prim t k f r => (cs, .prim t k f) :: atoms cs r
  | cs, .oprim u t k f r => (cs, .oprim u t k f) :: atoms cs r
  | cs, .each f v s c o r => (cs, .each f v s c o) :: atoms cs r
  | cs, .wrap c t b r => (c :: cs, .wrap t b) :: atoms cs r
  | cs, .when c b r => atoms (c :: cs) b ++ atoms cs r
  | cs, .fail _ _ r => atoms cs r

/-- the attributes a writer method adds -/
def attrAts : List Cond → WB → List (List Cond × Key × WAKind × Key)
  | _, .nil => []
  | cs, .attr n k f r => (cs, n, k, f) :: attrAts cs r
  | cs, .text _ _ r => attrAts cs r
  | cs, .prim _ _ _ r => attrAts cs r
  | cs, .oprim _ _ _ _ r => attrAts cs r
  | cs, .each _ _ _ _ _ r => attrAts cs r
  | cs, .wrap _ _ _ r => attrAts cs r
  | cs, .when c b r => attrAts (c :: cs) b ++ attrAts cs r
  | cs, .fail _ _ r => attrAts cs r

/-- the texts a writer method sets -/
def textAts : List Cond → WB → List (List Cond × WAKind × Key)
  | _, .nil => []
  | cs, .attr _ _ _ r => textAts cs r
  | cs, .text k f r => (cs, k, f) :: textAts cs r
  | cs, .prim _ _ _ r => textAts cs r
  | cs, .oprim _ _ _ _ r => textAts cs r
  | cs, .each _ _ _ _ _ r => textAts cs r
  | cs, .wrap _ _ _ r => textAts cs r
  | cs, .when c b r => textAts (c :: cs) b ++ textAts cs r
  | cs, .fail _ _ r => textAts cs r

/-- `isinstance`, `[]` means all -/
def inView (v : List Key) (c : Key) : Bool := v.isEmpty || v.any (armodel.sub c)

/-- where a path leads in what a writer method writes -/
inductive Loc
  | none
  | body (cs : List Cond) (b : WB)
  | leaf (cs : List Cond) (e : Em) (one : Bool)

def Loc.under (cs : List Cond) : Loc → Loc
  | .none => .none
  | .body ds b => .body (cs ++ ds) b
  | .leaf ds e one => .leaf (cs ++ ds) e one

/-- does a tag match one of the tags of a path -/
def matches1 (ts : List Key) (t : Key) : Bool := ts.any fun t' => t' == 0 || t == t'

/-- the element inside -/
def inner : List Key → Em → Option Em
  | [t], .oprim _ t' k f => if t = t' then some (.prim t k f) else none
  | _, _ => none

/-- the rest of a path, from an emitted element -/
def rest : Path → Em → Option Em
  | .nil, e => some e
  | .all t .nil, e => inner [t] e
  | .first [t] .nil, e => inner [t] e
  | .pick ts .nil, .oprim _ t k f => if ts.contains t && !ts.contains 0 then some (.prim t k f) else none
  | _, _ => none

namespace Ctx
variable (C : Ctx)

/-- no value of the slot has this class -/
def gone (s : RSlot) (c : Key) : Bool := C.needs.any fun n => match n with
  | .never g d => d == c && hits g s.key
  | _ => false

/-- the values read for an alternative can be in the slot and are in the view -/
def shows (v : List Key) (s : RSlot) (a : Key × Key) : Bool := match C.cl a.2 with
  | none => false
  | some c => inView v c && !C.gone s c

/-- values of the slot can be in the view -/
def feeds (f : Key) (v : List Key) (s : RSlot) : Bool := hits f s.key && match s.item with
  | .objs alts => alts.any (C.shows v s)
  | .prim _ | .attr _ _ | .name => true
  | _ => false

def void (f : Key) : Bool := C.needs.any fun n => match n with
  | .empty g => g == f
  | _ => false

/-- the view is always empty -/
def dead (f : Key) (v : List Key) : Bool := C.void f || !C.slots.any (C.feeds f v)

def condDead : Cond → Bool
  | .always => false
  | .any fs => fs.all fun s => C.dead s.1 s.2
  | .none _ => false
  | .cls cs => !cs.any (armodel.sub C.cls)
  | .notcls cs => cs.any (armodel.sub C.cls)

def condTriv : Cond → Bool
  | .always => true
  | .any _ => false
  | .none fs => fs.all fun s => C.dead s.1 s.2
  | .cls cs => cs.any (armodel.sub C.cls)
  | .notcls cs => !cs.any (armodel.sub C.cls)

def emDead : Em → Bool
  | .prim _ _ f => C.dead f []
  | .oprim _ _ _ f => C.dead f []
  | .each f v _ _ _ => C.dead f v
  | .wrap _ _ => false

/-- the elements that can be written -/
def ats (W : WB) : List (List Cond × Em) :=
  ((atoms [] W).filter fun a => !a.1.any C.condDead && !C.emDead a.2).map fun a => (a.1.filter fun c => !C.condTriv c, a.2)

def attrs (W : WB) (n : Key) : List (List Cond × Key × WAKind × Key) :=
  ((attrAts [] W).filter fun a => !a.1.any C.condDead && (!C.dead a.2.2.2 [] && a.2.1 == n)).map
    fun a => (a.1.filter fun c => !C.condTriv c, a.2)

def texts (W : WB) : List (List Cond × WAKind × Key) :=
  ((textAts [] W).filter fun a => !a.1.any C.condDead && !C.dead a.2.2 []).map fun a => (a.1.filter fun c => !C.condTriv c, a.2)

/-- the tags of the elements for the values in a view -/
def viewTags (f : Key) (v : List Key) : List Key := C.slots.flatMap fun s =>
  if C.feeds f v s then match s.item with
    | .objs alts => (alts.filter (C.shows [] s)).map (·.1)
    | _ => []
  else []

def emTags : Em → List Key
  | .prim t _ _ => [t]
  | .oprim u _ _ _ => [u]
  | .each f v _ _ _ => C.viewTags f v
  | .wrap t _ => [t]

def cands (ts : List Key) (W : WB) : List (List Cond × Em) := (C.ats W).filter fun a => (C.emTags a.2).any (matches1 ts)

/-- a step to the children with one of the tags -/
def step (ts : List Key) (W : WB) : Option Loc :=
  match C.cands ts W with
  | [] => some .none
  | [a] => if (C.emTags a.2).all (matches1 ts) then match a.2 with
      | .wrap _ b => some (.body a.1 b)
      | e => some (.leaf a.1 e false)
    else none
  | _ => none

/-- `find("t1/t2/...")` -/
def walkL : List Key → WB → Option Loc
  | [], W => some (.body [] W)
  | t :: ts, W => match C.step [t] W with
    | some (.body cs b) => (walkL ts b).map (Loc.under cs)
    | some (.leaf cs e _) => if ts.isEmpty then some (.leaf cs e true) else (inner ts e).map fun e => .leaf cs e true
    | some .none => some .none
    | none => none

def locate : Path → WB → Option Loc
  | .nil, W => some (.body [] W)
  | .all t r, W => match C.step [t] W with
    | some (.body cs b) => (locate r b).map (Loc.under cs)
    | some (.leaf cs e one) => (rest r e).map fun e => .leaf cs e one
    | some .none => some .none
    | none => none
  | .first ts r, W => match C.walkL ts W with
    | some (.body cs b) => (locate r b).map (Loc.under cs)
    | some (.leaf cs e _) => (rest r e).map fun e => .leaf cs e true
    | some .none => some .none
    | none => none
  | .pick ts r, W => match C.step ts W with
    | some (.body cs b) => (locate r b).map (Loc.under cs)
    | some (.leaf cs e _) => (rest r e).map fun e => .leaf cs e true
    | some .none => some .none
    | none => none
  | .need p r, W => match locate p W with
    | some (.body [] _) => locate r W
    | _ => none
  | .lack p r, W => match locate p W with
    | some .none => locate r W
    | some (.leaf _ (.each f v _ _ _) _) => match locate r W with
      | some (.leaf cs e one) => some (.leaf (.none [(f, v)] :: cs) e one)
      | _ => none
    | _ => none
  | .alt p q, W => match locate p W with
    | none => none
    | some .none => locate q W
    | some l => match locate q W with
      | some .none => some l
      | _ => none

def stepTags (t : Key) (W : WB) : List Key := (C.cands [t] W).flatMap fun a => (C.emTags a.2).filter (matches1 [t])

def walkTags : List Key → WB → Option (List Key)
  | [], _ => none
  | t :: ts, W => if ts.isEmpty then some (C.stepTags t W) else match C.step [t] W with
    | some (.body _ b) => walkTags ts b
    | some .none => some []
    | _ => none

/-- the tags of the elements a path leads to -/
def tagsAt : Path → WB → Option (List Key)
  | .all t r, W => if r == .nil then some (C.stepTags t W) else match C.step [t] W with
    | some (.body _ b) => tagsAt r b
    | some .none => some []
    | _ => none
  | .first ts r, W => if r == .nil then C.walkTags ts W else match C.walkL ts W with
    | some (.body _ b) => tagsAt r b
    | some .none => some []
    | _ => none
  | _, _ => none

/-- the slot alone, and everything in the slot, is in the view -/
def sole (f : Key) (v : List Key) (s : RSlot) : Bool :=
  C.feeds f v s && (C.slots.filter (C.feeds f v)).length == 1 && match s.item with
    | .objs alts => alts.all fun a => match C.cl a.2 with
      | none => true
      | some c => inView v c || C.gone s c
    | _ => true

/-- the attribute has the values of the slot -/
def src (f : Key) (s : RSlot) : Bool := C.sole f [] s || C.needs.any fun n => match n with
  | .same f' g => f' == f && C.sole g [] s
  | _ => false

/-- the slot is always empty -/
def hollow (s : RSlot) : Bool := (C.needs.any fun n => match n with
    | .empty g => hits g s.key
    | _ => false) || match s.item with
    | .objs alts => alts.all fun a => match C.cl a.2 with
      | none => true
      | some c => C.gone s c
    | _ => false

/-- the condition holds if the view is not empty -/
def implied (f : Key) (v : List Key) : Cond → Bool
  | .any fs => fs.any fun g => g == (f, v) || (v.isEmpty && g.2.isEmpty && C.needs.any fun n => match n with
      | .along f' g' => f' == f && g' == g.1
      | _ => false)
  | .none fs => fs.all fun g => v.isEmpty && g.2.isEmpty && C.needs.any fun n => match n with
      | .notBoth f' g' => (f' == f && g' == g.1) || (f' == g.1 && g' == f)
      | _ => false
  | _ => false

def atMost1 (s : RSlot) : Bool := s.path.single || s.last

/-- the accessors fit -/
def primFits (f : Key) (i : Item) (k : WKind) : Bool := match i with
  | .prim rk => rk.fits k || (rk == .floats && k == .lit && C.needs.contains (.full f)) ||
      (rk == .lit && (k == .getValue || k == .getText) && C.needs.contains (.plain f))
  | .name => k == .raw
  | _ => false

def attrFits (i : Item) (k : WAKind) : Bool := match i with
  | .attr _ ak => ak.fits k
  | .prim rk => rk.fitsText k
  | _ => false

/-- the conditions on the values of a slot -/
def innerNeeds (s : RSlot) : List Need := C.needs.filterMap fun n => match n with
  | .inside g m => if hits g s.key then some m else none
  | _ => none

end Ctx

/-- what becomes of the values of a slot: they stay the same, or are written and read by pairs of methods -/
inductive Plan
  | same
  | objs (sort : Bool) (ps : List Pair)

/-- the writer method chosen for a class -/
def caseOf (cases : List Case) (c : Key) : Option Key := (cases.find? fun k => k.takes c).map Case.body

namespace Ctx
variable (C : Ctx)

/-- the pairs for the values of a slot -/
def slotPairs (s : RSlot) (cases : List Case) : List (Key × Key) → Option (List Pair)
  | [] => some []
  | a :: l => match slotPairs s cases l with
    | none => none
    | some ps => match C.cl a.2 with
      | none => some ps
      | some c => if C.gone s c then some ps else match caseOf cases c with
        | none => none
        | some wk => some (⟨a.2, wk, a.1, C.innerNeeds s⟩ :: ps)

/-- objects are read for the slot -/
def isObjs (s : RSlot) : Bool := match s.item with
  | .objs _ => true
  | _ => false

/-- is the slot read back from what the writer method writes -/
def chkSlot (W : WB) (s : RSlot) : Option Plan :=
  match s.item with
  | .guard tags _ => match C.tagsAt s.path W with
    | some ts => if ts.all fun t => tags.contains t then some .same else none
    | none => none
  | .want t _ => match C.locate s.path W with
    | some .none => some .same
    | some (.body [.any [(f, [])]] b) => match C.ats b with
      | [([], .each g [] _ _ _)] =>
        if g == f && C.tagsAt (.all 0 .nil) b == some [t] && C.slots.any (fun q => C.sole f [] q && isObjs q) then some .same else none
      | _ => none
    | _ => none
  | .crash _ => match C.locate s.path W with
    | some .none => some .same
    | _ => none
  | .name => match C.locate s.path W with
    | some (.leaf cs (.prim _ k f) one) =>
      if k == .raw && C.sole f [] s && cs.all (C.implied f []) && (!one || atMost1 s) then some .same else none
    | _ => none
  | .prim rk => match C.locate s.path W with
    | some .none => if C.hollow s then some .same else none
    | some (.leaf cs (.prim _ k f) one) =>
      if C.primFits f s.item k && C.src f s && cs.all (C.implied f []) && (!one || atMost1 s) then some .same else none
    | some (.body cs b) => match C.texts b with
      | [a] => if rk.fitsText a.2.1 && C.sole a.2.2 [] s && (cs ++ a.1).all (C.implied a.2.2 []) && (C.ats b).isEmpty && atMost1 s
          then some .same else none
      | _ => none
    | _ => none
  | .attr n ak => match C.locate s.path W with
    | some .none => if C.hollow s then some .same else none
    | some (.body cs b) => match C.attrs b n with
      | [] => if C.hollow s then some .same else none
      | [a] => if ak.fits a.2.2.1 && C.sole a.2.2.2 [] s && (cs ++ a.1).all (C.implied a.2.2.2 []) && atMost1 s then some .same else none
      | _ => none
    | _ => none
  | .objs alts => if s.field == k!"short_name" then none else match C.locate s.path W with
    | some .none => if C.hollow s then some .same else none
    | some (.leaf cs (.each f v arr cases _) one) =>
      if C.sole f v s && cs.all (C.implied f v) && (!one || atMost1 s) && (!arr.sort || C.S C.cls s.field) then
        match C.slotPairs s cases alts with
        | some ps => if ps.all fun p => altOf alts p.tag == some p.rk then some (.objs arr.sort ps) else none
        | none => none
      else none
    | _ => none

/-- the slots with what becomes of them -/
def plans (W : WB) : List RSlot → Option (List (RSlot × Plan))
  | [] => some []
  | s :: l => match C.chkSlot W s with
    | none => none
    | some p => match plans W l with
      | none => none
      | some r => some ((s, p) :: r)

/-- a `fail` that is not reached -/
def barred (a : Bool) (cs : List Cond) : Bool := C.needs.any fun n => match n with
  | .oneOf fs => covers fs
  | .strict (.oneOf fs) => !a && covers fs
  | _ => false
where covers (fs : List Key) : Bool := fs.all fun f => cs.any fun c => match c with
  | .none gs => gs.contains (f, [])
  | _ => false

/-- is every emitter of the writer method able to write what it finds -/
def chkW (P : List (RSlot × Plan)) : List Cond → WB → Bool
  | _, .nil => true
  | cs, .attr _ k f r => (C.dead f [] || C.slots.all fun s => !C.feeds f [] s || attrFits s.item k) && chkW P cs r
  | cs, .text k f r => (C.dead f [] || C.slots.all fun s => !C.feeds f [] s || attrFits s.item k) && chkW P cs r
  | cs, .prim _ k f r => (C.dead f [] || C.slots.all fun s => !C.feeds f [] s || C.primFits f s.item k) && chkW P cs r
  | cs, .oprim _ _ k f r => (C.dead f [] || C.slots.all fun s => !C.feeds f [] s || C.primFits f s.item k) && chkW P cs r
  | cs, .each f v arr cases _ r => (C.dead f v || ((arr != .nested || C.needs.contains (.single f)) && (C.slots.filter (C.feeds f v)).length == 1 && P.all fun e =>
      !C.feeds f v e.1 || (C.sole f v e.1 && match e.2 with
        | .same => false
        | .objs sort' ps => sort' == arr.sort && ps.all fun p => match C.cl p.rk with
          | none => false
          | some c => caseOf cases c == some p.wk))) && chkW P cs r
  | cs, .wrap c _ b r => (C.condDead c || chkW P (c :: cs) b) && chkW P cs r
  | cs, .when c b r => (C.condDead c || chkW P (c :: cs) b) && chkW P cs r
  | cs, .fail _ a r => C.barred a cs && chkW P cs r

end Ctx

/-- the value is there in any case -/
def RKind.total : RKind → Bool
  | .lit | .litPlain | .numerical | .integer | .numericals | .limit | .ref => true
  | _ => false

/-- the element written for the whole object -/
def single (C : Ctx) (W : WB) : Option Em := match C.ats W with
  | [([], e)] => if (attrAts [] W).isEmpty && (textAts [] W).isEmpty then some e else none
  | _ => none

/-- an object that is a single scalar -/
def chkSelf (C : Ctx) (k : WKind) (f : Key) : Bool := match C.slots with
  | [s] => match s.item with
    | .prim rk => s.path == .nil && rk.fits k && RKind.total rk && hits f s.key && !s.named && s.field != k!"short_name"
    | _ => false
  | _ => false

/-- the pairs of methods needed for the values of the attributes of an object, if the writer method undoes the reader
method -/
def check (C : Ctx) (W : WB) (tag : Key) : Option (List Pair) :=
  if C.slots.any fun s => s.path == .nil && match s.item with
    | .crash _ => true
    | _ => false
  then some []
  else match W with
    | .prim t k f .nil => if t == tag && chkSelf C k f then some [] else none
    | _ => match single C W with
      | some (.wrap t b) => if t != tag then none else match C.plans b C.slots with
        | none => none
        | some P => if C.chkW P [] W then some (P.flatMap fun e => match e.2 with
            | .same => []
            | .objs _ ps => ps) else none
      | _ => none

/-- the context of a pair -/
def Pair.ctx (TR : Key → Option RBody) (D : Key → List Need) (S : Key → Key → Bool) (p : Pair) (b : RBody) : Ctx :=
  { cls := b.cls, slots := b.slots, needs := D b.cls ++ p.ex, cl := fun k => (TR k).map RBody.cls, S := S }

/-- one pair, all pairs it leads to being in the table -/
def Pair.check (TR : Key → Option RBody) (TW : Key → Option WB) (D : Key → List Need) (S : Key → Key → Bool)
    (PT : Key → List Pair) (p : Pair) : Bool :=
  match TR p.rk with
  | none => true
  | some b => match TW p.wk with
    | none => false
    | some W => match Lemmas.check (p.ctx TR D S b) W p.tag with
      | none => false
      | some ps => ps.all fun q => (PT q.rk).contains q

end Verif.Lemmas
