/-!
# The document singleton under threads

`AUTOSAR.getInstance` and the constructor `AUTOSAR()` (`AutosarTopLevelStructure/__init__.py:366-383`), executed by any number of threads: one
step is one access to the class attribute `__instance`, or the initialisation of the attributes of the new object.  The interpreter may switch
threads between any two steps; there is no lock in the code.
-/
namespace Verif.Model.Singleton

/-- the two calls: `AUTOSAR.getInstance()` and `AUTOSAR()` -/
inductive Call
  | getInstance
  | construct
  deriving DecidableEq, Repr

/-- Where a thread is. `c` is the call being executed, `d` the object being constructed. -/
inductive Pc
  /-- between calls -/
  | idle
  /-- `AUTOSAR()` is about to be executed, `__init__.py:371`; the object is allocated -/
  | alloc (c : Call)
  /-- before the test `AUTOSAR.__instance is not None`, `:380` -/
  | check (c : Call) (d : Nat)
  /-- before `AUTOSAR.__instance = self`, `:382` -/
  | set (c : Call) (d : Nat)
  /-- before `super().__init__()`, `:384` -/
  | init (c : Call) (d : Nat)
  /-- before `return AUTOSAR.__instance`, `:374` -/
  | ret
  deriving DecidableEq, Repr

/-- what a call ended with -/
inductive Result
  /-- `Exception("The AUTOSAR is singleton!")` -/
  | raised
  /-- the object returned, `none` for `None`, and whether its attributes were there at that moment -/
  | returned (d : Option Nat) (ready : Bool)
  deriving DecidableEq, Repr

/-- The class attribute `__instance`, which objects are initialised, the next new object, the threads, and the calls that have ended. -/
structure State where
  inst : Option Nat
  ready : Nat → Bool
  next : Nat
  pc : Nat → Pc
  ended : List (Call × Result)

/-- a program that has just imported the module, `__init__.py:366` -/
def start : State := ⟨none, fun _ => false, 0, fun _ => .idle, []⟩

/-- the thread `i` moves to `p` -/
def State.goto (s : State) (i : Nat) (p : Pc) : State := { s with pc := fun j => if j = i then p else s.pc j }

/-- the thread `i` ends its call -/
def State.finish (s : State) (i : Nat) (c : Call) (r : Result) : State := { s.goto i .idle with ended := s.ended ++ [(c, r)] }

/-- Is the object initialised? -/
def State.readyAt (s : State) : Option Nat → Bool
  | none => false
  | some d => s.ready d

/-- One step of the thread `i`; between calls it begins the call `c`.  `__init__.py:369-383` -/
def State.step (s : State) (i : Nat) (c : Call) : State :=
  match s.pc i with
  | .idle =>
    match c with
    | .getInstance => if s.inst = none then s.goto i (.alloc .getInstance) else s.goto i .ret
    | .construct => s.goto i (.alloc .construct)
  | .alloc c => { s.goto i (.check c s.next) with next := s.next + 1 }
  | .check c d => if s.inst ≠ none then s.finish i c .raised else s.goto i (.set c d)
  | .set c d => { s.goto i (.init c d) with inst := some d }
  | .init c d =>
    let s' : State := { s with ready := fun e => if e = d then true else s.ready e }
    match c with
    | .getInstance => s'.goto i .ret
    | .construct => s'.finish i .construct (.returned (some d) true)
  | .ret => s.finish i .getInstance (.returned s.inst (s.readyAt s.inst))

/-- a schedule: which thread makes a step, and the call it begins if it is between calls -/
def State.run (s : State) : List (Nat × Call) → State
  | [] => s
  | (i, c) :: l => (s.step i c).run l

end Verif.Model.Singleton
