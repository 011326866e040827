/-!
# Model of `derived_property` (httpolice/blackboard.py 87-112)

A getter is a program that reads derived properties of the same message (by name, here a number), reports
notices, and returns a value. Everything else that it reads does not change. What a getter does depends
on the values that it gets, hence the functions in `Getter.read`.
-/

namespace Httpolice.Model

/-- A getter of a derived property (httpolice/blackboard.py 87-112). -/
inductive Getter (V C : Type)
  | ret (v : V)
  | read (name : Nat) (next : V → Getter V C)
  | complain (c : C) (next : Getter V C)

/-- What is observed: a getter of this name starts, a notice is reported (httpolice/blackboard.py 87-112). -/
inductive Event (C : Type)
  | starts (name : Nat)
  | complains (c : C)
deriving DecidableEq, Repr

/-- `memoized` (blackboard.py 46) and what happened so far. -/
structure Memoized (V C : Type) where
  memo : Nat → Option V
  log : List (Event C)

/-- `self.memoized[name] = value` (httpolice/blackboard.py 102-112). -/
def Memoized.put {V C : Type} (s : Memoized V C) (name : Nat) (v : V) : Memoized V C :=
  { s with memo := fun n => if n = name then some v else s.memo n }

/-- Something happens (httpolice/blackboard.py 87-112). -/
def Memoized.happens {V C : Type} (s : Memoized V C) (e : Event C) : Memoized V C :=
  { s with log := s.log ++ [e] }

/-- Running the body of a getter, given how properties are read (httpolice/blackboard.py 102-107). -/
def Getter.run {V C : Type} (get : Nat → Memoized V C → Option (V × Memoized V C)) :
    Getter V C → Memoized V C → Option (V × Memoized V C)
  | .ret v, s => some (v, s)
  | .complain c g, s => g.run get (s.happens (.complains c))
  | .read name next, s =>
    match get name s with
    | none => none
    | some (v, s') => (next v).run get s'

/-- Reading a property (blackboard.py 102-106); `none` is `RecursionError`: more than `depth` getters within each
other. -/
def readProp {V C : Type} (getters : Nat → Getter V C) :
    Nat → Nat → Memoized V C → Option (V × Memoized V C)
  | 0, _, _ => none
  | depth + 1, name, s =>
    match s.memo name with
    | some v => some (v, s)
    | none =>
      match (getters name).run (readProp getters depth) (s.happens (.starts name)) with
      | none => none
      | some (v, s') => some (v, s'.put name v)

/-- What the program does with a message (httpolice/blackboard.py 102-112). -/
inductive Access (V : Type)
  | get (name : Nat)
  | set (name : Nat) (v : V)
deriving DecidableEq, Repr

/-- One access (blackboard.py 102-110): the value that was read, if any, and the state afterwards. -/
def accessProp {V C : Type} (getters : Nat → Getter V C) (depth : Nat) (s : Memoized V C) :
    Access V → Option (Option V × Memoized V C)
  | .get name => (readProp getters depth name s).map fun r => (some r.1, r.2)
  | .set name v => some (none, s.put name v)

/-- A series of accesses: the values read, and the state afterwards (httpolice/blackboard.py 102-112). -/
def accessProps {V C : Type} (getters : Nat → Getter V C) (depth : Nat) :
    Memoized V C → List (Access V) → Option (List V × Memoized V C)
  | s, [] => some ([], s)
  | s, a :: as =>
    match accessProp getters depth s a with
    | none => none
    | some (v, s') =>
      match accessProps getters depth s' as with
      | none => none
      | some (vs, s'') => some (v.toList ++ vs, s'')

/-- A new message (blackboard.py 46). -/
def Memoized.new {V C : Type} : Memoized V C := ⟨fun _ => none, []⟩

end Httpolice.Model
