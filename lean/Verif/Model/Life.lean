import Verif.Model.Base
/-!
# Model of the life of `ObservationRnx` objects: constructor, moves, destructor

Only the line buffer `__buf` is modelled: the other members release themselves.  An object is the address it holds; a
program is a history of constructions, moves and destructions.
-/
namespace Ggnss

/-- What a program can do with objects of the class; existing objects are numbered 0, 1, … in the order of their construction, and
the numbers of later objects move down when one is destroyed. -/
inductive LifeOp where
  /-- `ObservationRnx x(filename)`, the header being accepted -/
  | construct
  /-- `ObservationRnx x(filename)`, throwing -/
  | constructFails
  /-- `ObservationRnx x(std::move(y))`, `y` the object `src` -/
  | moveConstruct (src : Nat)
  /-- `x = std::move(y)`, `x` the object `dst`, `y` the object `src` -/
  | moveAssign (dst src : Nat)
  /-- the end of the life of object `i` -/
  | destroy (i : Nat)
  deriving DecidableEq, Repr

/-- The buffers allocated and not yet freed, the next address `new` returns, and the `__buf` of every existing object. -/
structure LifeState where
  live : List Nat
  next : Nat
  objs : List Nat
  deriving DecidableEq, Repr

/-- The state in which a program starts. -/
def lifeStart : LifeState := ⟨[], 0, []⟩

/-- One step.  Constructor — obsrnx.cpp:80-94: the buffer is allocated last, so that an exception leaves no buffer behind.  Moves
— obsrnx.hpp:51-57: `= default`, which copies the pointer.  Destructor — obsrnx.cpp:97-104: `delete[]` of a buffer that is not
allocated (any more) is undefined.  (The address is never null for an existing object.)  A number of no existing object: `none`,
not a program. -/
def lifeStep (s : LifeState) : LifeOp → Option (Res LifeState)
  | .construct => some (.ok ⟨s.next :: s.live, s.next + 1, s.objs ++ [s.next]⟩)
  | .constructFails => some (.ok s)
  | .moveConstruct src => s.objs[src]?.map fun p => .ok { s with objs := s.objs ++ [p] }
  | .moveAssign dst src =>
    match s.objs[dst]?, s.objs[src]? with
    | some _, some p => some (.ok { s with objs := s.objs.set dst p })
    | _, _ => none
  | .destroy i => s.objs[i]?.map fun p =>
      if p ∈ s.live then .ok { s with live := s.live.erase p, objs := s.objs.eraseIdx i } else .ub

/-- A history. -/
def lifeRun (s : LifeState) : List LifeOp → Option (Res LifeState)
  | [] => some (.ok s)
  | op :: ops =>
    match lifeStep s op with
    | none => none
    | some (.ok s') => lifeRun s' ops
    | some r => some r

end Ggnss
