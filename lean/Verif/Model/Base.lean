/-!
# Base of the model: outcomes of C++ code, C strings and byte buffers

Nothing in this file models a function of `/repo`; it fixes how C++ behaviour is represented.

* A C++ `char` is a Lean `Char`.  Real chars are the values `0 .. 255`; theorems quantify over
  the larger type, which includes them.  `'\x00'` is the terminator.
* A C array of `char` is a `List Char` of the array's length.
* Every outcome of a piece of C++ code is one constructor of `Res`.
-/

namespace Ggnss

/-- The standard exceptions the library can raise. -/
inductive Exc where
  | runtime_error
  | out_of_range
  | invalid_argument
  deriving DecidableEq, Repr

/-- Outcome of running C++ code.
`terminate`: an exception left a `noexcept` function (`std::terminate`).
`ub`: undefined behaviour (access outside an array, missing terminator, ...).
`diverge`: a loop did not finish within the fuel it was given. -/
inductive Res (α : Type) where
  | ok (a : α)
  | throw (e : Exc)
  | terminate
  | ub
  | diverge
  deriving DecidableEq, Repr

namespace Res

/-- Sequencing of C++ statements. -/
def bind {α β : Type} (x : Res α) (f : α → Res β) : Res β :=
  match x with
  | ok a => f a
  | throw e => throw e
  | terminate => terminate
  | ub => ub
  | diverge => diverge

instance : Monad Res where
  pure := Res.ok
  bind := Res.bind

@[simp] theorem bind_ok {α β : Type} (a : α) (f : α → Res β) : ((Res.ok a : Res α) >>= f) = f a := rfl
@[simp] theorem bind_throw {α β : Type} (e : Exc) (f : α → Res β) :
    ((Res.throw e : Res α) >>= f) = Res.throw e := rfl
@[simp] theorem bind_terminate {α β : Type} (f : α → Res β) :
    ((Res.terminate : Res α) >>= f) = Res.terminate := rfl
@[simp] theorem bind_ub {α β : Type} (f : α → Res β) : ((Res.ub : Res α) >>= f) = Res.ub := rfl
@[simp] theorem bind_diverge {α β : Type} (f : α → Res β) :
    ((Res.diverge : Res α) >>= f) = Res.diverge := rfl
@[simp] theorem pure_eq {α : Type} (a : α) : (pure a : Res α) = Res.ok a := rfl

/-- The body of a `noexcept` function: an exception that would leave it ends the program. -/
def noexcept {α : Type} (x : Res α) : Res α :=
  match x with
  | throw _ => terminate
  | r => r

@[simp] theorem noexcept_ok {α : Type} (a : α) : noexcept (Res.ok a) = Res.ok a := rfl
@[simp] theorem noexcept_throw {α : Type} (e : Exc) :
    noexcept (Res.throw e : Res α) = Res.terminate := rfl
@[simp] theorem noexcept_terminate {α : Type} :
    noexcept (Res.terminate : Res α) = Res.terminate := rfl
@[simp] theorem noexcept_ub {α : Type} : noexcept (Res.ub : Res α) = Res.ub := rfl
@[simp] theorem noexcept_diverge {α : Type} : noexcept (Res.diverge : Res α) = Res.diverge := rfl

theorem bind_eq_ok {α β : Type} {x : Res α} {f : α → Res β} {b : β} :
    (x >>= f) = Res.ok b ↔ ∃ a, x = Res.ok a ∧ f a = Res.ok b := by
  cases x <;> simp

theorem noexcept_eq_ok {α : Type} {x : Res α} {a : α} : noexcept x = Res.ok a ↔ x = Res.ok a := by
  cases x <;> simp

end Res

/-- `c!"AB"` is the list of chars `['A','B']`, written so that the kernel computes with it. -/
macro:max "c!" s:str : term => do
  let cs : Array Lean.Term :=
    s.getString.toList.toArray.map (fun c => (Lean.Syntax.mkCharLit c : Lean.Term))
  `([$cs,*])

/-- The terminator of C strings. -/
abbrev NUL : Char := '\x00'

/-- A C string argument: the chars before the terminator, hence no `NUL` among them. -/
def IsCStr (s : List Char) : Prop := NUL ∉ s

instance (s : List Char) : Decidable (IsCStr s) := inferInstanceAs (Decidable (¬ _))

/-- `std::memcpy(buf + off, src, src.length)`: undefined when it does not fit. -/
def memcpyAt (buf : List Char) (off : Nat) (src : List Char) : Res (List Char) :=
  if off + src.length ≤ buf.length then
    .ok (buf.take off ++ src ++ buf.drop (off + src.length))
  else .ub

/-- `std::memset(buf + off, c, n)`. -/
def memsetAt (buf : List Char) (off : Nat) (c : Char) (n : Nat) : Res (List Char) :=
  memcpyAt buf off (List.replicate n c)

/-- `buf[i] = c`. -/
def setAt (buf : List Char) (i : Nat) (c : Char) : Res (List Char) :=
  memcpyAt buf i [c]

/-- Reading `buf[i]`. -/
def getAt (buf : List Char) (i : Nat) : Res Char :=
  match buf[i]? with
  | some c => .ok c
  | none => .ub

/-- The C string stored in `buf` (chars before the first terminator); undefined behaviour when
there is no terminator (`std::strlen` would run off the array). -/
def cstrOf : List Char → Res (List Char)
  | [] => .ub
  | c :: cs => if c = NUL then .ok [] else
      match cstrOf cs with
      | .ok r => .ok (c :: r)
      | e => e

/-- `std::strncmp(a, b, n) == 0` on two arrays: compares at most `n` chars, stops at a common
terminator, undefined when it has to read outside one of the arrays. -/
def strncmpEq : Nat → List Char → List Char → Res Bool
  | 0, _, _ => .ok true
  | _ + 1, [], _ => .ub
  | _ + 1, _ :: _, [] => .ub
  | n + 1, x :: xs, y :: ys =>
      if x = y then (if x = NUL then .ok true else strncmpEq n xs ys) else .ok false

/-- The array behind a C string argument: its chars and its terminator. -/
def cArr (s : List Char) : List Char := s ++ [NUL]

end Ggnss
