import Verif.Model.Num
/-!
# Model of `src/nvarstr.hpp`, `src/nvarstr.cpp`, `src/rinex.hpp`

Arguments of type `const char*` are arrays (`List Char`) starting at the pointer; `stop = none`
stands for the default `(size_t)-1`.
-/
namespace Ggnss

/-- Number of chars considered: `strlen`, or `stop` when that is smaller — nvarstr.cpp:7-9, 24-26,
41-43, 67-69. -/
def effLen (len : Nat) (stop : Option Nat) : Nat :=
  match stop with
  | some st => if st < len then st else len
  | none => len

/-- The loop `while (it >= 0 && str[it] == ' ') --it; end = ++it;` — nvarstr.cpp:15-18, on
`it + 1` (so `0` is `it = -1`). -/
def rtrimLoop (str : List Char) : Nat → Res Nat
  | 0 => .ok 0
  | it + 1 => do
      let c ← getAt str it
      if c = ' ' then rtrimLoop str it else pure (it + 1)

/-- `StrSearchPolicyEnd::rtrim` — nvarstr.cpp:5-20: (returned string, `end`).
(`int it = len-1` is assumed not to overflow.) -/
def rtrimEnd (str : List Char) (stop : Option Nat) : Res (List Char × Nat) := do
  let s ← cstrOf str
  let len := effLen s.length stop
  if len = 0 then pure ([], 0)
  else
    let e ← rtrimLoop str len
    pure (str.take e, e)

/-- `StrSearchPolicyStart::rtrim` (the default of `ngpt::rtrim`) — nvarstr.cpp:22-37. -/
def rtrimStart (str : List Char) (stop : Option Nat) : Res (List Char × Nat) := do
  let s ← cstrOf str
  let len := effLen s.length stop
  if len = 0 then pure ([], 0)
  else
    let e := (str.take len).findIdx (· = ' ')
    pure (str.take e, e)

/-- `ltrim` — nvarstr.cpp:39-54: (returned string, `start`). -/
def ltrim (str : List Char) (stop : Option Nat) : Res (List Char × Nat) := do
  let s ← cstrOf str
  let len := effLen s.length stop
  if len = 0 then pure ([], 0)
  else
    let st := (str.take len).findIdx (fun c => !(c = ' '))
    pure ((str.drop st).take (len - st), st)

/-- `__for2cpp__` — nvarstr.cpp:56-64: in place, up to the terminator. -/
def for2cpp : List Char → Res (List Char)
  | [] => .ub
  | c :: cs =>
    if c = NUL then .ok (c :: cs)
    else do
      let r ← for2cpp cs
      pure ((if c = 'D' ∨ c = 'd' then 'E' else c) :: r)

/-- The loop of `string_is_empty` — nvarstr.cpp:70-73, from index `i`, `n` chars to go. -/
def isEmptyLoop (str : List Char) (i : Nat) : Nat → Res Bool
  | 0 => .ok true
  | n + 1 => do
      let c ← getAt str i
      if c ≠ ' ' then pure false else isEmptyLoop str (i + 1) n

/-- `string_is_empty` — nvarstr.cpp:66-74. -/
def stringIsEmpty (str : List Char) (stop : Option Nat) : Res Bool := do
  let s ← cstrOf str
  isEmptyLoop str 0 (effLen s.length stop)

/-- `__char2double__<N,M>` and `__char2double__<M>(…,N)` — nvarstr.hpp:85-95 and 108-118: (returned
bool, values stored in `data[0..]`).  `errno0`: `errno` is non-zero at entry. -/
def char2double (errno0 : Bool) (M : Nat) : (N : Nat) → (line : List Char) → Res (Bool × List Rat)
  | 0, _ => .ok (!errno0, [])
  | n + 1, line => do
      match ← strtodA line with
      | none => pure (false, [0])
      | some (v, _, er) =>
          let r ← char2double (errno0 || er) M n (line.drop M)
          pure (r.1, v :: r.2)

/-- `rinex::four2two_digit_year` — rinex.hpp:12-14. -/
def fourDigitYear (y : Int) : Int := if y ≤ 79 then 2000 + y else 1900 + y

end Ggnss
