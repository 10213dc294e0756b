import Verif.Model.Base
/-!
# Model of `src/antenna.hpp`, `src/antenna.cpp`

An antenna object is its byte array `__name`.  Memory that the constructors do not write keeps the
arbitrary contents `g` it had before (uninitialised memory).  `const char*` arguments are C strings.
-/
namespace Ggnss

/-- antenna.hpp:33-49: 15 + 1 + 4 + 20 + 1. -/
def antFullMax : Nat := 41
/-- model + blank + radome — antenna.hpp:33-37. -/
def antMpr : Nat := 20
/-- antenna.hpp:41. -/
def antSerialMax : Nat := 20

/-- `ReceiverAntenna::initialize` — antenna.cpp:22-27 (the default constructor, antenna.hpp:87). -/
def antInit (g : List Char) : Res (List Char) := do
  let b ← memsetAt g 0 ' ' antMpr
  setAt b antMpr NUL

/-- `set_none_radome` — antenna.cpp:30-34. -/
def antSetNone (b : List Char) : Res (List Char) := memcpyAt b 16 c!"NONE"

/-- `copy_from_cstr` — antenna.cpp:57-70. -/
def antCopy (b c : List Char) : Res (List Char) := do
  let n := c.length
  let b1 ← memcpyAt b 0 (c.take (min n antMpr))
  if n < antMpr then do
    let b2 ← memsetAt b1 n ' ' (antMpr - n)
    antSetNone b2
  else pure b1

/-- The constructors from a (C-)string — antenna.cpp:78-83, 91-96. -/
def antOfCStr (g c : List Char) : Res (List Char) := do
  let b ← antCopy g c
  setAt b antMpr NUL

/-- The loop of `has_serial` — antenna.cpp:144-149, from the array position `l` on. -/
def hasSerialLoop : List Char → Res Bool
  | [] => .ub
  | c :: cs => if c = NUL then .ok false else if c ≠ ' ' then .ok true else hasSerialLoop cs

/-- `has_serial` — antenna.cpp:141-152. -/
def antHasSerial (b : List Char) : Res Bool := hasSerialLoop (b.drop antMpr)

/-- `is_same` — antenna.cpp:108-112. -/
def antIsSame (a b : List Char) : Res Bool := do
  if !(← antHasSerial a) then pure false
  else if !(← antHasSerial b) then pure false
  else strncmpEq antFullMax a b

/-- `compare_model` — antenna.cpp:122-125. -/
def antCompareModel (a b : List Char) : Res Bool := strncmpEq antMpr a b

/-- `compare_serial` — antenna.cpp:130-133. -/
def antCompareSerial (a c : List Char) : Res Bool := strncmpEq antSerialMax (a.drop antMpr) (cArr c)

/-- `set_serial_nr` — antenna.cpp:159-169. -/
def antSetSerial (b c : List Char) : Res (List Char) := do
  let b1 ← memsetAt b antMpr ' ' (antSerialMax + 1)
  let b2 ← memcpyAt b1 antMpr (c.take (min c.length antSerialMax))
  setAt b2 (antMpr + antSerialMax) NUL

/-- `__underlying_char__()` read as a C string — antenna.hpp:111, 157. -/
def antText (b : List Char) : Res (List Char) := cstrOf b

/-- `SatelliteAntenna::copy_from_cstr` — antenna.cpp:174-178 (also the constructor 182-184 and
`set_from_cstr`, antenna.hpp:154). -/
def satAntCopy (b c : List Char) : Res (List Char) := do
  let n := min c.length 20
  let b1 ← memcpyAt b 0 (c.take n)
  setAt b1 n NUL

/-- `SatelliteAntenna::initialize` — antenna.cpp:196-199. -/
def satAntInit (g : List Char) : Res (List Char) := memsetAt g 0 NUL 21

/-- `SatelliteAntenna::is_same` — antenna.cpp:191-193: the result of `strncmp` converted to `bool`,
i.e. true when the strings differ. -/
def satAntIsSame (b c : List Char) : Res Bool := do
  let r ← strncmpEq 20 b (cArr c)
  pure (!r)

/-- `SatelliteAntenna::to_string` — antenna.hpp:160. -/
def satAntText (b : List Char) : Res (List Char) := cstrOf b

/-- How a receiver antenna object comes to life. -/
inductive AntCtor where
  | default
  | fromCStr (c : List Char)

/-- Construction in uninitialised memory `g`, then any sequence of serial number updates: all that
the public API can do to an antenna object. -/
def antNew (g : List Char) : AntCtor → Res (List Char)
  | .default => antInit g
  | .fromCStr c => antOfCStr g c

def antSetSerials (b : List Char) : List (List Char) → Res (List Char)
  | [] => .ok b
  | s :: ss => do antSetSerials (← antSetSerial b s) ss

def antRun (g : List Char) (k : AntCtor) (serials : List (List Char)) : Res (List Char) := do
  antSetSerials (← antNew g k) serials

end Ggnss
