import Verif.Model.Base
/-!
# Model of the input file stream (`std::ifstream`) used by every reader of /repo

`std::ifstream` belongs to the C++ library; this file fixes what the model assumes about it.
A stream is an in-memory byte sequence with a read position and the two state bits that reading a
regular file can set (`badbit`, i.e. a device error, is not modelled).  `tellg`/`seekg` positions
are byte offsets.
-/
namespace Ggnss

/-- An open `std::ifstream`. -/
structure Stream where
  content : List Char
  pos : Nat
  eof : Bool
  fail : Bool
  deriving DecidableEq, Repr

namespace Stream

/-- `good()`. -/
def good (s : Stream) : Bool := !s.eof && !s.fail

/-- Bytes not read yet. -/
def rest (s : Stream) : List Char := s.content.drop s.pos

/-- `istream::clear()`. -/
def clear (s : Stream) : Stream := { s with eof := false, fail := false }

/-- `istream::peek()`: `none` is `EOF`.  A stream that is not good gets its failbit set. -/
def peek (s : Stream) : Option Char × Stream :=
  if s.good then
    match s.rest with
    | [] => (none, { s with eof := true })
    | c :: _ => (some c, s)
  else (none, { s with fail := true })

/-- `istream::tellg()`: `none` is `pos_type(-1)`. -/
def tellg (s : Stream) : Option Nat × Stream :=
  if s.good then (some s.pos, s) else (none, { s with fail := true })

/-- `istream::seekg(pos)`: clears eofbit first; without effect on a failed stream. -/
def seekg (s : Stream) (p : Nat) : Stream :=
  if s.fail then { s with eof := false } else { s with eof := false, pos := p }

/-- `istream::getline(buf, n)` for `n ≥ 1`, as seen from the stream: (chars stored before the
terminator, new stream); it succeeded iff the new stream has no failbit.  The delimiter is extracted
but not stored; `n-1` chars without delimiter set failbit and are consumed. -/
def getline (s : Stream) (n : Nat) : List Char × Stream :=
  if s.good then
    let body := s.rest.takeWhile (fun c => c ≠ '\n')
    if body.length ≤ n - 1 then
      match s.rest.drop body.length with
      | [] => (body, { s with pos := s.pos + body.length, eof := true, fail := body.isEmpty })
      | _ :: _ => (body, { s with pos := s.pos + body.length + 1 })
    else (body.take (n - 1), { s with pos := s.pos + (n - 1), fail := true })
  else ([], { s with fail := true })

end Stream

/-- What `getline` leaves in the caller's array: the stored chars, a terminator, and the old bytes
behind it (nothing is written there). -/
def fillLine (buf stored : List Char) : List Char := stored ++ NUL :: buf.drop (stored.length + 1)

end Ggnss
