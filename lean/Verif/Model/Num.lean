import Verif.Model.Base
/-!
# The C library number parsers used by ggnss

`std::strtod`, `std::strtol` (and the exception-throwing wrappers `std::stod`, `std::stoi`) are not
part of /repo; this file fixes what the model assumes about them.

* `strtod`: decimal and hexadecimal numbers, `inf`, `infinity`, `nan`, `nan(...)` after optional white
  space and sign, and the `errno = ERANGE` it reports when the number is too large or too small for a
  `double`.  The value is the exact rational, with no rounding to double.  There is no rational for
  infinity and NaN: the model uses `HUGE` and `-HUGE`, beyond every `double`, so that conversions to
  integers overflow and comparisons come out as in C (NaN: `x >= c` is false, `x == 0` is false).
* `strtol` base 10 with the clamping of out-of-range values and the `errno = ERANGE` it reports
  (`long` has 64 bits).
-/
namespace Ggnss

/-- `isspace` in the C locale. -/
def isSpace (c : Char) : Bool :=
  c = ' ' || c = '\t' || c = '\n' || c = '\x0b' || c = '\x0c' || c = '\r'

/-- Value of a string of digits. -/
def digitsVal (ds : List Char) : Nat := Nat.ofDigitChars 10 ds 0

/-- Optional sign: (is negative, remaining text). -/
def takeSign : List Char → Bool × List Char
  | '-' :: r => (true, r)
  | '+' :: r => (false, r)
  | r => (false, r)

/-- `m · 10 ^ e` as an exact rational. -/
def scale10 (m : Rat) (e : Int) : Rat :=
  if 0 ≤ e then m * (10 ^ e.natAbs : Nat) else m / (10 ^ e.natAbs : Nat)

/-- Fractional part: (was there a point, digits, remaining text). -/
def takeFrac : List Char → List Char × List Char
  | '.' :: r => (r.takeWhile Char.isDigit, r.dropWhile Char.isDigit)
  | r => ([], r)

/-- Exponent part, present only if at least one digit follows: (exponent, remaining text). -/
def takeExp : List Char → Int × List Char
  | [] => (0, [])
  | c :: r =>
    if c = 'e' ∨ c = 'E' then
      let sg := takeSign r
      let ed := sg.2.takeWhile Char.isDigit
      if ed = [] then (0, c :: r)
      else ((if sg.1 then -(digitsVal ed : Int) else (digitsVal ed : Int)),
            sg.2.dropWhile Char.isDigit)
    else (0, c :: r)

/-- Stands for infinity: a number beyond every `double`. -/
def HUGE : Rat := (10 ^ 400 : Nat)

/-- Half way between the largest `double` and `2^1024`. -/
def DBL_LIMIT : Nat := 2 ^ 1024 - 2 ^ 970
/-- The smallest normal `double` is `1 / DBL_SMALL`. -/
def DBL_SMALL : Nat := 2 ^ 1022
/-- The same for `float`. -/
def FLT_LIMIT : Nat := 2 ^ 128 - 2 ^ 103
def FLT_SMALL : Nat := 2 ^ 126

/-- `strtod` sets `errno` to ERANGE: the number rounds to infinity or is smaller than the smallest normal
`double`.  (A
number that small that is a subnormal `double` exactly has hundreds of digits; it is treated alike.) -/
def dblErange (v : Rat) : Bool :=
  decide (v ≠ 0 ∧ ((-1 < v * (DBL_SMALL : Rat) ∧ v * (DBL_SMALL : Rat) < 1) ∨
    (DBL_LIMIT : Rat) ≤ v ∨ v ≤ -(DBL_LIMIT : Rat)))

/-- The same for `strtof` and `float`. -/
def fltErange (v : Rat) : Bool :=
  decide (v ≠ 0 ∧ ((-1 < v * (FLT_SMALL : Rat) ∧ v * (FLT_SMALL : Rat) < 1) ∨
    (FLT_LIMIT : Rat) ≤ v ∨ v ≤ -(FLT_LIMIT : Rat)))

/-- The decimal number at the beginning of the text (after the sign): value and remaining text. -/
def strtodDec (l : List Char) : Option (Rat × List Char) :=
  let ip := l.takeWhile Char.isDigit
  let fr := takeFrac (l.dropWhile Char.isDigit)
  if ip = [] ∧ fr.1 = [] then none
  else
    let ex := takeExp fr.2
    some (scale10 (digitsVal (ip ++ fr.1) : Nat) (ex.1 - fr.1.length), ex.2)

/-- Hexadecimal digits. -/
def isHexDigit (c : Char) : Bool :=
  c.isDigit || ('a' ≤ c && c ≤ 'f') || ('A' ≤ c && c ≤ 'F')

/-- Value of a string of hexadecimal digits. -/
def hexVal (ds : List Char) : Nat :=
  ds.foldl (fun a c => 16 * a + (if c.isDigit then c.toNat - 48 else if 'a' ≤ c then c.toNat - 87 else c.toNat - 55)) 0

/-- `m · 2 ^ e` as an exact rational. -/
def scale2 (m : Rat) (e : Int) : Rat :=
  if 0 ≤ e then m * (2 ^ e.natAbs : Nat) else m / (2 ^ e.natAbs : Nat)

/-- The binary exponent `p…`, present only if at least one digit follows. -/
def takeBinExp : List Char → Int × List Char
  | [] => (0, [])
  | c :: r =>
    if c = 'p' ∨ c = 'P' then
      let sg := takeSign r
      let ed := sg.2.takeWhile Char.isDigit
      if ed = [] then (0, c :: r)
      else ((if sg.1 then -(digitsVal ed : Int) else (digitsVal ed : Int)), sg.2.dropWhile Char.isDigit)
    else (0, c :: r)

/-- Point and hexadecimal fraction: (digits, remaining text). -/
def takeHexFrac : List Char → List Char × List Char
  | '.' :: r => (r.takeWhile isHexDigit, r.dropWhile isHexDigit)
  | r => ([], r)

/-- What follows `0x`: value and remaining text; `none` when no hexadecimal digit is there. -/
def strtodHexBody (l : List Char) : Option (Rat × List Char) :=
  let ip := l.takeWhile isHexDigit
  let fr := takeHexFrac (l.dropWhile isHexDigit)
  if ip = [] ∧ fr.1 = [] then none
  else
    let ex := takeBinExp fr.2
    some (scale2 (hexVal (ip ++ fr.1) : Nat) (ex.1 - 4 * fr.1.length), ex.2)

/-- A hexadecimal number at the beginning of the text (after the sign). -/
def strtodHex : List Char → Option (Rat × List Char)
  | '0' :: c :: r => if c = 'x' ∨ c = 'X' then strtodHexBody r else none
  | _ => none

/-- The text after `w`, when it starts with `w` in lower or upper case letters. -/
def dropWord (w l : List Char) : Option (List Char) :=
  if (l.take w.length).map Char.toLower = w then some (l.drop w.length) else none

/-- The optional `(…)` after `nan`. -/
def dropNanArg : List Char → List Char
  | '(' :: r =>
    match r.dropWhile (fun c => c.isAlphanum || c = '_') with
    | ')' :: r' => r'
    | _ => '(' :: r
  | r => r

/-- `inf`, `infinity`, `nan`, `nan(…)` at the beginning of the text (after the sign). -/
def strtodWord (l : List Char) : Option (Rat × List Char) :=
  match dropWord ['i', 'n', 'f', 'i', 'n', 'i', 't', 'y'] l with
  | some r => some (HUGE, r)
  | none =>
    match dropWord ['i', 'n', 'f'] l with
    | some r => some (HUGE, r)
    | none =>
      match dropWord ['n', 'a', 'n'] l with
      | some r => some (-HUGE, dropNanArg r)
      | none => none

/-- `std::strtod(s, &end)`: the value, the text from `end` on and whether `errno` was set to ERANGE;
`none` when no conversion could be performed (then `end == s` and the function returns 0). -/
def strtod (s : List Char) : Option (Rat × List Char × Bool) :=
  let sg := takeSign (s.dropWhile isSpace)
  match strtodWord sg.2 with
  | some (v, r) => some (if sg.1 ∧ 0 < v then -v else v, r, false)
  | none =>
    match strtodHex sg.2 with
    | some (v, r) => some (if sg.1 then -v else v, r, dblErange v)
    | none =>
      match strtodDec sg.2 with
      | some (v, r) => some (if sg.1 then -v else v, r, dblErange v)
      | none => none

/-- `std::strtod` on a pointer into an array whose remaining bytes are `arr`; the argument must be
a terminated string. -/
def strtodA (arr : List Char) : Res (Option (Rat × List Char × Bool)) :=
  if NUL ∈ arr then .ok (strtod arr) else .ub

/-- Did `strtod` set `errno` to ERANGE? -/
def strtodErr : Option (Rat × List Char × Bool) → Bool
  | some (_, _, er) => er
  | none => false

/-- Did `strtof` set `errno` to ERANGE? (`HUGE` stands for infinity and NaN, which are not errors.) -/
def strtofErr : Option (Rat × List Char × Bool) → Bool
  | some (v, _, er) => er || (fltErange v && decide (v ≠ HUGE ∧ v ≠ -HUGE))
  | none => false

/-- Largest and smallest `long`. -/
def LONG_MAX : Int := 9223372036854775807
def LONG_MIN : Int := -9223372036854775808

/-- `std::strtol(s, &end, 10)`: value, text from `end` on, and whether `errno` was set to ERANGE;
`none` when no conversion could be performed. -/
def strtol (s : List Char) : Option (Int × List Char × Bool) :=
  let sg := takeSign (s.dropWhile isSpace)
  let ds := sg.2.takeWhile Char.isDigit
  if ds = [] then none
  else
    let v : Int := if sg.1 then -(digitsVal ds : Int) else (digitsVal ds : Int)
    let r := sg.2.dropWhile Char.isDigit
    if v > LONG_MAX then some (LONG_MAX, r, true)
    else if v < LONG_MIN then some (LONG_MIN, r, true)
    else some (v, r, false)

/-- `std::strtol` on a pointer into an array. -/
def strtolA (arr : List Char) : Res (Option (Int × List Char × Bool)) :=
  if NUL ∈ arr then .ok (strtol arr) else .ub

/-- The number returned by `strtol` (0 when nothing could be converted). -/
def strtolVal : Option (Int × List Char × Bool) → Int
  | some (v, _, _) => v
  | none => 0

/-- Did `strtol` set `errno` to ERANGE? -/
def strtolErr : Option (Int × List Char × Bool) → Bool
  | some (_, _, er) => er
  | none => false

/-- Conversion of a `long` to `int` (two's complement wrap-around). -/
def toInt32 (v : Int) : Int := (v + 2147483648) % 4294967296 - 2147483648

end Ggnss
