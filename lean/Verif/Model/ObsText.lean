import Verif.Model.Obs
/-!
# Model of the texts of observables — `src/gnssobsrv.cpp`
-/
namespace Ggnss

/-- Nearest integer of a non-negative rational, ties to even (the rounding of `printf` in the default
rounding mode). -/
def roundHalfEven (x : Rat) : Nat :=
  let n := x.floor.toNat
  if x - n < 1 / 2 then n
  else if 1 / 2 < x - n then n + 1
  else if n % 2 = 0 then n else n + 1

/-- Decimal digits of `n`, with zeros in front up to six. -/
def sixDigits (n : Nat) : List Char :=
  let ds := Nat.toDigits 10 n
  List.replicate (6 - ds.length) '0' ++ ds

/-- `std::to_string(double)`, i.e. `"%f"` — gnssobsrv.cpp:53: sign, integer part, point and six decimals.  The coefficient is an exact
rational (a negative zero does not exist). -/
def fixed6 (q : Rat) : List Char :=
  let n := roundHalfEven ((if q < 0 then -q else q) * 1000000)
  (if q < 0 then ['-'] else []) ++ (Nat.toDigits 10 (n / 1000000) ++ '.' :: sixDigits (n % 1000000))

/-- `__ObsPart::to_string` — gnssobsrv.cpp:52-54. -/
def ObsPart.toStr (p : ObsPart) : List Char := p.type.toStr ++ '*' :: fixed6 p.coef

/-- `GnssObservable::to_string` — gnssobsrv.cpp:56-62; `__vec[0]` of an empty vector is undefined. -/
def Observable.toStr (o : Observable) : Res (List Char) :=
  match o.vec with
  | [] => .ub
  | p :: ps => .ok (ps.foldl (fun str q => str ++ ('+' :: q.toStr)) p.toStr)

end Ggnss
