import Verif.Model.Num
import Mathlib.Algebra.Order.Ring.Rat
/-!
# The part of the external library ggdatetime that the model needs, and number conversions

ggdatetime is not part of /repo; this file fixes what the model assumes about it.
-/
namespace Ggnss

/-- `ngpt::datetime<seconds>` of ggdatetime: day and (integral) second of day. -/
structure DateTime where
  mjd : Int
  sec : Int
  deriving DecidableEq, Repr

/-- Seconds since MJD 0; comparison and difference of `datetime`s are those of this number. -/
def DateTime.total (d : DateTime) : Int := 86400 * d.mjd + d.sec

/-- MJD of 6 January 1980, the origin of GPS weeks (ggdatetime). -/
def MJD_JAN61980 : Int := 44244

/-- `datetime<seconds>(gps_week wk, seconds sow)` of ggdatetime. -/
def DateTime.ofGpsWeek (wk sow : Int) : DateTime :=
  ⟨MJD_JAN61980 + 7 * wk + sow.tdiv 86400, sow.tmod 86400⟩

/-- `datetime::as_gps_wsow(sow)` of ggdatetime: the second of the GPS week. -/
def DateTime.sow (d : DateTime) : Int := (d.mjd - MJD_JAN61980).tmod 7 * 86400 + d.sec

/-- Truncation of a floating point number towards zero. -/
def truncRat (q : Rat) : Int := q.num.tdiv q.den

/-- `static_cast<int>(x)`: undefined when the truncated value does not fit. -/
def castInt (q : Rat) : Res Int :=
  if -2147483648 ≤ truncRat q ∧ truncRat q ≤ 2147483647 then .ok (truncRat q) else .ub

/-- `static_cast<long>(x)`. -/
def castLong (q : Rat) : Res Int :=
  if LONG_MIN ≤ truncRat q ∧ truncRat q ≤ LONG_MAX then .ok (truncRat q) else .ub

end Ggnss
