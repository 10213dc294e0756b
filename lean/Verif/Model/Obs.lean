import Verif.Model.SatSys
/-!
# Model of `src/gnssobs.hpp/.cpp`, `src/gnssobsrv.hpp/.cpp`, `src/satellite.hpp/.cpp`
-/
namespace Ggnss

/-- `enum class OBSERVABLE_TYPE` — gnssobs.hpp:33-41. -/
inductive ObsType where
  | pseudorange | carrier_phase | doppler | signal_strength
  | ionosphere_phase_delay | receiver_channel_number | any
  deriving DecidableEq, Repr, Inhabited

/-- `char_to_observabletype` — gnssobs.cpp:22-40. -/
def charToObsType (c : Char) : Res ObsType :=
  if c = 'C' then .ok .pseudorange
  else if c = 'L' then .ok .carrier_phase
  else if c = 'D' then .ok .doppler
  else if c = 'S' then .ok .signal_strength
  else if c = 'I' then .ok .ionosphere_phase_delay
  else if c = 'X' then .ok .receiver_channel_number
  else .throw .runtime_error

/-- `observabletype_to_char` — gnssobs.cpp:54-73. -/
def obsTypeToChar : ObsType → Char
  | .pseudorange => 'C'
  | .carrier_phase => 'L'
  | .doppler => 'D'
  | .signal_strength => 'S'
  | .ionosphere_phase_delay => 'I'
  | .receiver_channel_number => 'X'
  | .any => '?'

/-- `class ObservationCode` (type, band, attribute) — gnssobs.hpp:108-168.  `ObservationAttribute`
(gnssobs.hpp:57-74) is a wrapper of one char.  `operator==` (gnssobs.hpp:129-132) is equality of
the three members, i.e. equality of this structure. -/
structure ObsCode where
  type : ObsType
  band : Int
  attr : Char
  deriving DecidableEq, Repr, Inhabited

/-- The default constructed code — gnssobs.hpp:111-114 and 60. -/
def ObsCode.default : ObsCode := ⟨.any, 0, '?'⟩

/-- Value of a `char` promoted to `int` (plain `char` is signed on the supported platforms). -/
def scharVal (c : Char) : Int := if c.toNat < 128 then (c.toNat : Int) else (c.toNat : Int) - 256

/-- `ObservationCode::ObservationCode(const char*)` — gnssobs.cpp:84-99.  `str` is the C string
argument (chars before its terminator). -/
def ObsCode.parse (str : List Char) : Res ObsCode :=
  match str with
  | t :: b :: rest => do
      let ot ← charToObsType t
      let bn := scharVal b - 48
      let at' := match rest with
        | [] => '?'
        | a :: _ => if a ≠ ' ' then a else '?'
      pure ⟨ot, bn, at'⟩
  | _ => .throw .runtime_error

/-- `std::to_string(int)`: decimal digits, with a minus sign when negative. -/
def intToString (i : Int) : List Char :=
  if i < 0 then '-' :: Nat.toDigits 10 i.natAbs else Nat.toDigits 10 i.natAbs

/-- `ObservationCode::to_string` — gnssobs.cpp:101-110 (`c1[0]` of a non-empty string). -/
def ObsCode.toStr (o : ObsCode) : List Char :=
  [obsTypeToChar o.type, (intToString o.band).headD '?', o.attr]

/-- `class GnssRawObservable` — gnssobsrv.hpp:30-79; `operator==` (44-46) is structure equality. -/
structure RawObs where
  sys : SatSys
  code : ObsCode
  deriving DecidableEq, Repr, Inhabited

/-- `GnssRawObservable::to_string` — gnssobsrv.cpp:47-50. -/
def RawObs.toStr (r : RawObs) : List Char := satsysToChar r.sys :: (c!"::" ++ r.code.toStr)

/-- `struct __ObsPart` — gnssobsrv.hpp:81-106; `operator==` (92-94) is structure equality.
The coefficient is an exact rational instead of a double (so NaN does not exist). -/
structure ObsPart where
  type : RawObs
  coef : Rat
  deriving DecidableEq, Repr, Inhabited

/-- `__ObsPart::frequency` — gnssobsrv.cpp:5-45. -/
def ObsPart.frequency (p : ObsPart) : Res Rat :=
  match p.type.sys with
  | .gps => do return (← band2frequency .gps p.type.code.band) * p.coef
  | .glonass => .ok 0
  | .sbas => do return (← band2frequency .sbas p.type.code.band) * p.coef
  | .galileo => do return (← band2frequency .galileo p.type.code.band) * p.coef
  | .beidou => do return (← band2frequency .beidou p.type.code.band) * p.coef
  | .qzss => do return (← band2frequency .qzss p.type.code.band) * p.coef
  | .irnss => do return (← band2frequency .irnss p.type.code.band) * p.coef
  | .mixed => .ok 0

/-- `class GnssObservable`: its vector of parts — gnssobsrv.hpp:108-159. -/
structure Observable where
  vec : List ObsPart
  deriving DecidableEq, Repr, Inhabited

/-- constructors — gnssobsrv.hpp:110-117. -/
def Observable.mk1 (o : RawObs) (coef : Rat) : Observable := ⟨[⟨o, coef⟩]⟩

/-- `GnssObservable::add` — gnssobsrv.hpp:119-126. -/
def Observable.add (o : Observable) (r : RawObs) (coef : Rat) : Observable := ⟨o.vec ++ [⟨r, coef⟩]⟩

/-- `GnssObservable::frequency` (noexcept) — gnssobsrv.hpp:128-133. -/
def Observable.frequency (o : Observable) : Res Rat :=
  Res.noexcept (o.vec.foldlM (fun acc p => do return acc + (← p.frequency)) 0)

/-- `GnssObservable::operator==` — gnssobsrv.cpp:64-75. -/
def Observable.eq (a o : Observable) : Bool :=
  if o.vec.length ≠ a.vec.length then false
  else a.vec.all (fun i => o.vec.any (fun p => p == i))

/-- `GnssObservable::is_of_mixed_satsys` — gnssobsrv.hpp:145-153. -/
def Observable.isMixed (o : Observable) : Bool :=
  match o.vec with
  | [] => false
  | p0 :: _ => o.vec.any (fun p => p.type.sys != p0.type.sys)

/-- `Satellite::to_string(true)` — satellite.cpp:5-10. -/
def satToStr (sys : SatSys) (prn : Int) : List Char :=
  satsysToChar sys :: (if prn < 10 then '0' :: intToString prn else intToString prn)

/-- `Satellite::to_string(false)` — satellite.cpp:5-21; `cospar` is the 9-byte member array, of
which 8 chars are taken whatever they are (satellite.hpp:115-116: never initialised by the
constructors). -/
def satToStrFull (sys : SatSys) (prn svn : Int) (cospar : List Char) : List Char :=
  let s := intToString svn
  satToStr sys prn ++
    (if svn < 10 then c!"-00" ++ s else if svn < 100 then c!"-0" ++ s else c!"-" ++ s) ++
    ('/' :: cospar.take 8)

end Ggnss
