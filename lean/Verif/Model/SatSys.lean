import Verif.Model.Base
/-!
# Model of `src/satsys.hpp`, `src/satsys.cpp`
-/
namespace Ggnss

/-- `enum class SATELLITE_SYSTEM` — satsys.hpp:53-62. -/
inductive SatSys where
  | gps | glonass | sbas | galileo | beidou | qzss | irnss | mixed
  deriving DecidableEq, Repr, Inhabited

/-- `satsys_to_char` — satsys.cpp:92-115 with the `identifier` traits of satsys.hpp:81,106,120,
145,161,177,211,227. -/
def satsysToChar : SatSys → Char
  | .gps => 'G'
  | .glonass => 'R'
  | .sbas => 'S'
  | .galileo => 'E'
  | .beidou => 'C'
  | .qzss => 'J'
  | .irnss => 'I'
  | .mixed => 'M'

/-- `char_to_satsys` — satsys.cpp:124-148. -/
def charToSatsys (c : Char) : Res SatSys :=
  if c = 'G' then .ok .gps
  else if c = 'R' then .ok .glonass
  else if c = 'E' then .ok .galileo
  else if c = 'S' then .ok .sbas
  else if c = 'J' then .ok .qzss
  else if c = 'C' then .ok .beidou
  else if c = 'I' then .ok .irnss
  else if c = 'M' then .ok .mixed
  else .throw .runtime_error

/-- `frequency_map` of each system — satsys.cpp:5-7 (GPS), 17-19 (GLONASS), 26-33 (Galileo),
44-46 (SBAS), 53-56 (QZSS), 66-68 (BeiDou), 78-80 (IRNSS).  The mixed "system" has no such member
(satsys.hpp:225-236).  `std::map<int,double>` is an association list; frequencies are exact
rationals in MHz instead of doubles. -/
def frequencyMap : SatSys → List (Int × Rat)
  | .gps => [(1, 1575.42), (2, 1227.60), (5, 1176.45)]
  | .glonass => [(1, 1602.000), (2, 1246.000), (3, 1202.025)]
  | .galileo => [(1, 1575.420), (5, 1176.450), (7, 1207.140), (8, 1191.795), (6, 1278.750)]
  | .sbas => [(1, 1575.42), (5, 1176.45)]
  | .qzss => [(1, 1575.42), (2, 1227.60), (5, 1176.45), (6, 1278.75)]
  | .beidou => [(1, 1561.098), (2, 1207.140), (3, 1268.520)]
  | .irnss => [(5, 1176.450), (9, 2492.028)]
  | .mixed => []

/-- `valid_atributes` of each system — satsys.cpp:10-14, 21-23, 35-41, 48-50, 58-63, 70-74,
82-84. (For `mixed` it is declared, satsys.hpp:235, but never defined.) -/
def validAttributes : SatSys → List (Int × List Char)
  | .gps => [(1, c!"CSLXPWYMN?"), (2, c!"CDSLXPWYMN?"), (5, c!"IQX?")]
  | .glonass => [(1, c!"CP?"), (2, c!"CP?"), (3, c!"IQX?")]
  | .galileo => [(1, c!"ABCXZ?"), (5, c!"IQX?"), (7, c!"IQX?"), (8, c!"IQX?"), (6, c!"ABCXZ?")]
  | .sbas => [(1, c!"C?"), (5, c!"IQX?")]
  | .qzss => [(1, c!"CSLXZ?"), (2, c!"SLX?"), (5, c!"IQX?"), (6, c!"SLX?")]
  | .beidou => [(1, c!"IQX?"), (2, c!"IQX?"), (3, c!"IQX?")]
  | .irnss => [(5, c!"ABCX?"), (9, c!"ABCX?")]
  | .mixed => []

/-- `std::map::at`: the mapped value, or `std::out_of_range`. -/
def mapAt {β : Type} (m : List (Int × β)) (k : Int) : Res β :=
  match m.lookup k with
  | some v => .ok v
  | none => .throw .out_of_range

/-- `satellite_system_traits<S>::band2frequency` — satsys.hpp:91, 130, 155, 171, 187, 221
(`frequency_map.at(band)`).  GLONASS and mixed do not declare it; the model gives GLONASS the same
lookup in its own table and `mixed` the empty one, and no theorem uses these two. -/
def band2frequency (s : SatSys) (band : Int) : Res Rat := mapAt (frequencyMap s) band

end Ggnss
