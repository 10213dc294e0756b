import Verif.Spec.Pp
import Verif.Spec.Orbit
import Verif.Spec.Kalman
import Verif.Model.PpRun
import Verif.Spec.ObsFile
/-!
# Specification: what the positioning program should do with an epoch

Of the model only the data types `PpSite`, `PpRow`, `KalInput` and `KeplerConst` are used.
-/
namespace Ggnss
open NavItem

/-! ## Geometry -/

/-- The unit vector of the local vertical at geodetic latitude and longitude. -/
noncomputable def upAt (lat lon : ℝ) : Fin 3 → ℝ := ![Real.cos lat * Real.cos lon, Real.cos lat * Real.sin lon, Real.sin lat]

/-- Distance between receiver and satellite. -/
noncomputable def PpSite.range (s : PpSite) (p : Fin 3 → ℝ) : ℝ := √((p 0 - s.x) ^ 2 + (p 1 - s.y) ^ 2 + (p 2 - s.z) ^ 2)

/-- `z` (between 0 and π) is the angle between the local vertical and the line of sight to the point `p`. -/
def IsZenith (s : PpSite) (p : Fin 3 → ℝ) (z : ℝ) : Prop :=
  0 ≤ z ∧ z ≤ Real.pi ∧
    s.range p * Real.cos z = upAt s.lat s.lon 0 * (p 0 - s.x) + upAt s.lat s.lon 1 * (p 1 - s.y) + upAt s.lat s.lon 2 * (p 2 - s.z)

/-- Degrees to radians. -/
noncomputable def deg (d : ℝ) : ℝ := d * Real.pi / 180

/-! ## Troposphere (Bernese manual 5.0, section 11.3: model of Saastamoinen, standard atmosphere) -/

/-- Pressure in hPa at height `h` (m). -/
noncomputable def stdPressure (h : ℝ) : ℝ := 1013.25 * (1 - 0.0000226 * h) ^ (5.225 : ℝ)
/-- Temperature in Kelvin: 18 degrees Celsius at sea level. -/
noncomputable def stdTemperature (h : ℝ) : ℝ := 291.15 - 0.0065 * h
/-- Relative humidity (50 % at sea level), as a fraction. -/
noncomputable def stdHumidity (h : ℝ) : ℝ := 50 / 100 * Real.exp (-0.0006396 * h)
/-- Partial pressure of water vapour in hPa. -/
noncomputable def vapourPressure (h : ℝ) : ℝ :=
  stdHumidity h * Real.exp (-37.2465 + 0.213166 * stdTemperature h - 0.000256908 * stdTemperature h ^ 2)
/-- Saastamoinen's delay in metres at zenith angle `z`. -/
noncomputable def tropDelay (h z : ℝ) : ℝ :=
  0.002277 / Real.cos z * (stdPressure h + (1255 / stdTemperature h + 0.05) * vapourPressure h - Real.tan z ^ 2)
/-- The same in dry air. -/
noncomputable def dryDelay (h z : ℝ) : ℝ := 0.002277 / Real.cos z * (stdPressure h - Real.tan z ^ 2)

/-! ## Broadcast positions and clocks at an epoch -/

/-- Keplerian elements of a record, by their places in the record (RINEX 3.04 tables A5, A8, A14). -/
noncomputable def NavItem.el (r : NavItem) : Elements where
  a0 := ((r.val 0 0 : ℚ) : ℝ)
  a1 := ((r.val 0 1 : ℚ) : ℝ)
  a2 := ((r.val 0 2 : ℚ) : ℝ)
  crs := ((r.val 1 1 : ℚ) : ℝ)
  deltaN := ((r.val 1 2 : ℚ) : ℝ)
  m0 := ((r.val 1 3 : ℚ) : ℝ)
  cuc := ((r.val 2 0 : ℚ) : ℝ)
  e := ((r.val 2 1 : ℚ) : ℝ)
  cus := ((r.val 2 2 : ℚ) : ℝ)
  sqrtA := ((r.val 2 3 : ℚ) : ℝ)
  toeSow := ((r.val 3 0 : ℚ) : ℝ)
  cic := ((r.val 3 1 : ℚ) : ℝ)
  omega0 := ((r.val 3 2 : ℚ) : ℝ)
  cis := ((r.val 3 3 : ℚ) : ℝ)
  i0 := ((r.val 4 0 : ℚ) : ℝ)
  crc := ((r.val 4 1 : ℚ) : ℝ)
  omega := ((r.val 4 2 : ℚ) : ℝ)
  omegaDot := ((r.val 4 3 : ℚ) : ℝ)
  idot := ((r.val 5 0 : ℚ) : ℝ)

/-- Seconds from `ref` (seconds since MJD 0) to `t` (milliseconds since MJD 0). -/
noncomputable def secsSince (t ref : Int) : ℝ := (t : ℝ) / 1000 - ref

/-- Gravitational constant, rotation rate of the Earth and relativistic clock factor of the interface documents of GPS, Galileo and
BeiDou. -/
noncomputable def specConst : SatSys → KeplerConst
  | .galileo => ⟨3.986004418e14, 7.2921151467e-5, -4.442807309e-10⟩
  | .beidou => ⟨3.986004418e14, 7.2921150e-5, -2 * Real.sqrt 3.986004418e14 / (299792458 * 299792458)⟩
  | _ => ⟨3.986005e14, 7.2921151467e-5, -4.442807633e-10⟩

/-- Position and clock of a GPS, Galileo or BeiDou record at `t`: the interface documents' algorithm, Kepler's equation being solved to
10⁻¹⁴.  (The relativistic clock term uses the eccentric anomaly reckoned from the time of clock, see C26.) -/
def KeplerSays (r : NavItem) (t : Int) (p : Fin 3 → ℝ) (clk : ℝ) : Prop :=
  ∃ toe E v E', r.toeIs toe ∧
    SolvesKepler r.el.e (r.el.meanAnomaly (specConst r.sys).mi (secsSince t toe)) E (|r.el.e| * 1e-14) ∧ IsTrueAnomaly r.el.e E v ∧
    p = r.el.position (specConst r.sys).omegae (secsSince t toe) E v ∧
    SolvesKepler r.el.e (r.el.meanAnomaly (specConst r.sys).mi (secsSince t r.toc.total)) E' (|r.el.e| * 1e-14) ∧
    clk = r.el.clock (specConst r.sys).fClock (secsSince t r.toc.total) E'

/-- Equations of motion and initial state (metres) of a GLONASS record. -/
noncomputable def NavItem.gloField (r : NavItem) : (Fin 6 → ℝ) → Fin 6 → ℝ :=
  Ggnss.gloField 398600441.8e6 1082625.75e-9 6378136 7.2921151467e-5
    ![((r.val 1 2 : ℚ) : ℝ), ((r.val 2 2 : ℚ) : ℝ), ((r.val 3 2 : ℚ) : ℝ)]
noncomputable def NavItem.gloStart (r : NavItem) : Fin 6 → ℝ :=
  ![((r.val 1 0 : ℚ) : ℝ), ((r.val 2 0 : ℚ) : ℝ), ((r.val 3 0 : ℚ) : ℝ), ((r.val 1 1 : ℚ) : ℝ), ((r.val 2 1 : ℚ) : ℝ), ((r.val 3 1 : ℚ) : ℝ)]

/-- Position and clock of a GLONASS record at `t`: as many Runge–Kutta steps of 60 s as reach `t` (see C27), linear clock. -/
def GloSays (r : NavItem) (t : Int) (p : Fin 3 → ℝ) (clk : ℝ) : Prop :=
  ∃ toe, r.toeIs toe ∧
    (∀ i : Fin 3, p i = (rk4 r.gloField (if 0 < secsSince t toe then 60 else -60))^[⌈|secsSince t toe| / 60⌉₊] r.gloStart (i.castLE (by decide))) ∧
    clk = ((r.val 0 0 : ℚ) : ℝ) + ((r.val 0 1 : ℚ) : ℝ) * secsSince t toe

/-- What the record broadcasts for `t`. -/
def NavItem.Broadcasts (r : NavItem) (t : Int) (p : Fin 3 → ℝ) (clk : ℝ) : Prop :=
  (r.sys = .glonass ∧ GloSays r t p clk) ∨ (r.sys ≠ .glonass ∧ KeplerSays r t p clk)

/-- Some message of the file, of that satellite and in force at `t`, broadcasts this. -/
def SatAt (rs : List NavItem) (sat : SatSys × Int) (t : Int) (p : Fin 3 → ℝ) (clk : ℝ) : Prop :=
  ∃ r ∈ rs, r.Of sat.1 sat.2 ∧ r.ValidAt t ∧ r.Broadcasts t p clk

/-! ## Rows of the filter -/

/-- The satellites (with their first value) of an epoch and what the filter is to get: satellites without value, without message in
force or lower than 10 degrees are left out, all others enter with value, position and clock. -/
inductive RowsOf (rs : List NavItem) (site : PpSite) (t : Int) : List ((SatSys × Int) × Rat) → List PpRow → Prop
  | nil : RowsOf rs site t [] []
  | missing {sat v xs rows} : |v - missingMark| ≤ 1 / 1000 → RowsOf rs site t xs rows → RowsOf rs site t ((sat, v) :: xs) rows
  | unknown {sat v xs rows} : 1 / 1000 < |v - missingMark| → ¬ HasValid rs sat.1 sat.2 t → RowsOf rs site t xs rows →
      RowsOf rs site t ((sat, v) :: xs) rows
  | low {sat v xs rows p clk z} : 1 / 1000 < |v - missingMark| → SatAt rs sat t p clk → IsZenith site p z → deg 80 ≤ z →
      RowsOf rs site t xs rows → RowsOf rs site t ((sat, v) :: xs) rows
  | used {sat v xs rows p clk z} : 1 / 1000 < |v - missingMark| → SatAt rs sat t p clk → IsZenith site p z → z < deg 80 →
      RowsOf rs site t xs rows → RowsOf rs site t ((sat, v) :: xs) (⟨(v : ℝ), p, clk⟩ :: rows)

/-- No satellite of the epoch is more than 0.2 rad below the horizon, and eccentricities are at most 0.95. -/
def Visible (rs : List NavItem) (site : PpSite) (t : Int) (xs : List ((SatSys × Int) × Rat)) : Prop :=
  ∀ x ∈ xs, 1 / 1000 < |x.2 - missingMark| → ∀ r ∈ rs, r.Of x.1.1 x.1.2 → r.ValidAt t →
    (r.sys ≠ .glonass → 0 ≤ r.el.e ∧ r.el.e ≤ 0.95) ∧
    ∀ p clk z, r.Broadcasts t p clk → IsZenith site p z → z ≤ Real.pi / 2 + 0.2

/-! ## Runs -/

/-- An epoch in whole milliseconds since MJD 0 (fractions of a millisecond are cut off). -/
def epochMs (mjd : Int) (sec : Rat) : Int := 86400000 * mjd + ⌊sec * 1000⌋

/-- The satellites with their first values. -/
def firstValues (out : List ((SatSys × Int) × List Rat)) : List ((SatSys × Int) × Rat) := out.map fun o => (o.1, o.2.headD 0)

/-- An epoch of the observation file: day, second of day, satellites with their values. -/
structure PpObs where
  mjd : Int
  sec : Rat
  out : List ((SatSys × Int) × List Rat)

/-- The epoch is in order: time within a day, at least one value per satellite, satellites of GPS, GLONASS, Galileo and BeiDou only, not
more than 30 of them, none of them far below the horizon. -/
structure EpochOK (rs : List NavItem) (site : PpSite) (e : PpObs) : Prop where
  sec0 : 0 ≤ e.sec
  sec1 : e.sec < 86400
  values : ∀ o ∈ e.out, o.2 ≠ []
  handled : ∀ o ∈ e.out, Handled o.1.1
  count : e.out.length ≤ 30
  visible : Visible rs site (epochMs e.mjd e.sec) (firstValues e.out)

/-- What one update of the filter is to be made with, given the rows of the epoch: the value less the (dry) tropospheric delay at the
satellite's zenith angle, position and clock, weight 1, and the second of day as length of the step. -/
structure IsUpdate (site : PpSite) (sec : Rat) (rows : List PpRow) (u : KalInput) : Prop where
  count : u.n = rows.length
  sats : ∀ i : Fin u.n, ∃ r z, rows[i.val]? = some r ∧ IsZenith site r.pos z ∧
    |u.obs i - (r.obs - dryDelay site.hgt z)| ≤ 2e-5 / |Real.cos z| ∧ u.sv i = ![r.pos 0, r.pos 1, r.pos 2, r.clock]
  weights : ∃ w, u.w = some w ∧ ∀ i, w i = 1
  dt : u.dt = (sec : ℝ)

/-- One update per epoch of more than four satellites, in order. -/
inductive UpdatesOf (rs : List NavItem) (site : PpSite) : List PpObs → List KalInput → Prop
  | nil : UpdatesOf rs site [] []
  | few {e es us} : e.out.length ≤ 4 → UpdatesOf rs site es us → UpdatesOf rs site (e :: es) us
  | update {e es us rows u} : 4 < e.out.length → RowsOf rs site (epochMs e.mjd e.sec) (firstValues e.out) rows → rows ≠ [] →
      IsUpdate site e.sec rows u → UpdatesOf rs site es us → UpdatesOf rs site (e :: es) (u :: us)

end Ggnss
