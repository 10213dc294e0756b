import Verif.Model.PpRun
import Verif.Model.ObsHead
import Verif.Model.NavHead
import Verif.Model.Antex
/-!
# Model of `main` of the positioning program `test/pp_rnx.cpp:228-374`, from the command line on

What the program writes is represented by the satellites it lists and the filter updates it makes.
-/
namespace Ggnss

/-- The surroundings of the program: file system, date readers of ggdatetime, `car2ell` of ggeodesy, indeterminate memory, and bounds for loops
that the code does not bound. -/
structure PpWorld where
  files : List Char → Option (List Char)
  obsDate : List Char → Res DateTime
  navDate : List Char → Res DateTime
  atxDate : List Char → Res DateTime
  mjdOf : Int → Int → Int → Res Int
  /-- `cast_to<seconds>` of the time of first observation (`none`: default constructed) -/
  firstDate : Option DateTime → DateTime
  car2ell : ℝ → ℝ → ℝ → ℝ × ℝ × ℝ
  gAnt : Nat → List Char
  g0 : List Char
  junkObs : List Char
  buf0 : Nat → List Char
  junkNav : List Char
  navJunk : Nat → List Char
  J : AtxJunk
  /-- the COSPAR array of the `Satellite` that the query for a slot works on -/
  cospar : Int → List Char
  fresh : NavFrame
  raw0 : RawRnxObs
  state0 : Fin 6 → ℝ
  clock0 : ℝ
  P0 : Matrix (Fin 5) (Fin 5) ℝ
  fuel : Nat

/-- What a run of the program does: exit code, satellites listed, filter updates. -/
structure PpOutcome where
  code : Int
  sats : List AtxSat
  updates : List KalInput

/-- A file that cannot be opened makes the constructors throw (`read_header` returns 1) — obsrnx.cpp:84-90, 168-169,
navrnx.cpp:191-199, 210-211, antex.cpp:60-69, 118-119. -/
def ppFile (W : PpWorld) (name : List Char) : Res (List Char) :=
  match W.files name with
  | some c => .ok c
  | none => .throw .runtime_error

/-- The loop `for (int i=1; i<33; i++)` over the slots — pp_rnx.cpp:254-256, `n` slots to go from slot `i` on. -/
def ppAntex (W : PpWorld) (dt : DateTime) : (n : Nat) → (i : Int) → AtxFile → Res (List AtxSat)
  | 0, _, _ => .ok []
  | n + 1, i, f => do
      let r ← atxSatInfo W.atxDate W.J (W.cospar i) W.fuel f i .glonass dt
      let l ← ppAntex W dt n (i + 1) r.2.2
      pure (if r.1 = 0 then r.2.1.toList ++ l else l)

/-- The satellites listed — pp_rnx.cpp:248-258. -/
def ppSatList (W : PpWorld) (o : ObsFileObj) : Option (List Char) → Res (List AtxSat)
  | none => .ok []
  | some name => do
      let c ← ppFile W name
      let f ← atxOpen W.J c
      ppAntex W (W.firstDate o.firstObs) 32 1 f

/-- The approximate position — pp_rnx.cpp:279-285. -/
noncomputable def ppSite (W : PpWorld) (o : ObsFileObj) : PpSite :=
  let x : ℝ := ((o.approx.getD 0 0 : ℚ) : ℝ)
  let y : ℝ := ((o.approx.getD 1 0 : ℚ) : ℝ)
  let z : ℝ := ((o.approx.getD 2 0 : ℚ) : ℝ)
  ⟨x, y, z, (W.car2ell x y z).1, (W.car2ell x y z).2.1, (W.car2ell x y z).2.2⟩

/-- The rest of `main` — pp_rnx.cpp:259-373. `errno` is zero after headers that were read without error whose version
number is a `float`.  Simplification: with a navigation object whose `__end_of_head` is -1 (its stream failed) only the refusal of the request is
modelled, everything else counts as undefined. -/
noncomputable def ppRest (W : PpWorld) (req : ReqMap) (o : ObsFileObj) (obs : Stream) (buf : List Char) (nav : NavFile) :
    Res (Int × List KalInput) :=
  match nav.endOfHead with
  | none => do
    let m ← setReadMap o.obst req false
    if m.1 = [] then pure (100, []) else .ub
  | some e =>
    ppMain ⟨W.navDate, W.navJunk, W.fuel, W.fuel, e, W.fresh, W.mjdOf, W.raw0, [], ppSite W o⟩ o.obst req W.fuel obs nav.strm buf 0
      W.state0 W.clock0 W.P0

/-- `main` with the request `req` in place of the one of pp_rnx.cpp:243-246, 261-262.  An exception that nobody catches
terminates the program. -/
noncomputable def ppProgram (W : PpWorld) (req : ReqMap) (argv : List (List Char)) : Res PpOutcome :=
  Res.noexcept (
    match argv with
    | _ :: a1 :: a2 :: more => do
      let c1 ← ppFile W a1
      let o ← obsOpen W.obsDate W.gAnt false W.g0 W.junkObs W.buf0 c1
      let c2 ← ppFile W a2
      let nav ← navOpen W.junkNav c2
      let sats ← ppSatList W o.1 more.head?
      let r ← ppRest W req o.1 o.2.1 o.2.2 nav
      pure ⟨r.1, sats, r.2⟩
    | _ => pure ⟨1, [], []⟩)

/-- The program as it is. -/
noncomputable def ppShipped (W : PpWorld) (argv : List (List Char)) : Res PpOutcome := ppProgram W ppRequest argv

end Ggnss
