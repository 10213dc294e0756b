import Verif.Spec.Sp3Sound
import Verif.Spec.ObsHead
import Verif.Props.Obs
import Verif.Model.ObsHead
/-!
# Specification for C104: what the header of an opened observation file must rest on

From the model only the type of the result (`ObsFileObj`), the types `SatSys`, `ObsCode`, `DateTime`, the text of an antenna (`antText`)
and the conversion to `int` (`toInt32`) are used.  Columns count from 0.
-/
namespace Ggnss

/-- The code that stands at column `off` of a line: a type letter, a char (its distance from '0' is the band), and an attribute ('?' for a blank or for nothing). -/
def CodeAt (l : List Char) (off : Nat) (c : ObsCode) : Prop :=
  ∃ t b rest, l.drop off = t :: b :: rest ∧ (c.type, t) ∈ specTypeLetters ∧
    c.band = scharVal b - 48 ∧ c.attr = (match rest with | [] => '?' | ' ' :: _ => '?' | a :: _ => a)

/-- Three numbers from columns 0, 14 and 28 on. -/
def ThreeGiven (l : List Char) (v : List Rat) : Prop :=
  ∃ x y z, v = [x, y, z] ∧ NumberIn l x ∧ NumberIn (l.drop 14) y ∧ NumberIn (l.drop 28) z

/-- One entry of a header: its lines and what the object takes from them. -/
inductive ObsEntry where
  | other (l : List Char)
  | marker (l name : List Char)
  | markerNo (l no : List Char)
  | receiver (l no type : List Char)
  | antenna (l word : List Char)
  | position (l : List Char) (v : List Rat)
  | delta (l : List Char) (v : List Rat)
  | types (l : List Char) (more : List (List Char)) (sys : SatSys) (codes : List ObsCode)
  | clock (l : List Char) (applied : Bool)
  | firstObs (l : List Char) (t : DateTime)

namespace ObsEntry

/-- The lines of the entry. -/
def lines : ObsEntry → List (List Char)
  | other l => [l]
  | marker l _ => [l]
  | markerNo l _ => [l]
  | receiver l _ _ => [l]
  | antenna l _ => [l]
  | position l _ => [l]
  | delta l _ => [l]
  | types l more _ _ => l :: more
  | clock l _ => [l]
  | firstObs l _ => [l]

/-- The lines are labelled as the entry requires, and what the object takes from them stands in them: of names the first word of their columns; three numbers;
the letter of a system, the number of codes (from column 3) and as many codes, 13 per line, each further line labelled like the first; a number that is 0 or 1 (and does not
end exactly with column 2) or no number, which counts as 0; a date `date` accepts. -/
def Gives (date : List Char → Res DateTime) : ObsEntry → Prop
  | other l => ∀ p ∈ ObsItem.knownLabels, ¬ HasLabel l p
  | marker l name => HasLabel l c!"MARKER NAME" ∧ FirstWordOf (colsAt l 0 60) name
  | markerNo l no => HasLabel l c!"MARKER NUMBER" ∧ FirstWordOf (colsAt l 0 20) no
  | receiver l no type => HasLabel l c!"REC # / TYPE / VERS" ∧ FirstWordOf (colsAt l 0 20) no ∧ FirstWordOf (colsAt l 20 20) type
  | antenna l word => HasLabel l c!"ANT # / TYPE" ∧ FirstWordOf (colsAt l 20 20) word
  | position l v => HasLabel l c!"APPROX POSITION XYZ" ∧ ThreeGiven l v
  | delta l v => HasLabel l c!"ANTENNA: DELTA H/E/N" ∧ ThreeGiven l v
  | types l more sys codes => (∀ x ∈ l :: more, HasLabel x c!"SYS / # / OBS TYPES") ∧ l[0]? = some (satsysToChar sys) ∧
      (∃ n, LongBegins (l.drop 3) n ∧ toInt32 n = codes.length) ∧ codes ≠ [] ∧ more.length = codes.length / 13 ∧
      ∀ (i : Nat) (c : ObsCode), codes[i]? = some c → ∃ x, (l :: more)[i / 13]? = some x ∧ CodeAt x (7 + 4 * (i % 13)) c
  | clock l b => HasLabel l c!"RCV CLOCK OFFS APPL" ∧
      ((b = false ∧ ∀ n, ¬ IntBegins l n) ∨ ∃ n rest, IntThen l n rest ∧ n ≤ 9223372036854775807 ∧ -9223372036854775808 ≤ n ∧ rest.length + 3 ≠ l.length ∧
        toInt32 n = if b then 1 else 0)
  | firstObs l t => HasLabel l c!"TIME OF FIRST OBS" ∧ date l = .ok t

def marker? : ObsEntry → Option (List Char) | marker _ n => some n | _ => none
def markerNo? : ObsEntry → Option (List Char) | markerNo _ n => some n | _ => none
def receiver? : ObsEntry → Option (List Char × List Char) | receiver _ n t => some (n, t) | _ => none
def antenna? : ObsEntry → Option (List Char) | antenna l w => some (antennaSeen w (colsAt l 0 20)) | _ => none
def position? : ObsEntry → Option (List Rat) | position _ v => some v | _ => none
def delta? : ObsEntry → Option (List Rat) | delta _ v => some v | _ => none
def types? : ObsEntry → Option (SatSys × List ObsCode) | types _ _ q c => some (q, c) | _ => none
def clock? : ObsEntry → Option Bool | clock _ b => some b | _ => none
def firstObs? : ObsEntry → Option DateTime | firstObs _ t => some t | _ => none

end ObsEntry

/-- The object says what the entries say (of several entries of a kind, the last). -/
structure ObsGiven (entries : List ObsEntry) (o : ObsFileObj) : Prop where
  marker : o.markerName = (lastOf ObsEntry.marker? entries).getD []
  markerNo : o.markerNumber = (lastOf ObsEntry.markerNo? entries).getD []
  receiver : (o.recNumber, o.recType) = (lastOf ObsEntry.receiver? entries).getD ([], [])
  antenna : antText o.antenna = .ok ((lastOf ObsEntry.antenna? entries).getD (List.replicate 20 ' '))
  position : o.approx = (lastOf ObsEntry.position? entries).getD [0, 0, 0]
  delta : o.ecc = (lastOf ObsEntry.delta? entries).getD [0, 0, 0]
  clock : o.clkApplied = (lastOf ObsEntry.clock? entries).getD false
  firstObs : o.firstObs = lastOf ObsEntry.firstObs? entries
  types : ∀ q, o.obst.lookup q = (entries.filterMap ObsEntry.types?).lookup q

/-- The lines `body` (those between the second line and END OF HEADER) are fewer than 999 entries; no system has two lists of types. -/
structure BodyGives (date : List Char → Res DateTime) (body : List (List Char)) (entries : List ObsEntry) : Prop where
  body : body = (entries.map (·.lines)).flatten
  gives : ∀ e ∈ entries, e.Gives date
  once : (entries.filterMap ObsEntry.types?).Pairwise (fun a b => a.1 ≠ b.1)
  few : entries.length < 999

/-- The first line: a version, 'O' and the letter of a system. -/
structure FirstGives (first : List Char) (o : ObsFileObj) : Prop where
  version : RealBegins first o.version
  kind : first[20]? = some 'O'
  sys : first[40]? = some (satsysToChar o.sys)

end Ggnss
