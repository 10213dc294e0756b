import Verif.Spec.Antex
import Verif.Spec.ObsFile
/-!
# Specification: the header of a RINEX 3 observation file

What the header lines look like and what they say.  From the model only `SatSys`, `satsysToChar`,
`ObsCode`, its text and `DateTime` are used.  Columns count from 0.
-/
namespace Ggnss

/-- Columns `off … off+w-1` of the line. -/
def colsAt (l : List Char) (off w : Nat) : List Char := (l.drop off).take w

/-- The columns show the word (no blank in it), left-adjusted. -/
def WordCols (txt word : List Char) : Prop :=
  ' ' ∉ word ∧ ∃ k, txt = word ++ List.replicate k ' '

/-- A code as RINEX 3 writes it: a type letter, a digit, a non-blank attribute. -/
structure CodeOK (c : ObsCode) : Prop where
  type : c.type ≠ .any
  band : 0 ≤ c.band ∧ c.band ≤ 9
  attr : c.attr ≠ ' '

/-- A list of observation types: system, codes, and the lines that show them (13 codes per line). -/
structure TypesEntry where
  sys : SatSys
  codes : List ObsCode
  lines : List (List Char)

/-- Format A1,2X,I3,13(1X,A3) resp. 6X,13(1X,A3): the system letter in column 0 and the number of codes
in columns 3-5 of the first line; code `i` on line `i / 13`, in the three columns from `7 + 4 (i mod 13)` on. -/
structure TypesEntry.Shows (e : TypesEntry) : Prop where
  count : e.lines.length = (e.codes.length + 12) / 13
  labelled : ∀ l ∈ e.lines, Labelled l c!"SYS / # / OBS TYPES"
  letter : ∀ l, e.lines.head? = some l → l[0]? = some (satsysToChar e.sys)
  number : ∀ l, e.lines.head? = some l → IntCols 3 (colsAt l 3 3) e.codes.length ∧ l[6]? = some ' '
  codesOK : ∀ c ∈ e.codes, CodeOK c
  shown : ∀ (i : Nat) (c : ObsCode), e.codes[i]? = some c → ∃ l, e.lines[i / 13]? = some l ∧
    colsAt l (7 + 4 * (i % 13)) 3 = c.toStr

/-- Three numbers in 14 columns each (3F14.4), separated by a blank or a sign. -/
def ThreeNumbers (l : List Char) (x y z : Numeral) : Prop :=
  ∃ rest, l = x.text ++ (y.text ++ (z.text ++ rest)) ∧ stopsNumber rest ∧
    ∀ n ∈ [x, y, z], n.WF ∧ n.text.length = 14 ∧ (0 < n.blanks ∨ n.sign ≠ none)

/-- One entry of the header. -/
inductive ObsItem where
  | other (l : List Char)
  | marker (l name : List Char)
  | markerNo (l no : List Char)
  | receiver (l no type : List Char)
  | antenna (l model radome : List Char)
  | position (l : List Char) (x y z : Numeral)
  | delta (l : List Char) (h e n : Numeral)
  | types (e : TypesEntry)
  | clock (l : List Char) (applied : Bool)
  | firstObs (l : List Char) (t : DateTime)

namespace ObsItem

/-- The lines of the entry. -/
def lines : ObsItem → List (List Char)
  | other l => [l]
  | marker l _ => [l]
  | markerNo l _ => [l]
  | receiver l _ _ => [l]
  | antenna l _ _ => [l]
  | position l _ _ _ => [l]
  | delta l _ _ _ => [l]
  | types e => e.lines
  | clock l _ => [l]
  | firstObs l _ => [l]

/-- The labels the reader knows. -/
def knownLabels : List (List Char) :=
  [c!"MARKER NAME", c!"MARKER NUMBER", c!"REC # / TYPE / VERS", c!"ANT # / TYPE", c!"APPROX POSITION XYZ",
   c!"ANTENNA: DELTA H/E/N", c!"SYS / # / OBS TYPES", c!"RCV CLOCK OFFS APPL", c!"TIME OF FIRST OBS", c!"END OF HEADER"]

/-- The entry is written as RINEX 3 prescribes and says what its fields tell.  `strptime` is the date
parser (it gets the line, its terminator and anything behind it).  Other lines are at least 60 chars
long (blanks before the label) and have none of the labels. -/
def Says (strptime : List Char → Res DateTime) : ObsItem → Prop
  | other l => LineFits 84 l ∧ 60 ≤ l.length ∧ ∀ p ∈ knownLabels, ¬ HasLabel l p
  | marker l name => Labelled l c!"MARKER NAME" ∧ WordCols (colsAt l 0 60) name
  | markerNo l no => Labelled l c!"MARKER NUMBER" ∧ WordCols (colsAt l 0 20) no
  | receiver l no type => Labelled l c!"REC # / TYPE / VERS" ∧ WordCols (colsAt l 0 20) no ∧ WordCols (colsAt l 20 20) type
  | antenna l model radome => Labelled l c!"ANT # / TYPE" ∧ WordCols (colsAt l 20 16) model ∧ colsAt l 36 4 = radome ∧
      model.length < 16 ∧ model ≠ []
  | position l x y z => Labelled l c!"APPROX POSITION XYZ" ∧ ThreeNumbers l x y z
  | delta l x y z => Labelled l c!"ANTENNA: DELTA H/E/N" ∧ ThreeNumbers l x y z
  | types e => e.Shows ∧ e.codes ≠ []
  | clock l b => Labelled l c!"RCV CLOCK OFFS APPL" ∧ IntCols 6 (colsAt l 0 6) (if b then 1 else 0) ∧ l[6]? = some ' '
  | firstObs l t => Labelled l c!"TIME OF FIRST OBS" ∧ ∀ junk, strptime (l ++ NUL :: junk) = .ok t

def marker? : ObsItem → Option (List Char) | marker _ n => some n | _ => none
def markerNo? : ObsItem → Option (List Char) | markerNo _ n => some n | _ => none
def receiver? : ObsItem → Option (List Char × List Char) | receiver _ n t => some (n, t) | _ => none
def antenna? : ObsItem → Option (List Char × List Char × List Char) | antenna l m r => some (m, r, colsAt l 0 20) | _ => none
def position? : ObsItem → Option (List Rat) | position _ x y z => some [x.value, y.value, z.value] | _ => none
def delta? : ObsItem → Option (List Rat) | delta _ x y z => some [x.value, y.value, z.value] | _ => none
def types? : ObsItem → Option (SatSys × List ObsCode) | types e => some (e.sys, e.codes) | _ => none
def clock? : ObsItem → Option Bool | clock _ b => some b | _ => none
def firstObs? : ObsItem → Option DateTime | firstObs _ t => some t | _ => none

end ObsItem

/-- What the last of the entries of a kind says. -/
def lastOf {α β : Type} (f : α → Option β) (items : List α) : Option β := (items.filterMap f).getLast?

/-- A header.  `first` is the line RINEX VERSION / TYPE, `second` the one after it (PGM / RUN BY /
DATE: its content does not matter), `last` the END OF HEADER line. -/
structure ObsHeader where
  version : Numeral
  sys : SatSys
  first : List Char
  second : List Char
  items : List ObsItem
  last : List Char

def ObsHeader.lines (h : ObsHeader) : List (List Char) := h.first :: h.second :: ((h.items.map (·.lines)).flatten ++ [h.last])

structure ObsHeader.WF (h : ObsHeader) (strptime : List Char → Res DateTime) : Prop where
  first : LineFits 84 h.first ∧ 60 ≤ h.first.length
  version : NumAt h.first 0 h.version ∧ FitsFloat h.version.value
  kind : h.first[20]? = some 'O'
  sys : h.first[40]? = some (satsysToChar h.sys)
  second : LineFits 84 h.second ∧ 60 ≤ h.second.length ∧ ¬ HasLabel h.second c!"END OF HEADER"
  wf : ∀ i ∈ h.items, i.Says strptime
  once : (h.items.filterMap ObsItem.types?).Pairwise (fun a b => a.1 ≠ b.1)
  few : h.items.length < 999
  last : Labelled h.last c!"END OF HEADER"

/-- What the code gets right: lists of observation types whose number is not a multiple of 13, and
antennas without a radome. -/
def ObsItem.Supported (i : ObsItem) : Prop :=
  (∀ t, i.types? = some t → t.2.length % 13 ≠ 0) ∧ (∀ a, i.antenna? = some a → a.2.1 = c!"NONE")

/-- The text of an antenna: model (16 columns), radome, and the serial number unless it is blank.  No
antenna at all is 20 blanks. -/
def antennaText : Option (List Char × List Char × List Char) → List Char
  | none => List.replicate 20 ' '
  | some (model, radome, serial) =>
      model ++ List.replicate (16 - model.length) ' ' ++ (radome ++ (if ∀ c ∈ serial, c = ' ' then [] else serial))

/-! ## What the code makes of names with blanks and of antennas

Names are cut at their first blank, and the radome is part of the columns of which the antenna's
name is cut. -/

/-- The first word of the columns: everything before the first blank. -/
def FirstWordOf (txt word : List Char) : Prop := ' ' ∉ word ∧ (txt = word ∨ ∃ more, txt = word ++ ' ' :: more)

/-- The antenna made from the first word of its columns: 20 chars are model and radome, a shorter word is a
model with radome NONE; then the serial number unless it is blank. -/
def antennaSeen (word serial : List Char) : List Char :=
  (if 20 ≤ word.length then word.take 20 else (word ++ List.replicate 16 ' ').take 16 ++ c!"NONE") ++
    (if ∀ c ∈ serial, c = ' ' then [] else serial)

namespace ObsItem

/-- As `Says`, but for names any columns will do and the entry tells their first word; of an antenna the
first word of the 20 columns of model and radome counts (as `model`; `radome` means nothing). -/
def Sees (strptime : List Char → Res DateTime) : ObsItem → Prop
  | marker l name => Labelled l c!"MARKER NAME" ∧ FirstWordOf (colsAt l 0 60) name
  | markerNo l no => Labelled l c!"MARKER NUMBER" ∧ FirstWordOf (colsAt l 0 20) no
  | receiver l no type => Labelled l c!"REC # / TYPE / VERS" ∧ FirstWordOf (colsAt l 0 20) no ∧ FirstWordOf (colsAt l 20 20) type
  | antenna l word _ => Labelled l c!"ANT # / TYPE" ∧ FirstWordOf (colsAt l 20 20) word
  | i => i.Says strptime

def seenAntenna? : ObsItem → Option (List Char) | antenna l w _ => some (antennaSeen w (colsAt l 0 20)) | _ => none

end ObsItem

/-- As `ObsHeader.WF` with any names and antennas. -/
structure ObsHeader.Seen (h : ObsHeader) (strptime : List Char → Res DateTime) : Prop where
  first : LineFits 84 h.first ∧ 60 ≤ h.first.length
  version : NumAt h.first 0 h.version ∧ FitsFloat h.version.value
  kind : h.first[20]? = some 'O'
  sys : h.first[40]? = some (satsysToChar h.sys)
  second : LineFits 84 h.second ∧ 60 ≤ h.second.length ∧ ¬ HasLabel h.second c!"END OF HEADER"
  wf : ∀ i ∈ h.items, i.Sees strptime
  once : (h.items.filterMap ObsItem.types?).Pairwise (fun a b => a.1 ≠ b.1)
  few : h.items.length < 999
  last : Labelled h.last c!"END OF HEADER"

end Ggnss
