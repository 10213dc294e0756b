import Verif.Spec.Antex
import Verif.Spec.BadField
/-!
# Specification: ANTEX files with damaged records

A record is known here only by its first two lines and its end; what is between may be anything that
fits the columns.  `AtxSays` tells what the lines after `TYPE / SERIAL NO` deserve: the status and the
offsets.
-/
namespace Ggnss

/-- A record: first two lines, any lines, last line. -/
structure AtxRaw where
  start : List Char
  type : List Char
  inner : List (List Char)
  last : List Char

/-- The lines after `TYPE / SERIAL NO`. -/
def AtxRaw.body (r : AtxRaw) : List (List Char) := r.inner ++ [r.last]
def AtxRaw.lines (r : AtxRaw) : List (List Char) := r.start :: r.type :: r.body
/-- Only what the first two lines say. -/
def AtxRaw.name (r : AtxRaw) : AtxBlock := ⟨r.start, r.type, none, [], [], [], [], [], [], []⟩

structure AtxRaw.WF (r : AtxRaw) : Prop where
  start : Labelled r.start c!"START OF ANTENNA"
  type : Labelled r.type c!"TYPE / SERIAL NO"
  inner : ∀ l ∈ r.inner, GridLine l ∧ ¬ HasLabel l c!"END OF ANTENNA"
  last : Labelled r.last c!"END OF ANTENNA"
  few : r.body.length < 5000

def atxRawText (rs : List AtxRaw) : List Char := linesText (rs.map (·.lines)).flatten

/-- The lines of a record before its first frequency. -/
def AtxBlock.top (b : AtxBlock) : List (List Char) := [b.meth, b.dazi, b.zen, b.num] ++ b.opts.map (·.line)

/-- A line long enough to have a label, but not this one. -/
def OtherLabel (l p : List Char) : Prop := LineFits 84 l ∧ 60 ≤ l.length ∧ ¬ HasLabel l p

instance (l p : List Char) : Decidable (OtherLabel l p) := inferInstanceAs (Decidable (_ ∧ _))

/-- A frequency line without a known system letter in column 3, or without a band number in columns 4-5. -/
def BadFreqName (l : List Char) : Prop := (∀ sys, l[3]? ≠ some (satsysToChar sys)) ∨ NoInt ((l.drop 4).take 2)

/-- The lines of a record, from the one after `TYPE / SERIAL NO` to the one that settles the matter:
which status and which offsets they deserve.  `b` is the record as it should have been. -/
inductive AtxSays (b : AtxBlock) : List (List Char) → Int → List (SatSys × Int × Rat × Rat × Rat) → Prop
  /-- nothing is wrong with the announced number of frequencies; then comes any line (`END OF ANTENNA`,
  or a frequency too many) -/
  | intact (l) : LineFits 84 l → AtxSays b (b.top ++ (b.freqs.map (·.lines)).flatten ++ [l]) 0 b.offsets
  /-- another line where a line of the head belongs -/
  | meth (l) : OtherLabel l c!"METH / BY / # / DATE" → AtxSays b [l] 1 []
  | dazi (l) : OtherLabel l c!"DAZI" → AtxSays b [b.meth, l] 2 []
  | zen (l) : OtherLabel l c!"ZEN1 / ZEN2 / DZEN" → AtxSays b [b.meth, b.dazi, l] 3 []
  | num (l) : OtherLabel l c!"# OF FREQUENCIES" → AtxSays b [b.meth, b.dazi, b.zen, l] 4 []
  /-- no number of frequencies -/
  | count (l) : Labelled l c!"# OF FREQUENCIES" → NoInt (l.take 6) → AtxSays b [b.meth, b.dazi, b.zen, l] 4 []
  /-- after some of the frequencies (the last without RMS block) something that starts neither a
  frequency nor an RMS block; also when there are fewer frequencies than announced -/
  | next (fs q qs f l) : b.freqs = fs ++ q :: qs → fs.getLast? = some f → f.rms = none →
      OtherLabel l c!"START OF FREQUENCY" → ¬ HasLabel l c!"START OF FREQ RMS" →
      AtxSays b (b.top ++ (fs.map (·.lines)).flatten ++ [l]) 5 (fs.map (·.offset))
  /-- the same after an RMS block -/
  | nextRms (fs q qs f l) : b.freqs = fs ++ q :: qs → fs.getLast? = some f → f.rms ≠ none →
      OtherLabel l c!"START OF FREQUENCY" →
      AtxSays b (b.top ++ (fs.map (·.lines)).flatten ++ [l]) 11 (fs.map (·.offset))
  /-- a frequency without name -/
  | name (fs q qs l) : b.freqs = fs ++ q :: qs → Labelled l c!"START OF FREQUENCY" → BadFreqName l →
      AtxSays b (b.top ++ (fs.map (·.lines)).flatten ++ [l]) 6 (fs.map (·.offset))
  /-- a frequency without offsets -/
  | neu (fs q qs l) : b.freqs = fs ++ q :: qs → OtherLabel l c!"NORTH / EAST / UP" →
      AtxSays b (b.top ++ (fs.map (·.lines)).flatten ++ [q.start, l]) 7 (fs.map (·.offset))

/-- A line of offsets of which one (columns 0-9, 10-19 or 20-29) is no number, or does not fit a
`double`; those before it are numbers. -/
def BadOffsets (l : List Char) : Prop :=
  BadReal (l.take 10) ∨ (∃ x, NumAt (l.take 10) 0 x ∧ BadReal ((l.drop 10).take 10)) ∨
  (∃ x y, NumAt (l.take 10) 0 x ∧ NumAt ((l.drop 10).take 10) 0 y ∧ BadReal ((l.drop 20).take 10))

/-- Index `i` is the first (`FirstRaw`) or last (`LastRaw`) one with `P`. -/
def FirstRaw (rs : List AtxRaw) (P : AtxRaw → Prop) (i : Nat) (r : AtxRaw) : Prop :=
  rs[i]? = some r ∧ P r ∧ ∀ j < i, ∀ q, rs[j]? = some q → ¬ P q
def LastRaw (rs : List AtxRaw) (P : AtxRaw → Prop) (i : Nat) (r : AtxRaw) : Prop :=
  rs[i]? = some r ∧ P r ∧ ∀ j > i, ∀ q, rs[j]? = some q → ¬ P q

end Ggnss
