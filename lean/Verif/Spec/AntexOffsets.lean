import Verif.Spec.AntexSound
import Verif.Model.Antex
/-!
# Specification for C97: which lines of a file an offset comes from

From the model only the record `Pco` (what the query delivers) is used.
-/
namespace Ggnss

/-- The two lines of an offset: `START OF FREQUENCY` with the system letter in column 3 and the band in columns 4-5, and
`NORTH / EAST / UP` with three numbers of 10 columns. -/
structure OffsetLines (freq neu : List Char) (p : Pco) : Prop where
  code : p.code = ⟨.any, p.code.band, '?'⟩
  freqLabel : HasLabel freq c!"START OF FREQUENCY"
  sys : freq[3]? = some (satsysToChar p.sys)
  band : IntBegins ((freq.drop 4).take 2) p.code.band
  neuLabel : HasLabel neu c!"NORTH / EAST / UP"
  north : RealBegins (neu.take 10) p.dn
  east : RealBegins ((neu.drop 10).take 10) p.de
  up : RealBegins ((neu.drop 20).take 10) p.du

mutual
/-- From here on, the lines give the offsets `ps` (and may give more): the two lines of the first, and, if there are more, everything
up to `END OF FREQUENCY` and then the next. -/
inductive OffsetsAt : List (List Char) → List Pco → Prop
  | none (ls) : OffsetsAt ls []
  | last (freq neu ls p) : OffsetLines freq neu p → OffsetsAt (freq :: neu :: ls) [p]
  | more (freq neu mid stop ls p ps) : OffsetLines freq neu p → (∀ l ∈ mid, ¬ HasLabel l c!"END OF FREQUENCY") →
      HasLabel stop c!"END OF FREQUENCY" → OffsetsNext ls ps → OffsetsAt (freq :: neu :: (mid ++ stop :: ls)) (p :: ps)
/-- The same, except that a block `START OF FREQ RMS` to `END OF FREQ RMS` may come first. -/
inductive OffsetsNext : List (List Char) → List Pco → Prop
  | freq (ls ps) : OffsetsAt ls ps → OffsetsNext ls ps
  | rms (start mid stop ls ps) : HasLabel start c!"START OF FREQ RMS" → (∀ l ∈ mid, ¬ HasLabel l c!"END OF FREQ RMS") →
      HasLabel stop c!"END OF FREQ RMS" → OffsetsAt ls ps → OffsetsNext (start :: (mid ++ stop :: ls)) ps
end

/-- The lines behind a `TYPE / SERIAL NO` line give `n` frequencies as their number, and the offsets `ps`. -/
def RecordGives (suf : List (List Char)) (n : Int) (ps : List Pco) : Prop :=
  ∃ meth dazi zen num opts ls, suf = meth :: dazi :: zen :: num :: (opts ++ ls) ∧ HasLabel meth c!"METH / BY / # / DATE" ∧
    HasLabel dazi c!"DAZI" ∧ HasLabel zen c!"ZEN1 / ZEN2 / DZEN" ∧ HasLabel num c!"# OF FREQUENCIES" ∧
    IntBegins (num.take 6) n ∧ (∀ l ∈ opts, ¬ HasLabel l c!"START OF FREQUENCY") ∧ OffsetsAt ls ps

end Ggnss
