import Verif.Spec.Sp3Sound
/-!
# Specification for C109: what becomes of a call that reads an SP3 epoch

From the model only the types of the results are used.  `HeadGives`, `HeadFails`, `PosGives`, `PosFails` (Spec/Sp3Sound) say what a line means.
-/
namespace Ggnss

/-- What can become of a call. -/
inductive CallFate where
  | returns
  | undefined
  | never
  | killed
  deriving DecidableEq

/-- The number fits a `long`. -/
def InLong (n : Int) : Prop := -9223372036854775808 ≤ n ∧ n ≤ 9223372036854775807

/-- The text after the last line of an epoch: the star of another header, a line EOF (with or without a newline), or nothing; `true`: the epoch is closed. -/
inductive EpochClose : List Char → Bool → Prop
  | star (tail) : EpochClose ('*' :: tail) true
  | eof (e tail) : LineOK e → e.take 3 = c!"EOF" → (tail = [] ∨ ∃ r, tail = '\n' :: r) → EpochClose (e ++ tail) true
  | nothing : EpochClose [] false

/-- What becomes of reading an epoch with header line `h` and further lines `ls` into a vector of `room` elements; `valid`: the
calendar of ggdatetime takes the date. -/
inductive EpochFate (h : List Char) (ls : List (List Char)) (room : Nat) (closed : Bool) (valid : Sp3Epoch → Prop) : CallFate → Prop
  /-- the header is no header -/
  | header (st) : HeadFails h st → EpochFate h ls room closed valid .returns
  /-- the seconds, in microseconds, are beyond a `long` -/
  | seconds (t) : HeadGives h t → ¬ InLong t.micros → EpochFate h ls room closed valid .undefined
  /-- the date does not exist (an exception within a function that may not throw) -/
  | date (t) : HeadGives h t → InLong t.micros → ¬ valid t → EpochFate h ls room closed valid .killed
  /-- the position line `l` cannot be read; those before it can and have room -/
  | record (t recs j l st) : HeadGives h t → InLong t.micros → valid t → ls[j]? = some l → isPLine l = true → PosFails l st →
      List.Forall₂ PosGives ((ls.take j).filter isPLine) recs → recs.length ≤ room → EpochFate h ls room closed valid .returns
  /-- the position line `l` can be read, as those before it, which fill the vector -/
  | overflow (t recs j l r) : HeadGives h t → InLong t.micros → valid t → ls[j]? = some l → isPLine l = true → PosGives l r →
      List.Forall₂ PosGives ((ls.take j).filter isPLine) recs → recs.length = room → EpochFate h ls room closed valid .undefined
  /-- all position lines can be read and have room, and the epoch is closed -/
  | closed (t recs) : HeadGives h t → InLong t.micros → valid t → List.Forall₂ PosGives (ls.filter isPLine) recs → recs.length ≤ room → closed = true →
      EpochFate h ls room closed valid .returns
  /-- all position lines can be read and have room, and the file ends -/
  | unclosed (t recs) : HeadGives h t → InLong t.micros → valid t → List.Forall₂ PosGives (ls.filter isPLine) recs → recs.length ≤ room → closed = false →
      EpochFate h ls room closed valid .never

end Ggnss
