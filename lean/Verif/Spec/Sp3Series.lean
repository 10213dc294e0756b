import Verif.Spec.Sp3Fate
import Verif.Model.Sp3Date
/-!
# Specification for C115: reading an SP3 file with arbitrary lines epoch by epoch

`HeadGives`, `HeadFails`, `PosGives`, `PosFails`, `EpochLines`, `LineOK` (Spec/Sp3Sound, Spec/Sp3): what a line means; `InLong`, `EpochClose` (Spec/Sp3Fate).
-/
namespace Ggnss

/-- Header line and further lines of an epoch. -/
abbrev Sp3EpochText := List Char × List (List Char)

/-- The text of epochs. -/
def sp3EpochsText : List Sp3EpochText → List Char
  | [] => []
  | e :: es => e.1 ++ '\n' :: (linesText e.2 ++ sp3EpochsText es)

/-- An epoch with lines that fit the buffer; the first begins with a star, no other does. -/
structure Sp3EpochText.OK (e : Sp3EpochText) : Prop where
  head : LineOK e.1
  star : e.1.head? = some '*'
  long : 20 ≤ e.1.length
  lines : EpochLines e.2

/-- Lines without hexadecimal numbers, infinities or "not a number". -/
def Sp3EpochText.Plain (e : Sp3EpochText) : Prop := ¬ OddNumber (e.1.drop 20) ∧ ∀ l ∈ e.2, isPLine l = true → PlainPos l

/-- The answer of a call: an epoch (status, date, vector, number of satellites), a defect (status, vector, number of satellites), or the call does not come back. -/
inductive Sp3Answer where
  | epoch (st : Int) (t : MicroTime) (vec : List Sp3Rec) (n : Int)
  | defect (st : Int) (vec : List Sp3Rec) (n : Int)
  | undefined
  | never
  | killed

/-- What the call that reads the epoch `e` answers; `vec`, `sr`: the variables of the caller before, `closed`: something follows that ends the epoch, `fin` the status
for that. -/
inductive Sp3EpochSays (date : Sp3Epoch → Res MicroTime) (e : Sp3EpochText) (closed : Bool) (fin : Int) (vec : List Sp3Rec) (sr : Int) : Sp3Answer → Prop
  | header (st) : HeadFails e.1 st → Sp3EpochSays date e closed fin vec sr (.defect st vec sr)
  | seconds (c) : HeadGives e.1 c → ¬ InLong c.micros → Sp3EpochSays date e closed fin vec sr .undefined
  | date (c) : HeadGives e.1 c → InLong c.micros → (∀ t, date c ≠ .ok t) → Sp3EpochSays date e closed fin vec sr .killed
  | record (c t recs j l st) : HeadGives e.1 c → InLong c.micros → date c = .ok t → e.2[j]? = some l → isPLine l = true → PosFails l st →
      List.Forall₂ PosGives ((e.2.take j).filter isPLine) recs → recs.length ≤ vec.length →
      Sp3EpochSays date e closed fin vec sr (.defect (20 + st) (recs ++ vec.drop recs.length) sr)
  | overflow (c t recs j l r) : HeadGives e.1 c → InLong c.micros → date c = .ok t → e.2[j]? = some l → isPLine l = true → PosGives l r →
      List.Forall₂ PosGives ((e.2.take j).filter isPLine) recs → recs.length = vec.length → Sp3EpochSays date e closed fin vec sr .undefined
  | epoch (c t recs) : HeadGives e.1 c → InLong c.micros → date c = .ok t → List.Forall₂ PosGives (e.2.filter isPLine) recs → recs.length ≤ vec.length → closed = true →
      Sp3EpochSays date e closed fin vec sr (.epoch fin t (recs ++ vec.drop recs.length) recs.length)
  | never (c t recs) : HeadGives e.1 c → InLong c.micros → date c = .ok t → List.Forall₂ PosGives (e.2.filter isPLine) recs → recs.length ≤ vec.length → closed = false →
      Sp3EpochSays date e closed fin vec sr .never

/-- The answers to a caller that reads on while the status is 0, in a file with these epochs; `closed`: the last is followed by the line EOF. -/
inductive Sp3FileSays (date : Sp3Epoch → Res MicroTime) (closed : Bool) : List Sp3EpochText → List Sp3Rec → Int → List Sp3Answer → Prop
  /-- an epoch, and another follows -/
  | next (e e' es vec sr t v n out) : Sp3EpochSays date e true 0 vec sr (.epoch 0 t v n) → Sp3FileSays date closed (e' :: es) v n out →
      Sp3FileSays date closed (e :: e' :: es) vec sr (.epoch 0 t v n :: out)
  /-- a defect, or the call does not come back -/
  | stop (e e' es vec sr a) : Sp3EpochSays date e true 0 vec sr a → (∀ st t v n, a ≠ .epoch st t v n) → Sp3FileSays date closed (e :: e' :: es) vec sr [a]
  | last (e vec sr a) : Sp3EpochSays date e closed (-1) vec sr a → Sp3FileSays date closed [e] vec sr [a]

/-- What is behind the last epoch: a line EOF, or nothing. -/
def Sp3FileClose (tail : List Char) (closed : Bool) : Prop := EpochClose tail closed ∧ tail.head? ≠ some '*'

/-- A caller that reads on while the status is 0, at most `calls` times: what is seen of each call. -/
def sp3Calls (L : Sp3Lib) (junk : Nat → List Char) (fuel : Nat) : (calls : Nat) → MicroTime → List Sp3Rec → Int → Stream → Int → List (Res Sp3Dated)
  | 0, _, _, _, _, _ => []
  | k + 1, t, vec, sr, s, errno =>
    match sp3NextEpoch L (junk s.pos) fuel t vec sr s errno with
    | .ok o => if o.status = 0 then .ok o :: sp3Calls L junk fuel k o.t o.vec o.satsRead o.strm o.errno else [.ok o]
    | r => [r]

/-- What the caller sees of a call with an answer. -/
def Sp3Seen : Sp3Answer → Res Sp3Dated → Prop
  | .epoch st t v n, r => ∃ o, r = .ok o ∧ o.status = st ∧ o.t = t ∧ o.vec = v ∧ o.satsRead = n
  | .defect st v n, r => ∃ o, r = .ok o ∧ o.status = st ∧ o.vec = v ∧ o.satsRead = n
  | .undefined, r => r = .ub
  | .never, r => r = .diverge
  | .killed, r => r = .terminate

/-- The answer without the flags. -/
def Sp3Answer.core : Sp3Answer → Int × Option MicroTime × List (SatSys × Int × List Rat) × Int × Nat
  | .epoch st t v n => (st, some t, v.map Sp3Rec.core, n, 0)
  | .defect st v n => (st, none, v.map Sp3Rec.core, n, 1)
  | .undefined => (0, none, [], 0, 2)
  | .never => (0, none, [], 0, 3)
  | .killed => (0, none, [], 0, 4)

end Ggnss
