import Verif.Spec.ObsLines
import Verif.Spec.ObsHeadText
import Verif.Spec.Sp3Fate
/-!
# Specification for C111: what becomes of a call that reads an observation epoch

`HeaderFails`, `HeaderGives`, `DateIn` (Spec/ObsHeadText) say what an epoch header line gives, `LinesGive`, `LineFails` (Spec/ObsLines) what the data lines give for a
request, `CallFate` (Spec/Sp3Fate) what can become of a call.
-/
namespace Ggnss

/-- The line begins with the letter of a system of the request. -/
def Wanted (mmap : List (SatSys × List (List (Nat × Rat)))) (l : List Char) : Prop :=
  ∃ sys sysobs, l.head? = some (satsysToChar sys) ∧ mmap.lookup sys = some sysobs

/-- What becomes of reading `n` data lines, of which the file has `ls` (maybe more, maybe fewer), into a vector of `slots` elements. -/
inductive DataFate (mmap : List (SatSys × List (List (Nat × Rat)))) (ls : List (List Char)) (n slots : Nat) : CallFate → Prop
  /-- all lines (or all there are) can be read and there is an element for every satellite -/
  | complete (out) : LinesGive mmap (ls.take n) out → out.length ≤ slots → DataFate mmap ls n slots .returns
  /-- a line is refused, and there was an element for every satellite before, and for this one if it is one -/
  | refused (out j l) : j < n → LinesGive mmap (ls.take j) out → out.length ≤ slots → ls[j]? = some l → LineFails mmap l → (Wanted mmap l → out.length < slots) →
      DataFate mmap ls n slots .returns
  /-- a satellite of a requested system finds no element of the vector -/
  | full (out j l) : j < n → LinesGive mmap (ls.take j) out → out.length = slots → ls[j]? = some l → Wanted mmap l → DataFate mmap ls n slots .undefined

/-- What becomes of reading an epoch with header line `l0` and data lines `ls` into a vector of `slots` elements. -/
inductive ObsFate (mjdOf : Int → Int → Int → Res Int) (mmap : List (SatSys × List (List (Nat × Rat)))) (l0 : List Char) (ls : List (List Char)) (slots : Nat) :
    CallFate → Prop
  /-- the header is refused -/
  | header (k) : HeaderFails mjdOf l0 k → ObsFate mjdOf mmap l0 ls slots .returns
  /-- there is no such day: the calendar throws within a function that may not throw -/
  | date (y mo d hh mi rest e) : l0.head? = some '>' → 35 ≤ l0.length → DateIn l0 [y, mo, d, hh, mi] rest → mjdOf (toInt32 y) (toInt32 mo) (toInt32 d) = .throw e →
      ObsFate mjdOf mmap l0 ls slots .killed
  /-- the header is accepted: it depends on the data lines -/
  | data (h f) : HeaderGives mjdOf l0 h → DataFate mmap ls h.numSats.toNat slots f → ObsFate mjdOf mmap l0 ls slots f

end Ggnss
