import Verif.Spec.ObsFate
import Verif.Model.ObsRead
/-!
# Specification for C116: an observation file with arbitrary lines, read epoch by epoch

`HeaderGives`, `HeaderFails`, `DateIn` (Spec/ObsHeadText) say what a header line gives, `LinesGive`, `LineFails` (Spec/ObsLines) what data lines give for a request,
`Holds`, `HoldsUpTo` (Spec/ObsFile, Spec/ObsBad) what is in the caller's vector, `Wanted` (Spec/ObsFate): the line is one of a requested system.
-/
namespace Ggnss

/-- The text of lines; `nl`: the last one ends with a newline, as the others do. -/
def obsText : List (List Char) → (nl : Bool) → List Char
  | [], _ => []
  | l :: ls, nl => if ls = [] ∧ nl = false then l else l ++ '\n' :: obsText ls nl

/-- Without newline at the end there is a last line, and it is not empty. -/
def ObsTextOK (ls : List (List Char)) (nl : Bool) : Prop := nl = false → ∃ l, ls.getLast? = some l ∧ l ≠ []

/-- The answer of a call: an epoch (header, number of satellites, vector), an epoch at the end of a file without final newline (same), the end of the file, a defect (status, number of satellites, header if there is one, vector),
undefined behaviour, or the end of the process. -/
inductive ObsAnswer where
  | epoch (h : EpochHead) (n : Nat) (vec : List ((SatSys × Int) × List Rat))
  | last (h : EpochHead) (n : Nat) (vec : List ((SatSys × Int) × List Rat))
  | atEnd
  | defect (st : Int) (n : Nat) (h : Option EpochHead) (vec : List ((SatSys × Int) × List Rat))
  | undefined
  | killed

/-- The answers to a caller that reads on while the status is 0, when these lines are ahead and the vector of the caller is `ov`; `nl`: the file ends with
a newline. -/
inductive ObsFileSays (mjdOf : Int → Int → Int → Res Int) (mmap : List (SatSys × List (List (Nat × Rat)))) (nl : Bool) :
    List (List Char) → List ((SatSys × Int) × List Rat) → List ObsAnswer → Prop
  | atEnd (ov) : ObsFileSays mjdOf mmap nl [] ov [.atEnd]
  /-- an epoch: all lines announced by the header can be read; the lines behind them remain -/
  | epoch (l0 ls ov h out ov' rest) : HeaderGives mjdOf l0 h → (h.numSats.toNat < ls.length ∨ h.numSats.toNat = ls.length ∧ nl = true) → LinesGive mmap (ls.take h.numSats.toNat) out → Holds ov ov' out →
      ObsFileSays mjdOf mmap nl (ls.drop h.numSats.toNat) ov' rest → ObsFileSays mjdOf mmap nl (l0 :: ls) ov (.epoch h out.length ov' :: rest)
  /-- an epoch the last line of which (maybe the header line) ends without newline: it is delivered, with the status of the end of the file -/
  | last (l0 ls ov h out ov') : HeaderGives mjdOf l0 h → h.numSats.toNat = ls.length → nl = false → LinesGive mmap ls out → Holds ov ov' out →
      ObsFileSays mjdOf mmap nl (l0 :: ls) ov [.last h out.length ov']
  /-- the header line is refused -/
  | header (l0 ls ov k) : HeaderFails mjdOf l0 k → ObsFileSays mjdOf mmap nl (l0 :: ls) ov [.defect (20 + k) 0 none ov]
  /-- there is no such day -/
  | date (l0 ls ov y mo d hh mi rest e) : l0.head? = some '>' → 35 ≤ l0.length → DateIn l0 [y, mo, d, hh, mi] rest →
      mjdOf (toInt32 y) (toInt32 mo) (toInt32 d) = .throw e → ObsFileSays mjdOf mmap nl (l0 :: ls) ov [.killed]
  /-- a line is refused -/
  | refused (l0 ls ov h out ov' j l) : HeaderGives mjdOf l0 h → j < h.numSats.toNat → LinesGive mmap (ls.take j) out → out.length ≤ ov.length → ls[j]? = some l →
      LineFails mmap l → (Wanted mmap l → out.length < ov.length) → HoldsUpTo ov ov' out →
      ObsFileSays mjdOf mmap nl (l0 :: ls) ov [.defect 31 out.length (some h) ov']
  /-- the file ends within the epoch -/
  | short (l0 ls ov h out ov') : HeaderGives mjdOf l0 h → ls.length < h.numSats.toNat → LinesGive mmap ls out → Holds ov ov' out →
      ObsFileSays mjdOf mmap nl (l0 :: ls) ov [.defect 31 out.length (some h) ov']
  /-- a satellite finds no element of the vector -/
  | full (l0 ls ov h out j l) : HeaderGives mjdOf l0 h → j < h.numSats.toNat → LinesGive mmap (ls.take j) out → out.length = ov.length → ls[j]? = some l → Wanted mmap l →
      ObsFileSays mjdOf mmap nl (l0 :: ls) ov [.undefined]

/-- A caller that reads on while the status is 0, at most `calls` times: what is seen of each call. -/
def obsCalls (mjdOf : Int → Int → Int → Res Int) (raw0 : RawRnxObs) (mmap : ReadMap) : (calls : Nat) → List SatVals → List Char → Stream → Int → List (Res EpochOut)
  | 0, _, _, _, _ => []
  | k + 1, ov, buf, s, errno =>
    match readNextEpoch mjdOf raw0 mmap ov buf s errno with
    | .ok o => if o.status = 0 then .ok o :: obsCalls mjdOf raw0 mmap k o.satobs o.buf o.strm o.errno else [.ok o]
    | r => [r]

/-- What the caller sees of a call with an answer. -/
def ObsAnswerSeen : ObsAnswer → Res EpochOut → Prop
  | .epoch h n v, r => ∃ o, r = .ok o ∧ o.status = 0 ∧ o.head = some h ∧ o.sats = n ∧ o.satobs = v
  | .last h n v, r => ∃ o, r = .ok o ∧ o.status = -1 ∧ o.head = some h ∧ o.sats = n ∧ o.satobs = v
  | .atEnd, r => ∃ o, r = .ok o ∧ o.status = -1 ∧ o.head = none ∧ o.sats = 0
  | .defect st n h v, r => ∃ o, r = .ok o ∧ o.status = st ∧ o.head = h ∧ o.sats = n ∧ o.satobs = v
  | .undefined, r => r = .ub
  | .killed, r => r = .terminate

/-- The same answer, up to the values left by a refused line in the element behind the satellites that were read. -/
def ObsAnswer.Alike : ObsAnswer → ObsAnswer → Prop
  | .defect st n h v, .defect st' n' h' v' => st = st' ∧ n = n' ∧ h = h' ∧ ∀ j, j ≠ n → v[j]? = v'[j]?
  | a, b => a = b

/-- Date, seconds and clock of a line marked as a header are in the scope of C108. -/
def HeaderLinesOK (ls : List (List Char)) : Prop := ∀ l ∈ ls, l.head? = some '>' → DateInPlace l ∧ PlainReals l

end Ggnss
