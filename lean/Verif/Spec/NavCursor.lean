import Verif.Spec.NavFindValid
/-!
# Specification for C114: a navigation reader is a cursor over the records of its file

Whatever calls are made on an opened file, one after the other, and whatever is in the lines of the records.  A position is `some k`: in front of record `k`
(`some bs.length`: at the end of the file), or `none`: within a record.  `BlockIs`, `SearchFate` (Spec/NavFind), `ValidFate` (Spec/NavFindValid): what a record is and
how a search goes.
-/
namespace Ggnss

/-- A call of a user of `NavigationRnx`. -/
inductive NavCall where
  /-- `read_next_record` -/
  | read
  /-- `ignore_next_block` -/
  | skip
  /-- `peak_satsys` -/
  | peek
  /-- `find_next` -/
  | find (sys : SatSys) (prn : Int)
  /-- `find_next_valid` -/
  | findValid (t : Int) (sys : SatSys) (prn : Int)
  /-- `rewind` to the end of the header -/
  | rewind

/-- What a call comes to: a status, for a success of `read`, `find` and `findValid` with the record, for `peek` with the system; or it does not come back. -/
inductive CallAnswer where
  | status (st : Int)
  | record (b : NavBlock)
  | system (sys : SatSys)
  | undefined
  | killed

/-- Does the call come back? -/
def CallAnswer.Returns : CallAnswer → Prop
  | .undefined => False
  | .killed => False
  | _ => True

/-- Behind `m` lines of record `j`. -/
def behind (bs : List NavBlock) (j m : Nat) : Option Nat :=
  match bs[j]? with
  | some b => if m = b.2.length then some (j + 1) else none
  | none => none

/-- Answer of a search that went from `k` to record `k + i`, and position after it. -/
inductive SearchGives (bs : List NavBlock) (k i : Nat) : SearchWhat → CallAnswer → Option Nat → Prop
  | found (b) : bs[k + i]? = some b → SearchGives bs k i .found (.record b) (some (k + i + 1))
  | late : SearchGives bs k i .late (.status (-1)) (some (k + i + 1))
  | ended : SearchGives bs k i .ended (.status (-1)) (some bs.length)
  | refused (st m) : SearchGives bs k i (.refused st m) (.status st) (behind bs (k + i) m)
  | undefined : SearchGives bs k i .undefined .undefined none
  | killed : SearchGives bs k i .killed .killed none

/-- Answer of a call made at a position, and position after it. -/
inductive CallGives (dateOf : List Char → Res DateTime) (bs : List NavBlock) : Option Nat → NavCall → CallAnswer → Option Nat → Prop
  | readEnd : CallGives dateOf bs (some bs.length) .read (.status (-1)) (some bs.length)
  | readGood (k b p) : bs[k]? = some b → BlockIs b.1 b.2 (fun q => ∃ d, dateOf q = .ok d) (.good p) → CallGives dateOf bs (some k) .read (.record b) (some (k + 1))
  | readBad (k b st m) : bs[k]? = some b → BlockIs b.1 b.2 (fun q => ∃ d, dateOf q = .ok d) (.bad st m) → CallGives dateOf bs (some k) .read (.status st) (behind bs k m)
  | readUndefined (k b) : bs[k]? = some b → BlockIs b.1 b.2 (fun q => ∃ d, dateOf q = .ok d) .undefined → CallGives dateOf bs (some k) .read .undefined none
  | readKilled (k b) : bs[k]? = some b → BlockIs b.1 b.2 (fun q => ∃ d, dateOf q = .ok d) .killed → CallGives dateOf bs (some k) .read .killed none
  | skipEnd : CallGives dateOf bs (some bs.length) .skip (.status (-1)) (some bs.length)
  | skip (k) : k < bs.length → CallGives dateOf bs (some k) .skip (.status 0) (some (k + 1))
  | peekEnd : CallGives dateOf bs (some bs.length) .peek (.status (-1)) (some bs.length)
  | peek (k b) : bs[k]? = some b → CallGives dateOf bs (some k) .peek (.system b.1) (some k)
  | find (k sys prn i w a p) : SearchFate (fun q => ∃ d, dateOf q = .ok d) sys prn (bs.drop k) i w → SearchGives bs k i w a p → CallGives dateOf bs (some k) (.find sys prn) a p
  | findValid (k t sys prn i w a p) : ValidFate dateOf sys prn t (bs.drop k) i w → SearchGives bs k i w a p → CallGives dateOf bs (some k) (.findValid t sys prn) a p
  /-- from anywhere -/
  | rewind (p) : CallGives dateOf bs p .rewind (.status 0) (some 0)

/-- The answers of a series of calls, up to the first that does not come back, or up to a call other than `rewind` made within a record. -/
inductive CursorRun (dateOf : List Char → Res DateTime) (bs : List NavBlock) : Option Nat → List NavCall → List CallAnswer → Prop
  | done (p) : CursorRun dateOf bs p [] []
  | within (c cs) : c ≠ .rewind → CursorRun dateOf bs none (c :: cs) []
  | step (p c a q cs as) : CallGives dateOf bs p c a q → a.Returns → CursorRun dateOf bs q cs as → CursorRun dateOf bs p (c :: cs) (a :: as)
  | last (p c a q cs) : CallGives dateOf bs p c a q → ¬ a.Returns → CursorRun dateOf bs p (c :: cs) [a]

/-! ## The calls on the reader -/

/-- What is seen of a call: status, system (`peak_satsys`), frame after it. -/
structure NavSeen where
  status : Int
  sys : SatSys
  frame : NavFrame

/-- One call: what is seen, and the stream and `errno` after it. -/
def navCall (dateOf : List Char → Res DateTime) (junk : Nat → List Char) (fuel endOfHead : Nat) (f : NavFrame) (s : Stream) (errno : Int) : NavCall → Res (NavSeen × Stream × Int)
  | .read => do
      let o ← readNextRecord dateOf (junk s.pos) f s errno
      pure (⟨o.status, .mixed, o.frame⟩, o.strm, o.errno)
  | .skip => .ok (⟨(ignoreNextBlock s).1, .mixed, f⟩, (ignoreNextBlock s).2, errno)
  | .peek => .ok (⟨(peakSatsys s).1, (peakSatsys s).2.1, f⟩, (peakSatsys s).2.2, errno)
  | .find sys prn => do
      let o ← findNext dateOf junk fuel sys prn f s errno
      pure (⟨o.2.status, .mixed, o.2.frame⟩, o.2.strm, o.2.errno)
  | .findValid t sys prn => do
      let o ← findNextValid dateOf junk fuel t sys prn f s errno
      pure (⟨o.2.status, .mixed, o.2.frame⟩, o.2.strm, o.2.errno)
  | .rewind => .ok (⟨0, .mixed, f⟩, navRewind endOfHead s none, errno)

/-- A series of calls, up to the first that does not come back. -/
def navCalls (dateOf : List Char → Res DateTime) (junk : Nat → List Char) (fuel endOfHead : Nat) : List NavCall → NavFrame → Stream → Int → List (Res NavSeen)
  | [], _, _, _ => []
  | c :: cs, f, s, errno =>
    match navCall dateOf junk fuel endOfHead f s errno c with
    | .ok (seen, s', errno') => .ok seen :: navCalls dateOf junk fuel endOfHead cs seen.frame s' errno'
    | .throw e => [.throw e]
    | .terminate => [.terminate]
    | .ub => [.ub]
    | .diverge => [.diverge]

/-- What is seen of a call with an answer; a record: status 0, and the frame says what the lines of the record say. -/
def AnswerSeen (dateOf : List Char → Res DateTime) : CallAnswer → Res NavSeen → Prop
  | .status st, r => ∃ x, r = .ok x ∧ x.status = st
  | .record b, r => ∃ x g, r = .ok x ∧ x.status = 0 ∧ RecordSays dateOf b.1 b.2 g x.frame
  | .system sys, r => ∃ x, r = .ok x ∧ x.status = 0 ∧ x.sys = sys
  | .undefined, r => r = .ub
  | .killed, r => r = .terminate

end Ggnss
