import Verif.Props.NavCursor
import Verif.Props.NavFindValidExample
/-! # A concrete file and series of calls meeting the hypotheses of C114 -/
namespace Ggnss
namespace NavCursorEx
open NavFateEx NavFindEx NavFindValidEx

/-- The calendar: every date is second 100000 of the week. -/
abbrev cal : List Char → Res DateTime := fun _ => .ok day

def calls (t : Int) : List NavCall :=
  [.peek, .read, .read, .rewind, .findValid t .glonass 7, .rewind, .find .gps 3, .read, .rewind, .skip, .skip, .peek, .read, .read]

/-- The second record is refused, the third is undefined when it is read (its second of week is 1E19). -/
def answers : List CallAnswer :=
  [.system .glonass, .record (.glonass, near), .status 6, .status 0, .record (.glonass, near), .status 0, .status (-1), .status (-1), .status 0, .status 0, .status 0, .system .glonass, .undefined]

theorem run {t : Int} (h1 : noon - 900000 ≤ t) (h2 : t < noon + 900000) : CursorRun cal file (some 0) (calls t) answers := by
  have e0 : file[0]? = some (.glonass, near) := rfl
  have e1 : file[1]? = some (.glonass, NavSoundEx.ls) := rfl
  have e2 : file[2]? = some (.glonass, far) := rfl
  have far_undef : BlockIs .glonass far (fun q => ∃ d, cal q = .ok d) .undefined := .beyond far0 7 rfl ⟨_, rfl⟩ far_prn (by decide) (fun i _ q hq => far_numbers i q hq) far_beyond
  refine .step _ _ _ _ _ _ (.peek 0 _ e0) trivial ?_
  refine .step _ _ _ _ _ _ (.readGood 0 _ 7 e0 (near_good ⟨_, rfl⟩)) trivial ?_
  refine .step _ _ _ _ _ _ (.readBad 1 _ 6 2 e1 (word_bad ⟨_, rfl⟩)) trivial ?_
  refine .step _ _ _ _ _ _ (.rewind _) trivial ?_
  refine .step _ _ _ _ _ _ (.findValid 0 _ _ _ 0 .found _ _ (NavFindValidEx.found h1 h2) (.found _ e0)) trivial ?_
  refine .step _ _ _ _ _ _ (.rewind _) trivial ?_
  refine .step _ _ _ _ _ _ (.find 0 _ _ 3 .ended _ _ (.other (by decide) (.other (by decide) (.other (by decide) .ended))) .ended) trivial ?_
  refine .step _ _ _ _ _ _ .readEnd trivial ?_
  refine .step _ _ _ _ _ _ (.rewind _) trivial ?_
  refine .step _ _ _ _ _ _ (.skip 0 (by decide)) trivial ?_
  refine .step _ _ _ _ _ _ (.skip 1 (by decide)) trivial ?_
  refine .step _ _ _ _ _ _ (.peek 2 _ e2) trivial ?_
  exact .last _ _ _ none _ (.readUndefined 2 _ e2 far_undef) id

theorem all : ∀ b ∈ file, ReachesColumns b.1 b.2 ∧ PlainRecord b.1 b.2 := by
  intro b hb
  have : b.1 = .glonass := by
    simp only [file, List.mem_cons, List.not_mem_nil, or_false] at hb
    rcases hb with rfl | rfl | rfl <;> rfl
  rw [this]
  exact content b hb this

/-- Behind a header of 100 chars `head`. -/
example (junk : Nat → List Char) (head : List Char) (f : NavFrame) (hlen : f.data.length = 31) {t : Int} (h1 : noon - 900000 ≤ t) (h2 : t < noon + 900000) :
    ∀ (i : Nat) (a : CallAnswer), answers[i]? = some a → ∃ r, (navCalls cal junk 4 head.length (calls t) f ⟨head ++ linesText (blockLines file), head.length, false, false⟩ 0)[i]? = some r ∧ AnswerSeen cal a r :=
  C114_cursor (s := ⟨head ++ linesText (blockLines file), head.length, false, false⟩) (fun _ => Or.inl ⟨_, rfl⟩) junk (by decide) blocks all rfl (by simp [Stream.rest]) (run h1 h2) hlen

end NavCursorEx
end Ggnss
