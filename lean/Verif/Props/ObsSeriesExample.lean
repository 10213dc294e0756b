import Verif.Props.ObsSeries
import Verif.Props.ObsFateExample
/-! # A concrete file meeting the hypotheses of C116 -/
namespace Ggnss
namespace ObsSeriesEx
open ObsFateEx

/-- An epoch with three lines, then one that announces three and has two. -/
def lines : List (List Char) := l0 :: ls ++ l0 :: ls.take 2

def sat : SatVals := ((.gps, 7), [1500, missingMark])

theorem holds1 : Holds ov2 [sat, sat] [sat, sat] where
  length := rfl
  slots := by
    intro j o hj
    match j with
    | 0 => cases hj; exact ⟨slot, rfl, rfl⟩
    | 1 => cases hj; exact ⟨slot, rfl, rfl⟩
    | _ + 2 => simp at hj
  others := by
    intro j hj
    simp only [List.length_cons, List.length_nil] at hj
    rw [List.getElem?_eq_none (by simp; omega), List.getElem?_eq_none (by simp [ov2]; omega)]

theorem holds2 : Holds [sat, sat] [sat, sat] [sat] where
  length := rfl
  slots := by
    intro j o hj
    match j with
    | 0 => cases hj; exact ⟨sat, rfl, rfl⟩
    | _ + 1 => simp at hj
  others := fun _ _ => rfl

def head : EpochHead := ⟨58484, 1815, 4, 3, none⟩

/-- What the file says: one epoch with two satellites of the requested system, then an epoch that stops within. -/
theorem file : ObsFileSays cal ObsLinesEx.mmap true lines ov2 [.epoch head 2 [sat, sat], .defect 31 1 (some head) [sat, sat]] :=
  .epoch _ _ _ head [sat, sat] _ _ gives (Or.inl (by decide)) lines3 holds1 (.short _ _ _ head [sat] _ gives (by decide) lines2 holds2)

theorem fits (buf : List Char) (hb : buf.length = 71) : ∀ l ∈ lines, LineFits (buf.length - 1) l := by rw [hb]; decide

theorem headers : HeaderLinesOK lines := by
  intro l hl hm
  have : l = l0 := by
    simp only [lines, ls, List.mem_cons, List.mem_append, List.not_mem_nil, or_false, List.take_succ_cons, List.take_zero] at hl
    rcases hl with (rfl | rfl | rfl | rfl) | rfl | rfl | rfl <;> first | rfl | exact absurd hm (by decide)
  subst this
  exact ⟨inPlace, plain⟩

theorem l0_plain : PlainLine ObsLinesEx.mmap l0 := by
  intro sys sysobs h1 h2
  have hm : (sys, sysobs) ∈ ObsLinesEx.mmap := lookup_mem h1
  simp only [ObsLinesEx.mmap, List.mem_singleton, Prod.mk.injEq] at hm
  obtain ⟨rfl, rfl⟩ := hm
  exact absurd h2 (by decide)

theorem allPlain : ∀ l ∈ lines, PlainLine ObsLinesEx.mmap l := by
  intro l hl
  simp only [lines, List.mem_append, List.mem_cons] at hl
  rcases hl with (rfl | hl) | rfl | hl
  · exact l0_plain
  · exact plainLines l hl
  · exact l0_plain
  · exact plainLines l (List.mem_of_mem_take hl)

/-- What is seen. -/
example (raw0 : RawRnxObs) (buf : List Char) (hb : buf.length = 71) :
    List.Forall₂ (fun a r => ∃ b, ObsAnswer.Alike a b ∧ ObsAnswerSeen b r) [.epoch head 2 [sat, sat], .defect 31 1 (some head) [sat, sat]]
      (obsCalls cal raw0 ObsLinesEx.mmap 20 ov2 buf ⟨obsText lines true, 0, false, false⟩ 0) :=
  C116_answers cal_ok raw0 (fits buf hb) (by omega) headers allPlain rfl (by rfl) (by intro h; cases h) room2 (by decide) file

/-- The first epoch alone, its last line without newline: status -1. -/
theorem file2 : ObsFileSays cal ObsLinesEx.mmap false (l0 :: ls) ov2 [.last head 2 [sat, sat]] :=
  .last _ _ _ head [sat, sat] _ gives rfl rfl lines3 holds1

example (raw0 : RawRnxObs) (buf : List Char) (hb : buf.length = 71) :
    List.Forall₂ (fun a r => ∃ b, ObsAnswer.Alike a b ∧ ObsAnswerSeen b r) [.last head 2 [sat, sat]]
      (obsCalls cal raw0 ObsLinesEx.mmap 20 ov2 buf ⟨obsText (l0 :: ls) false, 0, false, false⟩ 0) :=
  C116_answers cal_ok raw0 (fun l hl => fits buf hb l (List.mem_append_left _ hl)) (by omega) (fun l hl => headers l (List.mem_append_left _ hl))
    (fun l hl => allPlain l (List.mem_append_left _ hl)) rfl (by rfl) (fun _ => ⟨ObsLinesEx.l1', rfl, by decide⟩) room2 (by decide) file2

end ObsSeriesEx
end Ggnss
