import Verif.Props.ObsGoOn
import Verif.Props.ObsSeriesExample
/-! # A concrete file meeting the hypotheses of C117 -/
namespace Ggnss
namespace ObsGoOnEx
open ObsFateEx ObsSeriesEx

theorem badHead (l : List Char) (h : l.head? ≠ some '>') : HeaderFails cal l 1 := .mark (Or.inl h)

/-- A data line where a header should be, then an epoch without final newline. -/
def text : List (List Char) := ObsLinesEx.l2 :: l0 :: ls

/-- Four calls: the stray line costs itself and nothing else, then the epoch, then the end of the file twice. -/
theorem file : ObsGoesOn cal ObsLinesEx.mmap false 4 text ov2 [.defect 21 0 none ov2, .last head 2 [sat, sat], .atEnd, .atEnd] :=
  .header _ _ _ _ 1 _ (badHead _ (by decide)) (.last _ _ _ _ head [sat, sat] _ _ gives rfl rfl lines3 holds1 (.atEnd _ _ _ (.atEnd _ _ _ (.enough _ _))))

theorem textPlain : ∀ l ∈ text, PlainLine ObsLinesEx.mmap l := by
  intro l hl
  simp only [text, List.mem_cons] at hl
  rcases hl with rfl | rfl | hl
  · exact plainLines _ (by simp [ls])
  · exact l0_plain
  · exact plainLines l hl

/-- The reader gives these answers. -/
example (raw0 : RawRnxObs) (buf : List Char) (hb : buf.length = 71) :
    ∃ out, out.map ObsAnswer.shape = [(21, none, 0), (-1, some head, 2), (-1, none, 0), (-1, none, 0)] ∧
      List.Forall₂ ObsAnswerSeen out (obsAllCalls cal raw0 ObsLinesEx.mmap 4 ov2 buf ⟨obsText text false, 0, false, false⟩ 0) := by
  obtain ⟨out, h1, h2⟩ := C117_calls cal_ok raw0 (nl := false) 4 text ov2 buf ⟨obsText text false, 0, false, false⟩ (by rw [hb]; decide) (by omega)
    (fun l hl => headers l (by
      simp only [text, ls, lines, List.mem_cons, List.mem_append, List.not_mem_nil, or_false, List.take_succ_cons, List.take_zero] at hl ⊢; tauto))
    (Or.inl (Or.inl ⟨rfl, rfl, fun _ => ⟨ObsLinesEx.l1', rfl, by decide⟩⟩)) room2
  exact ⟨out, C117_determined textPlain rfl h1 file, h2⟩

end ObsGoOnEx
end Ggnss
