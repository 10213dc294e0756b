import Verif.Props.Sp3HeadCut
import Verif.Props.Sp3HeadExample
/-! # Truncated SP3 files meeting the hypotheses of C85 -/
namespace Ggnss
namespace Sp3CutEx
open Sp3Example

/-- The file of `Sp3Example` without the terminating line: the first epoch is complete, the file ends in the last record of the
second one. -/
def cutFile : Stream := ⟨EpochBlock.text ⟨hdr, ls, [p1, p2]⟩ ++
  (hdr2.line ++ '\n' :: (linesText [p1.line, c!"VG01  -1000.000000"] ++ c!"PR24     ")), 0, false, false⟩

theorem cut_prefix : cutFile.rest <+: (blocks.map EpochBlock.text).flatten ++ c!"EO" := by
  refine ⟨c!" 0.000000      0.000000      0.000000 999999.999999                    " ++ ['\n'] ++ c!"EO", ?_⟩
  simp [cutFile, Stream.rest, blocks, EpochBlock.text, ls, linesText, p2]

theorem blocks_wf : ∀ b ∈ blocks, b.WF vec.length 10 := by
  intro b hb
  simp only [blocks, List.mem_cons, List.not_mem_nil, or_false] at hb
  rcases hb with rfl | rfl
  · exact ⟨hdr_wf, body, by simp [vec], by simp [ls]⟩
  · exact ⟨hdr2_wf, body, by simp [vec], by simp [ls]⟩

/-- The hypotheses of `C85_sequence` are met. -/
example : ∃ (m : Nat) (b : EpochBlock) (p : List Char), blocks[m]? = some b ∧
    cutFile.rest = ((blocks.take m).map EpochBlock.text).flatten ++ p ∧ p <+: b.text ++ c!"EO" := by
  obtain ⟨m, b, p, h1, h2, h3, _⟩ := C85_sequence (fun _ => noise) (fun _ => by simp [noise]) 10 (errno := 0) (by decide) blocks (by simp [blocks]) t0 vec 0 cutFile
    blocks_wf rfl cut_prefix
  exact ⟨m, b, p, h1, h2, h3⟩

/-- The hypotheses of `C85_returned` are met: the first epoch of that file is delivered. -/
example : ∃ o, getNextEpoch noise 10 t0 vec 0 cutFile 0 = .ok o ∧ (o.status = 0 ∨ o.status = -1) := by
  obtain ⟨t, recs, h, _⟩ := C31_epoch_before_header hdr_wf body noise (by simp [noise]) 10 (by simp [ls]) t0 vec (by simp [vec]) 0 cutFile
    (hdr2.line.tail ++ '\n' :: (linesText [p1.line, c!"VG01  -1000.000000"] ++ c!"PR24     ")) (errno := 0) (by decide) rfl
    (by simp [cutFile, Stream.rest, EpochBlock.text, hdr2])
  exact ⟨_, h, Or.inl rfl⟩

set_option maxRecDepth 20000 in
/-- The hypotheses of `C85_cut_body` are met by the rest of it: the record is cut inside its columns. -/
example : (∀ fuel, getNextEpoch (List.replicate 128 NUL) fuel t0 vec 0
      ⟨hdr2.line ++ '\n' :: (linesText [p1.line, c!"VG01  -1000.000000"] ++ c!"PR24     "), 0, false, false⟩ 0 = .diverge) ∨
    ∃ o, (∃ n, ∀ fuel, n ≤ fuel → getNextEpoch (List.replicate 128 NUL) fuel t0 vec 0
      ⟨hdr2.line ++ '\n' :: (linesText [p1.line, c!"VG01  -1000.000000"] ++ c!"PR24     "), 0, false, false⟩ 0 = .ok o) ∧
      22 ≤ o.status ∧ o.status ≤ 28 ∧ (c!"PR24     ").head? = some 'P' ∧ hdr2.Is o.t ∧ o.satsRead = 0 ∧ o.vec.length = vec.length := by
  refine C85_cut_body hdr2_wf (pre := [p1.line, c!"VG01  -1000.000000"]) (ps := [p1]) ?_ (l := p2.line) (q := c!"PR24     ")
    ⟨p2_wf.ok, by decide⟩ (by decide) (List.replicate 128 NUL) ⟨by simp, by simp⟩ t0 vec (by simp [vec]) 0 _ (errno := 0) (by decide) rfl rfl
  refine ⟨?_, by decide, by decide, ?_⟩
  · intro l hl
    simp only [List.mem_cons, List.not_mem_nil, or_false] at hl
    rcases hl with rfl | rfl
    exacts [p1_wf.ok, lineOK_dec _ (by decide)]
  · intro p hp
    simp only [List.mem_cons, List.not_mem_nil, or_false] at hp
    subst hp
    exact p1_wf

/-- **C85 is false** of the program where the file ends after a complete line of an epoch: the call does not return. -/
theorem C85_cut_file_never_returns : ∀ fuel, 10 ≤ fuel →
    getNextEpoch noise fuel t0 vec 0 ⟨hdr.line ++ '\n' :: linesText ls, 0, false, false⟩ 0 = .diverge :=
  fun fuel h => C48_missing_eof_line_diverges hdr_wf body noise (by simp [noise]) t0 vec (by simp [vec]) 0 _ (by decide) rfl rfl
    _ (by simp [ls]; omega)

open Sp3HeadEx in
/-- The hypotheses of `C85_header_only` and `C85_header_cut` are met. -/
example : ∃ f, sp3Open exactLib false [] (linesText Sp3HeadEx.hdr.lines) = .ok f ∧
    (∀ vec sr, getNextEpoch noise 10 t0 vec sr f.strm 0 = .ok ⟨1, t0, vec, sr, f.strm, 0⟩) ∧
    ∀ s, (sp3Rewind f.endOfHead s none).good = false := by
  obtain ⟨f, h1, _, _, h2, h3⟩ := C85_header_only (L := exactLib) [] Sp3HeadEx.hdr_wf hdr_date hdr_week hdr_mjd
  refine ⟨f, h1, fun vec sr => (C85_header_cut Sp3HeadEx.hdr_wf hdr_date hdr_week hdr_mjd rfl (List.prefix_refl _) h1 noise 10 t0 vec sr 0).1, ?_⟩
  intro s
  rw [h3]
  simp [sp3Rewind, Stream.good]

end Sp3CutEx
end Ggnss
