import Verif.Props.Sp3Again
import Verif.Props.Sp3Example
import Verif.Props.Sp3HeadExample
/-! # A file of two epochs, read twice: the hypotheses of C96 -/
namespace Ggnss
namespace Sp3AgainEx

theorem blocks_ok : ∀ b ∈ Sp3Example.blocks, b.WF Sp3HeadEx.hdr.satellites 10 ∧ GoodDate Sp3HeadEx.exactLib b := by
  intro b hb
  simp only [Sp3Example.blocks, List.mem_cons, List.not_mem_nil, or_false] at hb
  rcases hb with rfl | rfl
  · exact ⟨⟨Sp3Example.hdr_wf, Sp3Example.body, by decide, by decide⟩, fun c _ => ⟨_, rfl⟩⟩
  · exact ⟨⟨Sp3Example.hdr2_wf, Sp3Example.body, by decide, by decide⟩, fun c _ => ⟨_, rfl⟩⟩

/-- Read one epoch, start over, read the whole file, start over, read the first epoch: never past the end. -/
def ops : List Sp3Op := [.next, .rewind, .next, .next, .rewind, .next]

example : NeverPast Sp3Example.blocks.length 0 ops := by simp [ops, NeverPast, Sp3Example.blocks]

/-- `C96_histories_partial`. -/
example : ∃ f vec outs, sp3Open Sp3HeadEx.exactLib false (List.replicate 85 'x') (sp3Text Sp3HeadEx.hdr Sp3Example.blocks c!"EOF" ('\n' :: c!"rest")) = .ok f ∧
    sp3Allocate f.numSats = .ok vec ∧
    sp3Client Sp3HeadEx.exactLib f.endOfHead (fun _ => Sp3Example.noise) 10 ops 0 ⟨0, 0⟩ vec 0 f.strm 0 = .ok outs ∧
    Answers Sp3HeadEx.exactLib Sp3Example.blocks 0 ops outs :=
  C96_histories_partial (List.replicate 85 'x') Sp3HeadEx.hdr_wf Sp3HeadEx.hdr_date Sp3HeadEx.hdr_week Sp3HeadEx.hdr_mjd (fun _ => Sp3Example.noise)
    (fun _ => by simp [Sp3Example.noise]) (Sp3Example.lineOK_dec _ (by decide)) rfl c!"rest" (by simp [Sp3Example.blocks]) blocks_ok
    (by simp [ops, NeverPast, Sp3Example.blocks]) ⟨0, 0⟩ 0

/-- `C96_unterminated`: past the end and back. -/
example : ∃ f vec outs, sp3Open Sp3HeadEx.exactLib false (List.replicate 85 'x') (sp3Text Sp3HeadEx.hdr Sp3Example.blocks c!"EOF" []) = .ok f ∧
    sp3Allocate f.numSats = .ok vec ∧
    sp3Client Sp3HeadEx.exactLib f.endOfHead (fun _ => Sp3Example.noise) 10 [.next, .next, .next, .next, .rewind, .next] 0 ⟨0, 0⟩ vec 0 f.strm 0 = .ok outs ∧
    Answers Sp3HeadEx.exactLib Sp3Example.blocks 0 [.next, .next, .next, .next, .rewind, .next] outs :=
  C96_unterminated (List.replicate 85 'x') Sp3HeadEx.hdr_wf Sp3HeadEx.hdr_date Sp3HeadEx.hdr_week Sp3HeadEx.hdr_mjd (fun _ => Sp3Example.noise)
    (fun _ => by simp [Sp3Example.noise]) (Sp3Example.lineOK_dec _ (by decide)) rfl (by simp [Sp3Example.blocks]) blocks_ok _ ⟨0, 0⟩ 0

/-- What the specification says of those six calls. -/
example (outs : List Sp3Dated) (h : Answers Sp3HeadEx.exactLib Sp3Example.blocks 0 [.next, .next, .next, .next, .rewind, .next] outs) :
    outs.map Sp3Dated.status = [0, -1, 1, 1, 0] := by
  cases h with
  | past h => simp [Sp3Example.blocks] at h
  | epoch _ _ s1 h =>
  cases h with
  | past h => simp [Sp3Example.blocks] at h
  | epoch _ _ s2 h =>
  cases h with
  | epoch h => simp [Sp3Example.blocks] at h
  | past _ s3 h =>
  cases h with
  | epoch h => simp [Sp3Example.blocks] at h
  | past _ s4 h =>
  cases h with
  | rewind h =>
  cases h with
  | past h => simp [Sp3Example.blocks] at h
  | epoch _ _ s5 h =>
  cases h
  simp [Sp3Example.blocks] at s1 s2 s5
  simp [s1, s2, s3, s4, s5]

/-- `C96_one_call_too_many`: the same calls on the file with a newline behind `EOF`. -/
example : ∃ f vec outs o dead, sp3Open Sp3HeadEx.exactLib false (List.replicate 85 'x') (sp3Text Sp3HeadEx.hdr Sp3Example.blocks c!"EOF" ['\n']) = .ok f ∧
    sp3Allocate f.numSats = .ok vec ∧
    sp3Client Sp3HeadEx.exactLib f.endOfHead (fun _ => Sp3Example.noise) 10 ([.next, .next] ++ .next :: [.next, .rewind, .next]) 0 ⟨0, 0⟩ vec 0 f.strm 0 =
      .ok (outs ++ o :: dead) ∧
    Answers Sp3HeadEx.exactLib Sp3Example.blocks 0 [.next, .next] outs ∧ o.status = 2 ∧ dead.length = 2 ∧
    ∀ x ∈ dead, x.status = 1 ∧ x.t = o.t ∧ x.vec = o.vec ∧ x.satsRead = o.satsRead :=
  C96_one_call_too_many (List.replicate 85 'x') Sp3HeadEx.hdr_wf Sp3HeadEx.hdr_date Sp3HeadEx.hdr_week Sp3HeadEx.hdr_mjd (fun _ => Sp3Example.noise)
    (fun _ => by simp [Sp3Example.noise]) (Sp3Example.lineOK_dec _ (by decide)) rfl (by simp [Sp3Example.blocks]) blocks_ok
    (by simp [NeverPast, Sp3Example.blocks]) (by simp [cursorAfter, Sp3Example.blocks]) _ ⟨0, 0⟩ 0

end Sp3AgainEx
end Ggnss
