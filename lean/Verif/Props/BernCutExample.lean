import Verif.Props.BernHeadCut
/-! # Concrete cut SATELLIT files meeting the hypotheses of C89 -/
namespace Ggnss
namespace BernCutEx
open BernExample BernBadEx

/-- The file ends right after the line of the first record (no newline): satellite 701 in 2005 is answered. -/
example : BernSays (getFrequencyChannel years noise 0 701 ⟨365 * 2005, 0⟩ 99 98 ⟨r1.line, 0, false, false⟩ 0) ⟨r1.line, 0, false, false⟩ 0 (-4) (101 : Nat) 0 := by
  refine C89_complete_record recs recs_wf theEnd (i := 0) (r := r1) (by decide) rfl ⟨_, _, _, _, _, rfl, rfl, by decide, ?_⟩ (fun j hj => by omega) rfl
    (cut := r1.line) ?_ ?_ 99 98 noise 0 _ rfl rfl (by decide)
  · intro e he
    simp only [Option.some.injEq] at he
    subst he
    decide
  · refine ⟨'\n' :: bernText [r2, r3] theEnd, ?_⟩
    simp [bernText, recs, linesText]
  · simp [linesText]

/-- The file ends within the second record (a laser reflector): satellite 702 is not found. -/
def cut1 : List Char := r1.line ++ ['\n'] ++ c!"101  SLR   GL"

set_option maxRecDepth 20000 in
example : ∃ s', getFrequencyChannel years noise 0 702 t05 99 98 ⟨cut1, 0, false, false⟩ 0 = .ok ⟨-1, 99, 98, s', 0⟩ ∧ s'.content = cut1 := by
  refine C89_not_found_partial r1 [r2, r3] (by decide) recs_wf theEnd_wf (recs_not _ (by decide) _) (cut := cut1) ?_ ⟨c!"101  SLR   GL", rfl⟩ ?_ 99 98 noise 0 _ rfl rfl (by decide)
  · refine ⟨c!"ONASS-M" ++ '\n' :: bernText [r3] theEnd, ?_⟩
    simp [cut1, bernText, r2, linesText]
  · intro u hu
    rw [unterminated_unique (ls := [r1.line]) (q := c!"101  SLR   GL") (by simp [cut1, linesText]) (by decide) hu]
    exact Or.inr (Or.inr (Or.inl (by decide)))

/-- A complete record of satellite 702 ... -/
def r4 : BernRec := ⟨c!"102  MW    GLONASS-M        702    ----  2003 12 10 00 00 00  2009 06 17 23 59 59" ++ gap 112 ++ c!"  5  G1",
  some (702, ⟨365 * 2003, 0⟩, some ⟨365 * 2009, 0⟩, 102, 5)⟩

set_option maxRecDepth 20000 in
theorem r4_wf : r4.WF years := by
  refine ⟨by decide, by decide, by decide, by simp [r4], ?_⟩
  intro svn start stop prn chan h
  simp only [r4, Option.some.injEq, Prod.mk.injEq] at h
  obtain ⟨rfl, rfl, rfl, rfl, rfl⟩ := h
  refine ⟨rfl, rfl, natCheck_sound (k := 0) (ds := c!"702") (by decide), years_at (by decide) (by decide),
    ⟨⟨62, '2', by decide, by decide, rfl, by decide⟩, years_at (by decide) (by decide)⟩, by decide,
    natCheck_sound (k := 0) (ds := c!"102") (by decide),
    intCheck (k := 2) (neg := false) (ds := c!"5") (rest := c!"  G1") (by decide) (by decide) (by decide) (by decide) (by simp) (by decide) (by decide)⟩

/-- ... and what is left of it when the file ends within the SVN. -/
def u70 : List Char := c!"102  MW    GLONASS-M        70"

/-- ... or before the channel. -/
def u702 : List Char := c!"102  MW    GLONASS-M        702    ----  2003 12 10 00 00 00  2009 06 17 23 59 59    0.0"

theorem recs_not70 (t : DateTime) : ∀ q ∈ recs, ¬ q.InForce (70 : Nat) t := recs_not _ (by decide) t

/-- No satellite 70 is in the file, whole or cut; in the cut file, the lookup of satellite 70 in 2015 gives the channel of satellite 701 and the PRN of satellite 702. -/
example : (∀ q ∈ recs ++ [r4], q.WF years) ∧ u70 <+: r4.line ∧ (∀ q ∈ recs ++ [r4], ¬ q.InForce (70 : Nat) ⟨365 * 2015, 0⟩) ∧
    BernSays (getFrequencyChannel years noise 0 (70 : Nat) ⟨365 * 2015, 0⟩ 99 98 ⟨linesText (recs.map (·.line)) ++ u70, 0, false, false⟩ 0)
      ⟨linesText (recs.map (·.line)) ++ u70, 0, false, false⟩ 0 7 (102 : Nat) 0 := by
  refine ⟨?_, ?_, ?_, ?_⟩
  · intro q hq
    rcases List.mem_append.1 hq with hq | hq
    · exact recs_wf q hq
    · rw [List.mem_singleton.1 hq]; exact r4_wf
  · exact ⟨c!"2    ----  2003 12 10 00 00 00  2009 06 17 23 59 59" ++ gap 112 ++ c!"  5  G1", rfl⟩
  · intro q hq
    rcases List.mem_append.1 hq with hq | hq
    · exact recs_not70 _ q hq
    · rw [List.mem_singleton.1 hq]
      rintro ⟨v, a, b, c, d, hm, hv, _⟩
      simp only [r4, Option.some.injEq, Prod.mk.injEq] at hm
      omega
  · exact C89_cut_in_svn [r1, r2] r3 (by decide) recs_wf (recs_not70 _) rfl ⟨by decide, by simp⟩ ⟨by decide, by decide, rfl, rfl⟩ (by decide)
      (natCheck_sound (k := 0) (ds := c!"102") (by decide)) (natCheck_sound (k := 0) (ds := c!"70") (by decide)) rfl 99 98 noise 0 _ rfl rfl (by decide)

set_option maxRecDepth 20000 in
theorem u702_in : MwInForce years u702 (702 : Nat) t05 :=
  inForce_of (a := 2003) (b := 2009) ⟨by decide, by decide, rfl, rfl⟩ (by decide) (natCheck_sound (k := 0) (ds := c!"702") (by decide)) (by decide) (by decide) ⟨'2', rfl, by decide⟩
    (by rw [t05_total]; omega) (by rw [t05_total]; omega)

/-- Satellite 702 has channel 5; when the file ends before it, the answer is 7. -/
example : BernSays (getFrequencyChannel years noise 0 (702 : Nat) t05 99 98 ⟨linesText (recs.map (·.line)) ++ u702, 0, false, false⟩ 0)
      ⟨linesText (recs.map (·.line)) ++ u702, 0, false, false⟩ 0 7 (102 : Nat) 0 :=
  C89_cut_before_channel [r1, r2] r3 (by decide) recs_wf (recs_not _ (by decide) _) rfl u702_in (by decide)
    (natCheck_sound (k := 0) (ds := c!"102") (by decide)) 99 98 noise 0 _ rfl rfl (by decide)

/-- Cut right before the SVN: status 2. -/
example : BernSays (getFrequencyChannel years noise 0 (702 : Nat) t05 99 98 ⟨linesText (recs.map (·.line)) ++ u702.take 28, 0, false, false⟩ 0)
      ⟨linesText (recs.map (·.line)) ++ u702.take 28, 0, false, false⟩ 2 99 98 0 :=
  C89_cut_at_svn_refused recs (by decide) recs_wf (recs_not _ (by decide) _) ⟨by decide, by decide, rfl, rfl⟩ (Or.inl ⟨0, none, [], by decide, by simp⟩)
    99 98 noise 0 _ rfl rfl (by decide)

set_option maxRecDepth 20000 in
/-- Cut in the title. -/
example : bernOpen noise (hdr.text.take 30) = .throw .runtime_error := by
  refine (C89_header_cut hdr hdr_wf (List.take_prefix _ _) noise).2 ?_
  intro h
  have := h.length_le
  rw [List.length_take] at this
  have h2 : 100 ≤ hdr.needed.length := by
    unfold BernHeader.needed
    rw [List.length_append]
    exact Nat.le_trans (by decide : 100 ≤ 200) (Nat.le_add_left_of_le (by decide))
  omega

end BernCutEx
end Ggnss
