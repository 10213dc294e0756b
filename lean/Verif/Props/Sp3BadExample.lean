import Verif.Props.Sp3HeadBad
import Verif.Props.Sp3Example
import Verif.Props.Sp3HeadExample
/-! # Concrete malformed SP3 files: the hypotheses of C73 and of the refusals of C61 are met -/
namespace Ggnss
namespace Sp3BadEx
open Sp3Example

/-- A record of a system that does not exist. -/
def noSys : List Char := c!"PX01  15000.123456 -12000.654321   5000.000000    123.456789"
/-- A record whose second coordinate is too large. -/
def huge : List Char := c!"PG01  15000.123456         1E999   5000.000000    123.456789"

theorem noSys_bad : PosBad noSys 3 := .system 'X' rfl (by intro sys; cases sys <;> decide)

set_option maxRecDepth 20000 in
theorem huge_bad : PosBad huge 6 :=
  .y .gps 1 ⟨2, none, c!"15000", some c!"123456", none⟩ rfl (natCheck_sound (k := 0) (ds := c!"01") (by decide)) (numCheck_sound (by decide))
    (by decide) (Or.inr ⟨hugeNum 9, c!"   5000.000000    123.456789", (hugeNum_bad 9).1, by decide, by intro c hc; cases hc; decide, (hugeNum_bad 9).2⟩)

/-- The epoch of the example with one of these lines behind its records. -/
def strm (l : List Char) : Stream := ⟨hdr.line ++ '\n' :: (linesText ls ++ (l ++ '\n' :: c!"EOF")), 0, false, false⟩

set_option maxRecDepth 20000 in
/-- The hypotheses of `C73_record_refused` are met: the status is 23, the two records before the defect were delivered, the counter of the caller
is untouched. -/
example : ∃ t recs s' errno', getNextEpoch noise 10 t0 vec 7 (strm noSys) 0 = .ok ⟨23, t, recs ++ vec.drop 2, 7, s', errno'⟩ ∧ recs.length = 2 := by
  obtain ⟨t, recs, s', errno', h1, _, h2, _⟩ := C73_record_refused hdr_wf body (lineOK_dec _ (by decide)) rfl noSys_bad noise (by simp [noise]) 10
    (by simp [ls]) t0 vec (by simp [vec]) 7 (strm noSys) c!"EOF" (errno := 0) (by decide) rfl (by simp [strm, Stream.rest])
  exact ⟨t, recs, s', errno', h1, h2.length_eq.symm⟩

set_option maxRecDepth 20000 in
example : ∃ t recs s' errno', getNextEpoch noise 10 t0 vec 7 (strm huge) 0 = .ok ⟨26, t, recs ++ vec.drop 2, 7, s', errno'⟩ := by
  obtain ⟨t, recs, s', errno', h1, _⟩ := C73_record_refused hdr_wf body (lineOK_dec _ (by decide)) rfl huge_bad noise (by simp [noise]) 10
    (by simp [ls]) t0 vec (by simp [vec]) 7 (strm huge) c!"EOF" (errno := 0) (by decide) rfl (by simp [strm, Stream.rest])
  exact ⟨t, recs, s', errno', h1⟩

/-- An epoch header whose day is a word. -/
def badDay : List Char := c!"*  2020  1 xx  0  0  0.00000000"

set_option maxRecDepth 20000 in
theorem badDay_bad : EpochBad badDay 7 :=
  .day 2020 1 ⟨c!" 2020  1 xx  0  0  0.00000000", rfl⟩ (natCheck_sound (k := 0) (ds := c!"2020") (by decide)) (by decide)
    (natCheck_sound (k := 1) (ds := c!"1") (by decide)) (by decide) (Or.inl ⟨0, none, c!"xx  0  0  0.00000000", rfl, by intro c hc; cases hc; decide⟩)

set_option maxRecDepth 20000 in
/-- The hypotheses of `C73_header_refused` are met. -/
example : ∃ s' errno', getNextEpoch noise 10 t0 vec 7 ⟨badDay ++ '\n' :: c!"EOF", 0, false, false⟩ 0 = .ok ⟨7, t0, vec, 7, s', errno'⟩ := by
  obtain ⟨s', errno', h1, _⟩ := C73_header_refused (lineOK_dec _ (by decide)) badDay_bad noise (by simp [noise]) 10 t0 vec 7
    ⟨badDay ++ '\n' :: c!"EOF", 0, false, false⟩ c!"EOF" (errno := 0) (by decide) rfl (by simp [Stream.rest])
  exact ⟨s', errno', h1⟩

section
open Sp3HeadEx

/-- A first line without hour. -/
def noHour : List Char := c!"#cP2020  1  1 xx  0  0.00000000       2 ORBIT IGS14 HLM  IGS"
/-- A second line whose week is 0, and one without modified Julian day. -/
def week0 : List Char := c!"##    0 259200.00000000   900.00000000 58849 0.0000000000000"
def noMjd : List Char := c!"## 2086 259200.00000000   900.00000000 xxxxx 0.0000000000000"
/-- A satellite line that announces no satellite. -/
def noSats : List Char := c!"+    0   G01R24  0  0  0  0  0  0  0  0  0  0  0  0  0  0  0"

set_option maxRecDepth 20000 in
theorem noHour_bad : FirstBad noHour :=
  Or.inr (Or.inr (Or.inr (Or.inr (Or.inl (Or.inl ⟨0, none, noHour.drop 14, rfl, by intro c hc; cases hc; decide⟩)))))

set_option maxRecDepth 20000 in
theorem week0_bad : SecondBad Sp3HeadEx.hdr week0 := Or.inr (Or.inl (Or.inr (natCheck_sound (k := 3) (ds := c!"0") (by decide))))

set_option maxRecDepth 20000 in
theorem noMjd_bad : SecondBad Sp3HeadEx.hdr noMjd := by
  refine Or.inr (Or.inr (Or.inl ⟨numCheck_sound (by decide), numCheck_sound (by decide), ?_, ?_,
    Or.inl (Or.inl ⟨0, none, noMjd.drop 39, rfl, by intro c hc; cases hc; decide⟩)⟩))
  · rw [vals.2.2.1]; norm_num
  · rw [vals.2.2.1]; norm_num

/-- A first line whose seconds cannot be read: they count as 0. -/
def noSec : List Char := c!"#cP2020  1  1  0  0  x.xxxxxxxx       2 ORBIT IGS14 HLM  IGS"

set_option maxRecDepth 20000 in
example (junk : List Char) (L : Sp3Lib) (t : MicroTime) (h : L.date ⟨2020, 1, 1, 0, 0, 0⟩ = .ok t) :
    ∃ crd orb age, sp3First L false (fillLine junk noSec) = .ok (.inr ⟨'c', t, 2, crd, orb, age⟩) :=
  ⟨_, _, _, C61_seconds_unread (Or.inl rfl) ⟨rfl, rfl⟩ ⟨natCheck_sound (k := 0) (ds := c!"2020") (by decide), by decide⟩
    ⟨natCheck_sound (k := 1) (ds := c!"1") (by decide), by decide⟩ ⟨natCheck_sound (k := 1) (ds := c!"1") (by decide), by decide⟩
    (natCheck_sound (k := 1) (ds := c!"0") (by decide)) (natCheck_sound (k := 1) (ds := c!"0") (by decide))
    (Or.inr ⟨1, 'x', noSec.drop 22, rfl, by decide, by decide, by decide⟩) (by decide)
    ⟨natCheck_sound (k := 6) (ds := c!"2") (by decide), by decide⟩ ⟨by decide, rfl⟩ ⟨by decide, rfl⟩ ⟨by decide, rfl⟩ h⟩

set_option maxRecDepth 20000 in
theorem noSats_bad : ThirdBad noSats := Or.inr (Or.inr (natCheck_sound (k := 2) (ds := c!"0") (by decide)))

set_option maxRecDepth 20000 in
/-- The hypotheses of `C61_first_line_refused`, `C61_second_line_refused` and `C61_third_line_refused` are met. -/
example : sp3Open exactLib false (List.replicate 85 'x') (noHour ++ '\n' :: linesText Sp3HeadEx.hdr.lines) = .throw .runtime_error :=
  C61_first_line_refused false (by simp) (fits _ (by decide)) (by decide) noHour_bad _

set_option maxRecDepth 20000 in
example : sp3Open exactLib false (List.replicate 85 'x') (linesText [Sp3HeadEx.hdr.first, week0] ++ c!"...") = .throw .runtime_error :=
  C61_second_line_refused (by simp) hdr_dated hdr_date (fits _ (by decide)) (by decide) week0_bad _

set_option maxRecDepth 20000 in
example : sp3Open exactLib false (List.replicate 85 'x') (linesText [Sp3HeadEx.hdr.first, noMjd] ++ c!"...") = .throw .runtime_error :=
  C61_second_line_refused (by simp) hdr_dated hdr_date (fits _ (by decide)) (by decide) noMjd_bad _

set_option maxRecDepth 20000 in
example : sp3Open exactLib false (List.replicate 85 'x') (linesText [Sp3HeadEx.hdr.first, Sp3HeadEx.hdr.second, noSats] ++ c!"...") =
    .throw .runtime_error :=
  C61_third_line_refused (by simp) hdr_dated hdr_date hdr_week hdr_mjd (fits _ (by decide)) (by decide) noSats_bad _

end
end Sp3BadEx
end Ggnss
