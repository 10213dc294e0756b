import Verif.Props.ObsHeadText
import Verif.Props.ObsExample
import Verif.Props.NavHeadSoundExample
/-! # Concrete header lines meeting the hypotheses of C108 -/
namespace Ggnss

/-- Longer runs of numbers leave less behind them. -/
theorem IntRun.shrinks {a : List Char} {vs ws : List Int} {r q : List Char} (h : IntRun a vs r) (hb : ∀ v ∈ vs, v ≤ 9223372036854775807 ∧ -9223372036854775808 ≤ v)
    (h' : IntRun a ws q) (hl : vs.length ≤ ws.length) : q.length ≤ r.length := by
  induction h generalizing ws with
  | nil t =>
    clear hl hb
    induction h' with
    | nil => exact Nat.le_refl _
    | cons t v r ws rest hv _ ih =>
      obtain ⟨ws', sg, ds, rfl, _⟩ := hv
      simp only [List.length_append, List.length_drop] at ih ⊢
      omega
  | cons t v r' vs rest hv _ ih =>
    cases h' with
    | nil => simp at hl
    | cons _ w q' ws _ hw hrun =>
      obtain ⟨rfl, rfl⟩ := hv.unique hw (hb v (by simp)).1 (hb v (by simp)).2
      exact ih (fun x hx => hb x (by simp [hx])) hrun (by simpa using hl)

/-- One run of numbers, as long as it can be, shows that the date is in its place. -/
theorem dateInPlace_of {l : List Char} {ws : List Int} {q : List Char} (h : DateIn l ws q) (hend : 5 ≤ ws.length ∨ NoLong q) (hq : l.length < q.length + 32) : DateInPlace l := by
  intro vs rest hl hv
  have hle : vs.length ≤ ws.length := by
    rcases hend with h5 | hno
    · omega
    · exact h.1.stops h.2 hno hv.1 hv.2
  have := hv.1.shrinks hv.2 h.1 hle
  omega

namespace ObsHeadTextEx

/-- A header in a bad state: signs, other separators, seconds with an exponent, no number of satellites, words for a clock offset. -/
def good : List Char := c!"> +2019/01/01:00_30 1.5E1 secs 4 many and so on   ??"

theorem date : DateIn good [2019, 1, 1, 0, 30] (good.drop 20) := by
  refine ⟨?_, by decide⟩
  refine .cons _ _ (good.drop 7) _ _ ⟨[], ['+'], c!"2019", by decide, by decide, by decide, by decide, by decide, by decide, by decide⟩ ?_
  refine .cons _ _ (good.drop 10) _ _ ⟨[], [], c!"01", by decide, by decide, by decide, by decide, by decide, by decide, by decide⟩ ?_
  refine .cons _ _ (good.drop 13) _ _ ⟨[], [], c!"01", by decide, by decide, by decide, by decide, by decide, by decide, by decide⟩ ?_
  refine .cons _ _ (good.drop 16) _ _ ⟨[], [], c!"00", by decide, by decide, by decide, by decide, by decide, by decide, by decide⟩ ?_
  exact .cons _ _ (good.drop 19) _ _ ⟨[], [], c!"30", by decide, by decide, by decide, by decide, by decide, by decide, by decide⟩ (.nil _)

theorem inPlace : DateInPlace good := dateInPlace_of date (Or.inl (by decide)) (by decide)

theorem plain : PlainReals good := by
  refine ⟨fun vs rest h5 h => ?_, not_odd (by decide)⟩
  obtain ⟨_, rfl⟩ := date.unique h (by rw [h5]; rfl)
  exact not_odd (by decide)

def n1 : Numeral := ⟨0, none, c!"1", some c!"5", some (none, c!"1")⟩

theorem n1_value : n1.value = 15 := by
  norm_num [n1, Numeral.value, Numeral.expVal, Numeral.digVal, Numeral.fracDigits, signVal, Nat.ofDigitChars, show '5'.toNat = 53 from rfl,
      show '1'.toNat = 49 from rfl, show '0'.toNat = 48 from rfl]

theorem n1_shape : n1.Shape := ⟨by decide, by decide, by decide, by rintro s ds ⟨⟩; decide⟩

theorem gives : HeaderGives ObsEx.mjdOf good ⟨58484, 1815, 4, 0, some 0⟩ where
  mark := rfl
  long := by decide
  time := by
    refine ⟨2019, 1, 1, 0, 30, 15, _, date, ?_, ?_, rfl, ?_⟩
    · rw [← n1_value]
      exact ⟨[], n1, 'E', c!" secs 4 many and so on   ??", by decide, by decide, n1_shape, Or.inr rfl, rfl, by decide, by simp [n1], by simp [n1]⟩
    · rw [← n1_value]
      exact fits_of_shape n1_shape (by decide) (by decide) (by rintro s ds ⟨⟩; decide)
    · rw [show toInt32 0 = 0 by decide, show toInt32 30 = 30 by decide]; norm_num
  flag := ⟨'4', by decide, by decide⟩
  count := Or.inr ⟨fun n => strtol_not_begins (by decide) n, rfl⟩
  clock := Or.inr (Or.inr (Or.inr ⟨⟨by decide, '?', by decide, by decide⟩, fun v => strtod_not_begins (by decide) v, rfl⟩))

example : LineFits 83 good := by decide

/-- ... and the reader says so. -/
example {raw0 : RawRnxObs} {mmap : ReadMap} {ov : List SatVals} {o : EpochOut} (buf : List Char) (hb : buf.length = 84)
    (ho : readNextEpoch ObsEx.mjdOf raw0 mmap ov buf ⟨linesText [good], 0, false, false⟩ 0 = .ok o) : o.head = some ⟨58484, 1815, 4, 0, some 0⟩ :=
  (C108_accepted (t := []) (by rw [hb]; decide) inPlace plain rfl (by rfl) ho _).2 gives

/-- No day of the month, and nothing that could be taken for one. -/
def noDay : List Char := c!"> 2019 01 -- 00 30  0.0000000  0  3"

theorem noDay_date : DateIn noDay [2019, 1] (noDay.drop 10) := by
  refine ⟨?_, by decide⟩
  refine .cons _ _ (noDay.drop 6) _ _ ⟨[], [], c!"2019", by decide, by decide, by decide, by decide, by decide, by decide, by decide⟩ ?_
  exact .cons _ _ (noDay.drop 9) _ _ ⟨[], [], c!"01", by decide, by decide, by decide, by decide, by decide, by decide, by decide⟩ (.nil _)

theorem noDay_no : NoLong (noDay.drop 10) := Or.inl fun v => strtol_not_begins (by decide) v

theorem noDay_place : DateInPlace noDay := dateInPlace_of noDay_date (Or.inr noDay_no) (by decide)

theorem noDay_plain : PlainReals noDay := by
  refine ⟨fun vs rest h5 h => ?_, not_odd (by decide)⟩
  have := noDay_date.1.stops noDay_date.2 noDay_no h.1 h.2
  rw [h5] at this
  simp at this

theorem noDay_fails : HeaderFails ObsEx.mjdOf noDay 2 := .date _ _ rfl (by decide) (by decide) noDay_date noDay_no

example {raw0 : RawRnxObs} {mmap : ReadMap} {ov : List SatVals} (buf : List Char) (hb : buf.length = 84) :
    ∃ o, readNextEpoch ObsEx.mjdOf raw0 mmap ov buf ⟨linesText [noDay], 0, false, false⟩ 0 = .ok o ∧ o.status = 22 ∧ o.sats = 0 := by
  obtain ⟨o, h1, h2, h3, h4, _⟩ := (C108_refused (mjdOf := ObsEx.mjdOf) (raw0 := raw0) (mmap := mmap) (ov := ov) (s := ⟨linesText [noDay], 0, false, false⟩) (t := []) (by rw [hb]; decide) noDay_place noDay_plain rfl (by rfl) 2).1 noDay_fails
  exact ⟨o, h1, h2, h4⟩

end ObsHeadTextEx
end Ggnss
