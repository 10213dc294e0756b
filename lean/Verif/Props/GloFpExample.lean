import Verif.Props.GloFpMain
/-!
# C79: a record that meets the hypotheses
-/
namespace Ggnss
namespace GloFpEx

/-- A record of GLONASS satellite R07 (day 58849, time of ephemeris 900 s of the day; metres and seconds, as in memory). -/
def rec : NavFrame :=
  ⟨.glonass, 7, ⟨58849, 900⟩, ⟨58849, 900⟩,
    [-123456 / 10 ^ 9, 18 / 10 ^ 13, 260100, 12345678, 1200, 1862 / 10 ^ 9, 0, -21000500, 500, -931 / 10 ^ 9, 5, 8000250, 3000, 0, 0]⟩

theorem start_eq : gloStart rec = ![12345678, -21000500, 8000250, 1200, 500, 3000] := by
  funext i
  fin_cases i <;> simp [gloStart, NavFrame.at, specIndex, rec]

theorem sane : GloSane rec where
  pos := by
    intro i hi
    rw [start_eq]
    fin_cases i <;> first | (simp at hi; done) | (simp; norm_num [abs_le])
  far := by
    rw [start_eq]
    apply Real.le_sqrt_of_sq_le
    simp; norm_num
  vel := by
    intro i hi
    rw [start_eq]
    fin_cases i <;> first | (exact absurd hi (by decide)) | (simp; norm_num [abs_le])
  acc := by simp only [NavFrame.at, specIndex, rec]; norm_num [abs_le]
  bias := by simp only [NavFrame.at, specIndex, rec]; norm_num [abs_le]
  drift := by simp only [NavFrame.at, specIndex, rec]; norm_num [abs_le]

theorem quarter : QuarterHour ⟨58849, 2101 / 2⟩ ⟨58849, 900⟩ where
  dbl := isDouble_of (n := 2101) (e := -1) (by norm_num) (by norm_num) (by norm_num)
  lo := by norm_num
  hi := by norm_num
  ref_lo := by norm_num
  ref_hi := by norm_num
  near := by norm_num [elapsed, Epoch.secs, DateTime.total, abs_le]
  edge := Or.inl rfl

/-- The record evaluated 150.5 s later, with any rounding and any mathematical library. -/
example (F : Fp) (o : StateClock) : ∃ r, stateNclockF F rec 16 ⟨58849, 2101 / 2⟩ o = .ok r ∧ r.status = 0 ∧
    AccurateGlo rec ⟨58849, 2101 / 2⟩ r.state r.clock :=
  C79_accurate F rec 16 ⟨58849, 2101 / 2⟩ o rfl sane quarter (by norm_num)

/-- Across midnight. -/
theorem quarterNext : QuarterHour ⟨58850, 30⟩ ⟨58849, 86370⟩ where
  dbl := isDouble_of (n := 30) (e := 0) (by norm_num) (by norm_num) (by norm_num)
  lo := by norm_num
  hi := by norm_num
  ref_lo := by norm_num
  ref_hi := by norm_num
  near := by norm_num [elapsed, Epoch.secs, DateTime.total, abs_le]
  edge := by
    refine Or.inr fun n h => ?_
    have e : elapsed ⟨58850, 30⟩ ⟨58849, 86370⟩ = 60 := by norm_num [elapsed, Epoch.secs, DateTime.total]
    rw [e] at h ⊢
    have h1 : |((1 - n : ℤ) : ℝ)| < 1 := by
      have h2 := abs_le.1 h
      rw [abs_lt]
      push_cast
      norm_num at h2
      constructor <;> linarith [h2.1, h2.2]
    have h2 : |1 - n| < 1 := by exact_mod_cast h1
    have := Int.abs_lt_one_iff.1 h2
    rw [show n = 1 by omega]; norm_num

end GloFpEx
end Ggnss
