import Verif.Model.OrbitFp
import Verif.Lemmas.FpErr
import Verif.Props.Kepler
/-!
# C24 in double precision
-/
namespace Ggnss


/-- The limit of the iteration as a double. -/
theorem limit_bounds (F : Fp) : 1e-14 - 2 ^ (-100 : ℤ) ≤ F.rnd KEPLER_LIMIT ∧ F.rnd KEPLER_LIMIT ≤ 1e-14 + 2 ^ (-100 : ℤ) := by
  have h := F.err (x := KEPLER_LIMIT) (m := -46) (by norm_num) (by unfold KEPLER_LIMIT; norm_num)
  rw [show (-46 : ℤ) - 54 = -100 by norm_num, abs_le] at h
  unfold KEPLER_LIMIT at h ⊢
  constructor <;> linarith [h.1, h.2]

/-- What the exit test of the loop says about the difference. -/
theorem exit_close (F : Fp) {x : ℝ} (h : ¬ |F.rnd x| > F.rnd KEPLER_LIMIT) : |x| ≤ 1e-14 + 2 ^ (-99 : ℤ) := by
  have hl := (limit_bounds F).2
  have h1 : |F.rnd x| ≤ F.rnd KEPLER_LIMIT := not_lt.1 h
  by_cases hx : |x| ≤ 2 ^ (-46 : ℤ)
  · have he := F.err (by norm_num) hx
    rw [show (-46 : ℤ) - 54 = -100 by norm_num, abs_sub_comm] at he
    have := abs_sub_abs_le_abs_sub x (F.rnd x)
    have e : (2 : ℝ) ^ (-99 : ℤ) = 2 ^ (-100 : ℤ) + 2 ^ (-100 : ℤ) := by norm_num
    rw [e]
    clear hx e
    generalize (2 : ℝ) ^ (-100 : ℤ) = a at *
    generalize (1e-14 : ℝ) = b at *
    linarith
  · push Not at hx
    exfalso
    have hd : IsDouble ((2 : ℝ) ^ (-46 : ℤ)) := isDouble_two (by norm_num)
    have h2 : (2 : ℝ) ^ (-46 : ℤ) ≤ |F.rnd x| := by
      rcases le_total 0 x with h0 | h0
      · rw [abs_of_nonneg h0] at hx
        exact (F.le_rnd hd hx.le).trans (le_abs_self _)
      · rw [abs_of_nonpos h0] at hx
        have := F.rnd_le (x := x) hd.neg (by linarith)
        exact le_trans (by linarith) (neg_le_abs _)
    have h3 : (1e-14 : ℝ) + 2 ^ (-100 : ℤ) < 2 ^ (-46 : ℤ) := by norm_num
    exact absurd (h2.trans (h1.trans hl)) (not_le.2 h3)

/-- A small difference ends the loop. -/
theorem close_exit (F : Fp) {x : ℝ} (h : |x| ≤ 1e-14 - 2 ^ (-99 : ℤ)) : ¬ |F.rnd x| > F.rnd KEPLER_LIMIT := by
  have hl := (limit_bounds F).1
  have hx : |x| ≤ 2 ^ (-46 : ℤ) := h.trans (by norm_num)
  have he := F.err (by norm_num) hx
  rw [show (-46 : ℤ) - 54 = -100 by norm_num] at he
  have := abs_sub_abs_le_abs_sub (F.rnd x) x
  have e : (2 : ℝ) ^ (-99 : ℤ) = 2 ^ (-100 : ℤ) + 2 ^ (-100 : ℤ) := by norm_num
  push Not
  rw [e] at h
  clear hx e
  generalize (2 : ℝ) ^ (-100 : ℤ) = a at *
  generalize (1e-14 : ℝ) = b at *
  linarith

/-- One step of the iteration. -/
noncomputable def kepStep (F : Fp) (e M E : ℝ) : ℝ := F.rnd (F.rnd (F.sin E * e) + M)

/-- The error of one step, for mean anomalies up to 63. -/
theorem kepStep_err (F : Fp) {e M : ℝ} (h0 : 0 ≤ e) (h1 : e ≤ 1 / 4) (hM : |M| ≤ 63) (E : ℝ) :
    |kepStep F e M E - (e * Real.sin E + M)| ≤ 2 ^ (-48 : ℤ) + 2 ^ (-54 : ℤ) := by
  have hs := F.sin_err E
  have hs1 := F.sin_le E
  have hse : |F.sin E * e| ≤ 2 ^ (-1 : ℤ) := by
    rw [abs_mul, abs_of_nonneg h0]
    have : (0 : ℝ) ≤ |F.sin E| := abs_nonneg _
    have h3 : (1 : ℝ) + 2 ^ (-53 : ℤ) ≤ 2 := by norm_num
    norm_num
    nlinarith
  have hp := F.err (by norm_num) hse
  rw [show (-1 : ℤ) - 54 = -55 by norm_num] at hp
  have hpa : |F.rnd (F.sin E * e)| ≤ 2 ^ (-1 : ℤ) := F.rnd_abs_le (isDouble_two (by norm_num)) hse
  have hsum : |F.rnd (F.sin E * e) + M| ≤ 2 ^ (6 : ℤ) := by
    have := abs_add_le (F.rnd (F.sin E * e)) M
    norm_num at hpa ⊢
    linarith
  have hq := F.err (by norm_num) hsum
  rw [show (6 : ℤ) - 54 = -48 by norm_num] at hq
  have hmul : |F.sin E * e - e * Real.sin E| ≤ 2 ^ (-55 : ℤ) := by
    rw [show F.sin E * e - e * Real.sin E = (F.sin E - Real.sin E) * e by ring, abs_mul, abs_of_nonneg h0]
    have : (0 : ℝ) ≤ |F.sin E - Real.sin E| := abs_nonneg _
    calc |F.sin E - Real.sin E| * e ≤ 2 ^ (-53 : ℤ) * (1 / 4) := mul_le_mul hs h1 h0 (by positivity)
      _ = 2 ^ (-55 : ℤ) := by norm_num
  unfold kepStep
  rw [abs_le] at hp hq hmul ⊢
  have e55 : (2 : ℝ) ^ (-54 : ℤ) = 2 ^ (-55 : ℤ) + 2 ^ (-55 : ℤ) := by norm_num
  constructor <;> linarith [hp.1, hp.2, hq.1, hq.2, hmul.1, hmul.2]

theorem kepStep_contract (F : Fp) {e M : ℝ} (h0 : 0 ≤ e) (h1 : e ≤ 1 / 4) (hM : |M| ≤ 63) (E E' : ℝ) :
    |kepStep F e M E - kepStep F e M E'| ≤ |E - E'| / 4 + 2 * (2 ^ (-48 : ℤ) + 2 ^ (-54 : ℤ)) := by
  have a := kepStep_err F h0 h1 hM E
  have b := kepStep_err F h0 h1 hM E'
  have c : |e * (Real.sin E - Real.sin E')| ≤ |E - E'| / 4 := by
    rw [abs_mul, abs_of_nonneg h0]
    have := sin_lip E E'
    have h3 : 0 ≤ |E - E'| := abs_nonneg _
    calc e * |Real.sin E - Real.sin E'| ≤ 1 / 4 * |E - E'| := mul_le_mul h1 this (abs_nonneg _) (by norm_num)
      _ = _ := by ring
  rw [mul_sub] at c
  generalize (2 : ℝ) ^ (-48 : ℤ) + 2 ^ (-54 : ℤ) = q at *
  rw [abs_le] at a b c ⊢
  constructor <;> linarith [a.1, a.2, b.1, b.2, c.1, c.2]

/-- The loop ends. -/
theorem keplerLoopF_conv (F : Fp) {e M : ℝ} (h0 : 0 ≤ e) (h1 : e ≤ 1 / 4) (hM : |M| ≤ 63) :
    ∀ (r j i : Nat) (Ek : ℝ), j + r = 30 → i + r ≤ 100 →
      |kepStep F e M Ek - Ek| ≤ (1 / 4) ^ j + 4 / 3 * (2 * (2 ^ (-48 : ℤ) + 2 ^ (-54 : ℤ))) →
      (keplerLoopF F e M i (kepStep F e M Ek) Ek).2 ≤ i + r ∧
      ∃ Ek', (keplerLoopF F e M i (kepStep F e M Ek) Ek).1 = kepStep F e M Ek' ∧
        |kepStep F e M Ek' - Ek'| ≤ 1e-14 + 2 ^ (-99 : ℤ) := by
  intro r
  induction r with
  | zero =>
    intro j i Ek hj _ hd
    obtain rfl : j = 30 := by omega
    have hx : ¬ |F.rnd (kepStep F e M Ek - Ek)| > F.rnd KEPLER_LIMIT := by
      apply close_exit
      refine hd.trans ?_
      norm_num
    rw [keplerLoopF, if_neg (fun h => hx h.1)]
    exact ⟨by simp, Ek, rfl, exit_close F hx⟩
  | succ r ih =>
    intro j i Ek hj hi hd
    rw [keplerLoopF]
    by_cases hx : |F.rnd (kepStep F e M Ek - Ek)| > F.rnd KEPLER_LIMIT
    · rw [if_pos ⟨hx, by omega⟩]
      have := ih (j + 1) (i + 1) (kepStep F e M Ek) (by omega) (by omega) (by
        refine (kepStep_contract F h0 h1 hM _ _).trans ?_
        rw [pow_succ]
        generalize (2 : ℝ) ^ (-48 : ℤ) + 2 ^ (-54 : ℤ) = q at *
        generalize (1 / 4 : ℝ) ^ j = w at *
        linarith)
      refine ⟨this.1.trans (by omega), this.2⟩
    · rw [if_neg (fun h => hx h.1)]
      exact ⟨by simp, Ek, rfl, exit_close F hx⟩

/-- C24 in double precision: for eccentricities up to 1/4 and mean anomalies up to 63 rad the loop ends after at most
31 steps, and its result solves Kepler's equation up to 6.3e-15. -/
theorem keplerLoopF_spec (F : Fp) {e M : ℝ} (h0 : 0 ≤ e) (h1 : e ≤ 1 / 4) (hM : |M| ≤ 63) :
    (keplerLoopF F e M 0 M 0).2 ≤ 31 ∧ SolvesKepler e M (keplerLoopF F e M 0 M 0).1 6.3e-15 := by
  rw [keplerLoopF]
  by_cases hx : |F.rnd (M - 0)| > F.rnd KEPLER_LIMIT
  · rw [if_pos ⟨hx, by norm_num⟩]
    have hd : |kepStep F e M M - M| ≤ (1 / 4) ^ 0 + 4 / 3 * (2 * (2 ^ (-48 : ℤ) + 2 ^ (-54 : ℤ))) := by
      have a := kepStep_err F h0 h1 hM M
      have b : |e * Real.sin M| ≤ 1 / 4 := by
        rw [abs_mul, abs_of_nonneg h0]
        have := Real.abs_sin_le_one M
        have h3 : 0 ≤ |Real.sin M| := abs_nonneg _
        nlinarith
      rw [abs_le] at a b ⊢
      norm_num at a b ⊢
      constructor <;> linarith [a.1, a.2, b.1, b.2]
    obtain ⟨h2, Ek, h3, h4⟩ := keplerLoopF_conv F h0 h1 hM 30 0 1 M (by norm_num) (by norm_num) hd
    change (keplerLoopF F e M 1 (kepStep F e M M) M).2 ≤ 31 ∧ SolvesKepler e M (keplerLoopF F e M 1 (kepStep F e M M) M).1 _
    refine ⟨h2, ?_⟩
    rw [h3]
    unfold SolvesKepler
    have a := kepStep_err F h0 h1 hM Ek
    have b : |e * (Real.sin (kepStep F e M Ek) - Real.sin Ek)| ≤ 1 / 4 * (1e-14 + 2 ^ (-99 : ℤ)) := by
      rw [abs_mul, abs_of_nonneg h0]
      exact mul_le_mul h1 ((sin_lip _ _).trans h4) (abs_nonneg _) (by norm_num)
    rw [mul_sub] at b
    have hn : (2 : ℝ) ^ (-48 : ℤ) + 2 ^ (-54 : ℤ) + 1 / 4 * (1e-14 + 2 ^ (-99 : ℤ)) ≤ 6.3e-15 := by norm_num
    generalize (2 : ℝ) ^ (-48 : ℤ) + 2 ^ (-54 : ℤ) = q at *
    generalize (1 / 4 : ℝ) * (1e-14 + 2 ^ (-99 : ℤ)) = w at *
    generalize (6.3e-15 : ℝ) = v at *
    rw [abs_le] at a b ⊢
    constructor <;> linarith [a.1, a.2, b.1, b.2]
  · rw [if_neg (fun h => hx h.1)]
    refine ⟨by simp, ?_⟩
    have := exit_close F hx
    rw [sub_zero] at this
    unfold SolvesKepler
    rw [show M - e * Real.sin M - M = -(e * Real.sin M) by ring, abs_neg, abs_mul, abs_of_nonneg h0]
    have h2 : |Real.sin M| ≤ |M| := Real.abs_sin_le_abs
    calc e * |Real.sin M| ≤ 1 / 4 * (1e-14 + 2 ^ (-99 : ℤ)) := mul_le_mul h1 (h2.trans this) (abs_nonneg _) (by norm_num)
      _ ≤ _ := by norm_num

end Ggnss
