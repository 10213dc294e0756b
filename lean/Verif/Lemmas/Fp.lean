import Verif.Model.Fp
import Mathlib.Tactic.Linarith
import Mathlib.Tactic.Positivity
import Mathlib.Tactic.Ring
import Mathlib.Tactic.NormNum
/-!
# Rounding to double precision
-/
namespace Ggnss

theorem two_zpow_pos (e : ℤ) : (0 : ℝ) < 2 ^ e := by positivity

theorem two_zpow_add (a b : ℤ) : (2 : ℝ) ^ (a + b) = 2 ^ a * 2 ^ b := zpow_add₀ (by norm_num) a b

theorem two_zpow_nat (n : ℕ) : (2 : ℝ) ^ (n : ℤ) = 2 ^ n := zpow_natCast _ _

/-- The double nearest to `x` on the grid of spacing `2 ^ q`. -/
noncomputable def gridRound (q : ℤ) (x : ℝ) : ℝ := (round (x / 2 ^ q) : ℝ) * 2 ^ q

theorem gridRound_err (q : ℤ) (x : ℝ) : |gridRound q x - x| ≤ 2 ^ (q - 1) := by
  have hq := two_zpow_pos q
  have h := abs_sub_round (x / (2 : ℝ) ^ q)
  have e : gridRound q x - x = -((x / 2 ^ q - round (x / 2 ^ q)) * 2 ^ q) := by
    unfold gridRound; field_simp; ring
  rw [e, abs_neg, abs_mul, abs_of_pos hq]
  have : ((2 : ℝ) ^ (-1 : ℤ)) = 1 / 2 := by norm_num
  rw [show q - 1 = q + -1 by ring, two_zpow_add, this]
  nlinarith

theorem gridRound_double {q m : ℤ} {x : ℝ} (hq : -1074 ≤ q) (hx : |x| ≤ 2 ^ m) (hm : m ≤ q + 53) : IsDouble (gridRound q x) := by
  refine ⟨round (x / 2 ^ q), q, ?_, hq, rfl⟩
  have hq' := two_zpow_pos q
  have h1 : |x / 2 ^ q| ≤ 2 ^ 53 := by
    rw [abs_div, abs_of_pos hq', div_le_iff₀ hq']
    calc |x| ≤ 2 ^ m := hx
      _ ≤ 2 ^ (53 + q) := zpow_le_zpow_right₀ (by norm_num) (by omega)
      _ = _ := by rw [two_zpow_add]; norm_cast
  have h2 : x / 2 ^ q ≤ 2 ^ 53 := le_trans (le_abs_self _) h1
  have h3 : -(2 ^ 53) ≤ x / 2 ^ q := by have := neg_abs_le (x / (2 : ℝ) ^ q); linarith
  rw [abs_le]
  constructor
  · rw [round_eq, Int.le_floor]; push_cast; linarith
  · rw [round_eq, ← Int.lt_add_one_iff, Int.floor_lt]; push_cast; linarith

/-- The error of rounding a number of absolute value at most `2 ^ m`. -/
theorem Fp.err (F : Fp) {x : ℝ} {m : ℤ} (hm : -1021 ≤ m) (hx : |x| ≤ 2 ^ m) : |F.rnd x - x| ≤ 2 ^ (m - 54) := by
  have h := (F.near x).2 (gridRound (m - 53) x) (gridRound_double (by omega) hx (by omega))
  have := gridRound_err (m - 53) x
  rw [show m - 53 - 1 = m - 54 by omega] at this
  exact h.trans this

theorem Fp.double (F : Fp) (x : ℝ) : IsDouble (F.rnd x) := (F.near x).1

/-- A double is not changed by rounding. -/
theorem Fp.exact (F : Fp) {x : ℝ} (hx : IsDouble x) : F.rnd x = x := by
  have := (F.near x).2 x hx
  rw [sub_self, abs_zero] at this
  have := abs_nonpos_iff.1 this
  linarith

/-- Integers up to 2^53 are doubles. -/
theorem isDouble_int {n : ℤ} (h : |n| ≤ 2 ^ 53) : IsDouble (n : ℝ) := ⟨n, 0, h, by norm_num, by simp⟩

theorem IsDouble.neg {x : ℝ} (h : IsDouble x) : IsDouble (-x) := by
  obtain ⟨m, e, h1, h2, rfl⟩ := h
  exact ⟨-m, e, by rwa [abs_neg], h2, by push_cast; ring⟩

/-- Relative error, with the term for numbers below the normal range. -/
theorem Fp.rel (F : Fp) (x : ℝ) : |F.rnd x - x| ≤ 2 ^ (-53 : ℤ) * |x| + 2 ^ (-1075 : ℤ) := by
  by_cases hx : x = 0
  · subst hx
    have := F.err (x := 0) (m := -1021) (by omega) (by simp)
    rw [abs_zero, mul_zero, zero_add]
    simpa using this
  · have hp : 0 < |x| := abs_pos.2 hx
    have h1 := Int.zpow_log_le_self (b := 2) (by norm_num) hp
    have h2 := Int.lt_zpow_succ_log_self (b := 2) (by norm_num) |x|
    push_cast at h1 h2
    by_cases hm : -1021 ≤ Int.log 2 |x| + 1
    · have := F.err hm h2.le
      rw [show Int.log 2 |x| + 1 - 54 = -53 + Int.log 2 |x| by omega, two_zpow_add] at this
      have h3 : (0 : ℝ) < 2 ^ (-53 : ℤ) := two_zpow_pos _
      have h4 : (0 : ℝ) < 2 ^ (-1075 : ℤ) := two_zpow_pos _
      nlinarith
    · have h5 : |x| ≤ 2 ^ (-1021 : ℤ) := h2.le.trans (zpow_le_zpow_right₀ (by norm_num) (by omega))
      have := F.err (by omega) h5
      have h3 : (0 : ℝ) < 2 ^ (-53 : ℤ) := two_zpow_pos _
      rw [show (-1021 : ℤ) - 54 = -1075 by norm_num] at this
      nlinarith

/-- Two different doubles near each other: every double strictly between grid neighbours is excluded. -/
theorem double_grid {x : ℝ} {q : ℤ} (hx : IsDouble x) (h : (2 : ℝ) ^ (q + 52) < |x|) : ∃ n : ℤ, x = n * 2 ^ q := by
  obtain ⟨m, e, hm, he, rfl⟩ := hx
  have he' := two_zpow_pos e
  have hq : q ≤ e := by
    by_contra hlt
    have h1 : |(m : ℝ)| ≤ 2 ^ 53 := by exact_mod_cast hm
    rw [abs_mul, abs_of_pos he'] at h
    have h2 : |(m : ℝ)| * 2 ^ e ≤ 2 ^ 53 * 2 ^ e := mul_le_mul_of_nonneg_right h1 he'.le
    have h3 : (2 : ℝ) ^ 53 * 2 ^ e = 2 ^ (53 + e) := by rw [two_zpow_add]; norm_cast
    have h4 : (2 : ℝ) ^ (53 + e) ≤ 2 ^ (q + 52) := zpow_le_zpow_right₀ (by norm_num) (by omega)
    linarith
  obtain ⟨k, hk⟩ := Int.eq_ofNat_of_zero_le (show 0 ≤ e - q by omega)
  refine ⟨m * 2 ^ k, ?_⟩
  have : e = k + q := by omega
  rw [this, two_zpow_add]
  push_cast
  rw [two_zpow_nat]; ring

/-- The grid number nearest to `x` is a nearest double. -/
theorem gridRound_nearest {x : ℝ} {q : ℤ} (hq : -1074 ≤ q) (hx : |x| ≤ 2 ^ (q + 53)) (hlow : q = -1074 ∨ (2 : ℝ) ^ (q + 52) ≤ |x|) :
    NearestDouble x (gridRound q x) := by
  have hq' := two_zpow_pos q
  refine ⟨gridRound_double hq hx le_rfl, ?_⟩
  -- every multiple of the spacing is at least as far
  have hmul : ∀ n : ℤ, |gridRound q x - x| ≤ |(n : ℝ) * 2 ^ q - x| := by
    intro n
    have h := round_le (x / (2 : ℝ) ^ q) n
    have e1 : gridRound q x - x = -((x / 2 ^ q - round (x / 2 ^ q)) * 2 ^ q) := by unfold gridRound; field_simp; ring
    have e2 : (n : ℝ) * 2 ^ q - x = -((x / 2 ^ q - n) * 2 ^ q) := by field_simp; ring
    rw [e1, e2, abs_neg, abs_neg, abs_mul, abs_mul, abs_of_pos hq']
    exact mul_le_mul_of_nonneg_right h hq'.le
  intro z hz
  by_cases hbig : (2 : ℝ) ^ (q + 52) < |z|
  · obtain ⟨n, rfl⟩ := double_grid hz hbig
    exact hmul n
  · rcases hlow with rfl | hlow
    · obtain ⟨m, e, hm, he, rfl⟩ := hz
      obtain ⟨k, hk⟩ := Int.eq_ofNat_of_zero_le (show 0 ≤ e - (-1074) by omega)
      have : e = k + (-1074) := by omega
      rw [this, two_zpow_add, two_zpow_nat, ← mul_assoc]
      have := hmul (m * 2 ^ k)
      push_cast at this
      exact this
    · push Not at hbig
      have h52 : (2 : ℝ) ^ (q + 52) = ((2 ^ 52 : ℤ) : ℝ) * 2 ^ q := by
        rw [add_comm, two_zpow_add]; push_cast; norm_cast
      rcases le_total 0 x with hx0 | hx0
      · have := hmul (2 ^ 52)
        rw [← h52] at this
        rw [abs_of_nonneg hx0] at hlow
        have hz' := le_abs_self z
        rw [abs_of_nonpos (by linarith : (2 : ℝ) ^ (q + 52) - x ≤ 0)] at this
        rw [abs_of_nonpos (by linarith : z - x ≤ 0)]
        linarith
      · have := hmul (-(2 ^ 52))
        push_cast at this h52
        rw [neg_mul, ← h52] at this
        rw [abs_of_nonpos hx0] at hlow
        have hz' := neg_abs_le z
        rw [abs_of_nonneg (by linarith : 0 ≤ -(2 : ℝ) ^ (q + 52) - x)] at this
        rw [abs_of_nonneg (by linarith : 0 ≤ z - x)]
        linarith

/-- Every real number has a nearest double. -/
theorem exists_nearestDouble (x : ℝ) : ∃ y, NearestDouble x y := by
  by_cases hx : x = 0
  · exact ⟨0, ⟨0, 0, by norm_num, by norm_num, by simp⟩, fun z _ => by simp [hx]⟩
  · have hp : 0 < |x| := abs_pos.2 hx
    have h1 := Int.zpow_log_le_self (b := 2) (by norm_num) hp
    have h2 := (Int.lt_zpow_succ_log_self (b := 2) (by norm_num) |x|).le
    push_cast at h1 h2
    by_cases hm : -1074 ≤ Int.log 2 |x| - 52
    · exact ⟨_, gridRound_nearest hm (by rwa [show Int.log 2 |x| - 52 + 53 = Int.log 2 |x| + 1 by omega])
        (Or.inr (by rwa [show Int.log 2 |x| - 52 + 52 = Int.log 2 |x| by omega]))⟩
    · exact ⟨_, gridRound_nearest (q := -1074) le_rfl (h2.trans (zpow_le_zpow_right₀ (by norm_num) (by omega))) (Or.inl rfl)⟩

/-- The arithmetic exists: correctly rounded library functions. -/
noncomputable def Fp.ideal : Fp :=
  let r : ℝ → ℝ := fun x => (exists_nearestDouble x).choose
  have hr : ∀ x, NearestDouble x (r x) := fun x => (exists_nearestDouble x).choose_spec
  have herr : ∀ (x : ℝ) (m : ℤ), -1021 ≤ m → |x| ≤ 2 ^ m → |r x - x| ≤ 2 ^ (m - 54) := fun x m hm hx => by
    have h := (hr x).2 (gridRound (m - 53) x) (gridRound_double (by omega) hx (by omega))
    have := gridRound_err (m - 53) x
    rw [show m - 53 - 1 = m - 54 by omega] at this
    exact h.trans this
  { rnd := r
    near := hr
    sin := fun x => r (Real.sin x)
    sin_double := fun x => (hr _).1
    sin_err := fun x => (herr _ 0 (by norm_num) (by simpa using Real.abs_sin_le_one x)).trans (zpow_le_zpow_right₀ (by norm_num) (by norm_num))
    cos := fun x => r (Real.cos x)
    cos_double := fun x => (hr _).1
    cos_err := fun x => (herr _ 0 (by norm_num) (by simpa using Real.abs_cos_le_one x)).trans (zpow_le_zpow_right₀ (by norm_num) (by norm_num))
    atan2 := fun y x => r (Complex.arg ⟨x, y⟩)
    atan2_double := fun y x => (hr _).1
    atan2_err := fun y x => (herr _ 2 (by norm_num) (by
      have := Complex.abs_arg_le_pi ⟨x, y⟩
      have := Real.pi_le_four
      norm_num; linarith)).trans (zpow_le_zpow_right₀ (by norm_num) (by norm_num)) }

end Ggnss
