import Verif.Lemmas.Fp
import Verif.Props.Kepler
import Mathlib.Analysis.SpecialFunctions.Trigonometric.Bounds
/-!
# Propagation of rounding errors
-/
namespace Ggnss

namespace Fp

/-- Rounding respects a double below. -/
theorem le_rnd (F : Fp) {x y : ℝ} (hy : IsDouble y) (h : y ≤ x) : y ≤ F.rnd x := by
  by_contra hlt
  push Not at hlt
  have := (F.near x).2 y hy
  rw [abs_of_nonpos (by linarith), abs_of_nonpos (by linarith)] at this
  linarith

/-- Rounding respects a double above. -/
theorem rnd_le (F : Fp) {x y : ℝ} (hy : IsDouble y) (h : x ≤ y) : F.rnd x ≤ y := by
  by_contra hlt
  push Not at hlt
  have := (F.near x).2 y hy
  rw [abs_of_nonneg (by linarith), abs_of_nonneg (by linarith)] at this
  linarith

theorem rnd_abs_le (F : Fp) {x y : ℝ} (hy : IsDouble y) (h : |x| ≤ y) : |F.rnd x| ≤ y := by
  rw [abs_le] at h ⊢
  exact ⟨F.le_rnd hy.neg h.1, F.rnd_le hy h.2⟩

/-- Powers of two are doubles. -/
theorem _root_.Ggnss.isDouble_two {e : ℤ} (h : -1074 ≤ e) : IsDouble ((2 : ℝ) ^ e) := ⟨1, e, by norm_num, h, by simp⟩

theorem _root_.Ggnss.isDouble_of {n e : ℤ} {x : ℝ} (hn : |n| ≤ 2 ^ 53) (h : -1074 ≤ e) (hx : x = n * (2 : ℝ) ^ e) : IsDouble x :=
  ⟨n, e, hn, h, hx⟩

theorem sin_le (F : Fp) (x : ℝ) : |F.sin x| ≤ 1 + 2 ^ (-53 : ℤ) := by
  have h1 := F.sin_err x
  have h2 := Real.abs_sin_le_one x
  have h3 := abs_sub_abs_le_abs_sub (F.sin x) (Real.sin x)
  linarith

/-- Rounding a value known up to `α`. -/
theorem rndE (F : Fp) {x y α Y γ : ℝ} (m : ℤ) (h : |x - y| ≤ α) (hY : |y| ≤ Y) (hm : -1021 ≤ m) (hs : Y + α ≤ 2 ^ m)
    (hγ : α + 2 ^ (m - 54) ≤ γ) : |F.rnd x - y| ≤ γ := by
  have h1 := abs_sub_abs_le_abs_sub x y
  have h2 := F.err hm (show |x| ≤ 2 ^ m by linarith)
  have h3 := abs_sub_le (F.rnd x) x y
  linarith

/-- Rounding of an exact value. -/
theorem rndX (F : Fp) {x Y γ : ℝ} (m : ℤ) (hY : |x| ≤ Y) (hm : -1021 ≤ m) (hs : Y ≤ 2 ^ m)
    (hγ : (2 : ℝ) ^ (m - 54) ≤ γ) : |F.rnd x - x| ≤ γ :=
  (F.err hm (hY.trans hs)).trans hγ

theorem _root_.Ggnss.mulE {a b a' b' α β A B : ℝ} (ha : |a - a'| ≤ α) (hb : |b - b'| ≤ β) (hA : |a'| ≤ A) (hB : |b'| ≤ B) :
    |a * b - a' * b'| ≤ α * (B + β) + A * β := by
  have e : a * b - a' * b' = (a - a') * b + a' * (b - b') := by ring
  have hb' : |b| ≤ B + β := by
    have := abs_sub_abs_le_abs_sub b b'
    linarith
  have h0 : 0 ≤ α := (abs_nonneg _).trans ha
  have h1 : 0 ≤ A := (abs_nonneg _).trans hA
  calc |a * b - a' * b'| ≤ |(a - a') * b| + |a' * (b - b')| := by rw [e]; exact abs_add_le _ _
    _ = |a - a'| * |b| + |a'| * |b - b'| := by rw [abs_mul, abs_mul]
    _ ≤ α * (B + β) + A * β :=
      add_le_add (mul_le_mul ha hb' (abs_nonneg _) h0) (mul_le_mul hA hb (abs_nonneg _) h1)

theorem _root_.Ggnss.mulB {a b A B : ℝ} (hA : |a| ≤ A) (hB : |b| ≤ B) : |a * b| ≤ A * B := by
  rw [abs_mul]
  exact mul_le_mul hA hB (abs_nonneg _) ((abs_nonneg _).trans hA)

/-- A rounded product. -/
theorem mul (F : Fp) {a b a' b' α β A B γ : ℝ} (m : ℤ) (ha : |a - a'| ≤ α) (hb : |b - b'| ≤ β) (hA : |a'| ≤ A)
    (hB : |b'| ≤ B) (hm : -1021 ≤ m) (hs : A * B + (α * (B + β) + A * β) ≤ 2 ^ m)
    (hγ : α * (B + β) + A * β + 2 ^ (m - 54) ≤ γ) : |F.rnd (a * b) - a' * b'| ≤ γ :=
  F.rndE m (mulE ha hb hA hB) (mulB hA hB) hm hs hγ

/-- A rounded sum. -/
theorem add (F : Fp) {a b a' b' α β C γ : ℝ} (m : ℤ) (ha : |a - a'| ≤ α) (hb : |b - b'| ≤ β) (hC : |a' + b'| ≤ C)
    (hm : -1021 ≤ m) (hs : C + (α + β) ≤ 2 ^ m) (hγ : α + β + 2 ^ (m - 54) ≤ γ) : |F.rnd (a + b) - (a' + b')| ≤ γ := by
  refine F.rndE m (α := α + β) ?_ hC hm hs hγ
  rw [show a + b - (a' + b') = (a - a') + (b - b') by ring]
  exact (abs_add_le _ _).trans (add_le_add ha hb)

/-- A rounded difference. -/
theorem sub (F : Fp) {a b a' b' α β C γ : ℝ} (m : ℤ) (ha : |a - a'| ≤ α) (hb : |b - b'| ≤ β) (hC : |a' - b'| ≤ C)
    (hm : -1021 ≤ m) (hs : C + (α + β) ≤ 2 ^ m) (hγ : α + β + 2 ^ (m - 54) ≤ γ) : |F.rnd (a - b) - (a' - b')| ≤ γ := by
  refine F.rndE m (α := α + β) ?_ hC hm hs hγ
  rw [show a - b - (a' - b') = (a - a') - (b - b') by ring]
  exact (abs_sub _ _).trans (add_le_add ha hb)

theorem _root_.Ggnss.addB {a b A B : ℝ} (hA : |a| ≤ A) (hB : |b| ≤ B) : |a + b| ≤ A + B :=
  (abs_add_le _ _).trans (add_le_add hA hB)
theorem _root_.Ggnss.subB {a b A B : ℝ} (hA : |a| ≤ A) (hB : |b| ≤ B) : |a - b| ≤ A + B :=
  (abs_sub _ _).trans (add_le_add hA hB)

/-- A rounded quotient. -/
theorem div (F : Fp) {a b a' b' α β Q B γ : ℝ} (m : ℤ) (ha : |a - a'| ≤ α) (hb : |b - b'| ≤ β) (hQ : |a' / b'| ≤ Q)
    (hB : B ≤ b') (hpos : 0 < B - β) (hm : -1021 ≤ m) (hs : Q + (α + Q * β) / (B - β) ≤ 2 ^ m)
    (hγ : (α + Q * β) / (B - β) + 2 ^ (m - 54) ≤ γ) : |F.rnd (a / b) - a' / b'| ≤ γ := by
  refine F.rndE m (α := (α + Q * β) / (B - β)) ?_ hQ hm hs hγ
  have hβ : 0 ≤ β := (abs_nonneg _).trans hb
  have hb1 : B - β ≤ b := by
    have := (abs_le.1 hb).1
    linarith
  have hb0 : 0 < b := by linarith
  have hb0' : 0 < b' := by linarith
  have e : a / b - a' / b' = ((a - a') - a' / b' * (b - b')) / b := by
    field_simp
    ring
  have hQ0 : 0 ≤ Q := (abs_nonneg _).trans hQ
  rw [e, abs_div, abs_of_pos hb0]
  refine div_le_div₀ ?_ ?_ hpos hb1
  · have := (abs_nonneg _).trans ha
    positivity
  · refine (abs_sub _ _).trans (add_le_add ha ?_)
    exact mulB hQ hb

/-- Square roots of numbers above 1/4 are no farther apart than the numbers. -/
theorem _root_.Ggnss.sqrtE {a a' α : ℝ} (ha : |a - a'| ≤ α) (h1 : 1 / 4 ≤ a) (h2 : 1 / 4 ≤ a') : |Real.sqrt a - Real.sqrt a'| ≤ α := by
  have s1 : 1 / 2 ≤ Real.sqrt a := Real.le_sqrt_of_sq_le (by norm_num; linarith)
  have s2 : 1 / 2 ≤ Real.sqrt a' := Real.le_sqrt_of_sq_le (by norm_num; linarith)
  have q1 := Real.sq_sqrt (show 0 ≤ a by linarith)
  have q2 := Real.sq_sqrt (show 0 ≤ a' by linarith)
  have e : (Real.sqrt a - Real.sqrt a') * (Real.sqrt a + Real.sqrt a') = a - a' := by
    rw [← q1, ← q2]
    rw [Real.sqrt_sq (by positivity), Real.sqrt_sq (by positivity)]
    ring
  refine le_trans ?_ ha
  rw [← e, abs_mul, abs_of_nonneg (show 0 ≤ Real.sqrt a + Real.sqrt a' by linarith)]
  have := abs_nonneg (Real.sqrt a - Real.sqrt a')
  nlinarith

theorem _root_.Ggnss.cos_lip (a b : ℝ) : |Real.cos a - Real.cos b| ≤ |a - b| := by
  have := sin_lip (a + Real.pi / 2) (b + Real.pi / 2)
  rw [Real.sin_add_pi_div_two, Real.sin_add_pi_div_two] at this
  simpa using this

theorem sinE (F : Fp) {a a' α γ : ℝ} (ha : |a - a'| ≤ α) (hγ : α + 2 ^ (-53 : ℤ) ≤ γ) : |F.sin a - Real.sin a'| ≤ γ := by
  have h1 := F.sin_err a
  have h2 := sin_lip a a'
  have h3 := abs_sub_le (F.sin a) (Real.sin a) (Real.sin a')
  linarith

theorem cosE (F : Fp) {a a' α γ : ℝ} (ha : |a - a'| ≤ α) (hγ : α + 2 ^ (-53 : ℤ) ≤ γ) : |F.cos a - Real.cos a'| ≤ γ := by
  have h1 := F.cos_err a
  have h2 := cos_lip a a'
  have h3 := abs_sub_le (F.cos a) (Real.cos a) (Real.cos a')
  linarith

end Fp

/-- A complex number near 1 has a small argument. -/
theorem arg_small {u : ℂ} {ε : ℝ} (h : ‖u - 1‖ ≤ ε) (hε : ε ≤ 1 / 1000) : |Complex.arg u| ≤ 1.6 * ε := by
  have h0 : 0 ≤ ε := (norm_nonneg _).trans h
  have him : |u.im| ≤ ε := by
    have := Complex.abs_im_le_norm (u - 1)
    simp only [Complex.sub_im, Complex.one_im, sub_zero] at this
    exact this.trans h
  have hre : |u.re - 1| ≤ ε := by
    have := Complex.abs_re_le_norm (u - 1)
    simp only [Complex.sub_re, Complex.one_re] at this
    exact this.trans h
  have hre0 : 0 ≤ u.re := by have := (abs_le.1 hre).1; linarith
  have hnorm : 1 - ε ≤ ‖u‖ := by
    have := norm_sub_norm_le (1 : ℂ) u
    rw [norm_sub_rev, norm_one] at this
    linarith
  have hpos : 0 < ‖u‖ := by linarith
  have hu : u ≠ 0 := norm_pos_iff.1 hpos
  have hsin : Real.sin (Complex.arg u) = u.im / ‖u‖ := Complex.sin_arg u
  have hle : |Complex.arg u| ≤ Real.pi / 2 := Complex.abs_arg_le_pi_div_two_iff.2 hre0
  have h1 : 2 / Real.pi * |Complex.arg u| ≤ |Real.sin (Complex.arg u)| := by
    have := Real.mul_abs_le_abs_sin hle
    simpa using this
  rw [hsin, abs_div, abs_of_pos hpos] at h1
  have h2 : |u.im| / ‖u‖ ≤ ε / (1 - ε) := div_le_div₀ h0 him (by linarith) hnorm
  have h3 : ε / (1 - ε) ≤ ε * 1.0011 := by
    rw [div_le_iff₀ (by linarith)]
    nlinarith
  have hpi := Real.pi_lt_d2
  have hpi0 := Real.pi_pos
  have h4 : 2 * |Complex.arg u| ≤ ε * 1.0011 * Real.pi := by
    have h5 : 2 / Real.pi * |Complex.arg u| ≤ ε * 1.0011 := h1.trans (h2.trans h3)
    rw [div_mul_eq_mul_div, div_le_iff₀ hpi0] at h5
    exact h5
  nlinarith

/-- The argument of a number near `exp (i v)` is near an angle with the same sine and cosine. -/
theorem arg_near {x y v ε : ℝ} (hx : |x - Real.cos v| ≤ ε) (hy : |y - Real.sin v| ≤ ε) (hε : ε ≤ 1 / 2000) :
    ∃ v', Real.cos v' = Real.cos v ∧ Real.sin v' = Real.sin v ∧ |Complex.arg ⟨x, y⟩ - v'| ≤ 3.2 * ε := by
  set w : ℂ := ⟨Real.cos v, Real.sin v⟩ with hw
  set z : ℂ := ⟨x, y⟩ with hz
  have hwn : ‖w‖ = 1 := by
    rw [Complex.norm_def, Complex.normSq_mk, ← sq, ← sq, Real.cos_sq_add_sin_sq, Real.sqrt_one]
  have hw0 : w ≠ 0 := norm_pos_iff.1 (by rw [hwn]; norm_num)
  have hzw : ‖z - w‖ ≤ 2 * ε := by
    have := Complex.norm_le_abs_re_add_abs_im (z - w)
    simp only [hz, hw, Complex.sub_re, Complex.sub_im] at this
    simp only [hz, hw]
    linarith
  have hu : ‖z / w - 1‖ ≤ 2 * ε := by
    rw [div_sub_one hw0, norm_div, hwn, div_one]
    exact hzw
  have hsmall := arg_small hu (by linarith)
  have hz0 : z ≠ 0 := by
    have h1 := norm_sub_norm_le w z
    rw [norm_sub_rev, hwn] at h1
    exact norm_pos_iff.1 (by linarith)
  -- the direction of `w`
  have key : Complex.exp (((Complex.arg z - Complex.arg (z / w) : ℝ) : ℂ) * Complex.I) = w := by
    have a1 := Complex.norm_mul_exp_arg_mul_I z
    have a2 := Complex.norm_mul_exp_arg_mul_I (z / w)
    have hn : ‖z / w‖ = ‖z‖ := by rw [norm_div, hwn, div_one]
    rw [hn] at a2
    have hzn : ((‖z‖ : ℝ) : ℂ) ≠ 0 := by
      rw [Complex.ofReal_ne_zero]
      exact norm_ne_zero_iff.2 hz0
    push_cast
    rw [sub_mul, Complex.exp_sub]
    rw [div_eq_iff (Complex.exp_ne_zero _)]
    apply mul_left_cancel₀ hzn
    rw [a1, mul_left_comm, a2]
    field_simp
  refine ⟨Complex.arg z - Complex.arg (z / w), ?_, ?_, ?_⟩
  · have := congrArg Complex.re key
    rw [Complex.exp_ofReal_mul_I_re] at this
    exact this
  · have := congrArg Complex.im key
    rw [Complex.exp_ofReal_mul_I_im] at this
    exact this
  · rw [sub_sub_cancel]
    linarith

end Ggnss
