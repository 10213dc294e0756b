import Verif.Spec.PpRun
import Mathlib.Analysis.SpecialFunctions.Trigonometric.Bounds
import Mathlib.Analysis.Complex.ExponentialBounds
import Mathlib.Analysis.Real.Pi.Bounds
import Mathlib.Tactic.LinearCombination
/-!
# C65, C66: zenith angles, troposphere and weights of the positioning program
-/
namespace Ggnss

/-! ## C65 -/

theorem rot_len (sf cf sl cl dx dy dz : ℝ) (hf : sf ^ 2 + cf ^ 2 = 1) (hl : sl ^ 2 + cl ^ 2 = 1) :
    (-sf * cl * dx - sf * sl * dy + cf * dz) * (-sf * cl * dx - sf * sl * dy + cf * dz) + (-sl * dx + cl * dy) * (-sl * dx + cl * dy) +
      (cf * cl * dx + cf * sl * dy + sf * dz) * (cf * cl * dx + cf * sl * dy + sf * dz) = dx ^ 2 + dy ^ 2 + dz ^ 2 := by
  linear_combination (cl ^ 2 * dx ^ 2 + sl ^ 2 * dy ^ 2 + 2 * cl * sl * dx * dy + dz ^ 2) * hf + (dx ^ 2 + dy ^ 2) * hl

theorem IsZenith.unique {s : PpSite} {p : Fin 3 → ℝ} {z z' : ℝ} (hp : 0 < s.range p) (h : IsZenith s p z) (h' : IsZenith s p z') : z = z' := by
  refine Real.injOn_cos ⟨h.1, h.2.1⟩ ⟨h'.1, h'.2.1⟩ ?_
  have e := h.2.2.trans h'.2.2.symm
  exact mul_left_cancel₀ hp.ne' e

theorem range_pos {s : PpSite} {p : Fin 3 → ℝ} (h : p 0 ≠ s.x ∨ p 1 ≠ s.y ∨ p 2 ≠ s.z) : 0 < s.range p := by
  unfold PpSite.range
  apply Real.sqrt_pos.2
  have h0 := sq_nonneg (p 0 - s.x)
  have h1 := sq_nonneg (p 1 - s.y)
  have h2 := sq_nonneg (p 2 - s.z)
  rcases h with h | h | h
  · have := sq_pos_of_ne_zero (sub_ne_zero.2 h); linarith
  · have := sq_pos_of_ne_zero (sub_ne_zero.2 h); linarith
  · have := sq_pos_of_ne_zero (sub_ne_zero.2 h); linarith

/-- **C65**: the angle the program computes is the angle at the receiver between the local vertical and the line of sight,
for every receiver and every satellite; it is the only one. -/
theorem C65_zenith (s : PpSite) (p : Fin 3 → ℝ) :
    IsZenith s p (ppZenith s p) ∧ ((p 0 ≠ s.x ∨ p 1 ≠ s.y ∨ p 2 ≠ s.z) → ∀ z, IsZenith s p z → z = ppZenith s p) := by
  have key : IsZenith s p (ppZenith s p) := by
    refine ⟨Real.arccos_nonneg _, Real.arccos_le_pi _, ?_⟩
    have hl := rot_len (Real.sin s.lat) (Real.cos s.lat) (Real.sin s.lon) (Real.cos s.lon) (p 0 - s.x) (p 1 - s.y) (p 2 - s.z)
      (Real.sin_sq_add_cos_sq _) (Real.sin_sq_add_cos_sq _)
    unfold ppZenith
    simp only [hl]
    change s.range p * Real.cos (Real.arccos (_ / s.range p)) = _
    have hr0 : 0 ≤ s.range p := Real.sqrt_nonneg _
    have hr2 : s.range p ^ 2 = (p 0 - s.x) ^ 2 + (p 1 - s.y) ^ 2 + (p 2 - s.z) ^ 2 := Real.sq_sqrt (by positivity)
    set u := Real.cos s.lat * Real.cos s.lon * (p 0 - s.x) + Real.cos s.lat * Real.sin s.lon * (p 1 - s.y) + Real.sin s.lat * (p 2 - s.z) with hu
    have hle : u ^ 2 ≤ s.range p ^ 2 := by
      rw [hr2, ← hl]
      nlinarith [mul_self_nonneg (-Real.sin s.lat * Real.cos s.lon * (p 0 - s.x) - Real.sin s.lat * Real.sin s.lon * (p 1 - s.y) +
        Real.cos s.lat * (p 2 - s.z)), mul_self_nonneg (-Real.sin s.lon * (p 0 - s.x) + Real.cos s.lon * (p 1 - s.y))]
    have hab := abs_le_of_sq_le_sq' hle hr0
    have hup : upAt s.lat s.lon 0 * (p 0 - s.x) + upAt s.lat s.lon 1 * (p 1 - s.y) + upAt s.lat s.lon 2 * (p 2 - s.z) = u := by
      simp [upAt, hu]
    rw [hup]
    rcases hr0.eq_or_lt with h0 | h0
    · rw [← h0] at hab
      rw [← h0, zero_mul]; linarith [hab.1, hab.2]
    · rw [Real.cos_arccos]
      · field_simp
      · rw [le_div_iff₀ h0]; linarith [hab.1]
      · rw [div_le_iff₀ h0]; linarith [hab.2]
  exact ⟨key, fun hp z hz => hz.unique (range_pos hp) key⟩

/-- **C65**: the elevation mask sees the angle in degrees; satellites more than 0.2 rad below the horizon end the program (the exception
is not caught), all others do not. -/
theorem C65_mask (s : PpSite) (p : Fin 3 → ℝ) (z : ℝ) (hp : p 0 ≠ s.x ∨ p 1 ≠ s.y ∨ p 2 ≠ s.z) (hz : IsZenith s p z) :
    svZenAngle s p = (if z > Real.pi / 2 + 0.2 then none else some (z * 180 / Real.pi)) ∧
    (z * 180 / Real.pi < 80 ↔ z < deg 80) := by
  obtain rfl := (C65_zenith s p).2 hp z hz
  constructor
  · unfold svZenAngle
    simp only
    have h0 : ¬ ppZenith s p < -0.2 := not_lt.2 (by have := hz.1; linarith)
    simp only [h0, false_or]
  · unfold deg
    rw [div_lt_iff₀ Real.pi_pos, lt_div_iff₀ (by norm_num)]

/-- A satellite straight above the receiver (on the equator at longitude 0) has zenith angle 0. -/
example : ppZenith ⟨6378137, 0, 0, 0, 0, 0⟩ ![26560000, 0, 0] = 0 := by
  refine ((C65_zenith _ _).2 (Or.inl (by norm_num)) 0 ⟨le_refl _, Real.pi_pos.le, ?_⟩).symm
  have e : (√((26560000 - 6378137) ^ 2) : ℝ) = 26560000 - 6378137 := Real.sqrt_sq (by norm_num)
  simp [PpSite.range, upAt, e]

/-- A satellite on the other side of the Earth ends the program. -/
example : svZenAngle ⟨6378137, 0, 0, 0, 0, 0⟩ ![-26560000, 0, 0] = none := by
  have hz : IsZenith ⟨6378137, 0, 0, 0, 0, 0⟩ ![-26560000, 0, 0] Real.pi := by
    refine ⟨Real.pi_pos.le, le_refl _, ?_⟩
    have e : (√((-26560000 - 6378137) ^ 2) : ℝ) = 26560000 + 6378137 := by
      rw [show (-26560000 - 6378137 : ℝ) ^ 2 = (26560000 + 6378137) ^ 2 by ring]; exact Real.sqrt_sq (by norm_num)
    simp [PpSite.range, upAt, e]
    norm_num
  rw [(C65_mask _ _ _ (Or.inl (by norm_num)) hz).1, if_pos]
  have := Real.pi_gt_three
  linarith

/-! ## C66 -/

/-- **C66**: the weights are 1, not the announced cos² z, whenever the cosine is not zero. -/
theorem C66_weight (a : ℝ) (h : Real.cos a ≠ 0) : ppWeight a = 1 := by
  unfold ppWeight; field_simp

/-- … so that they differ from cos² z for every satellite that is not in the zenith. -/
theorem C66_weight_wrong (a : ℝ) (h0 : 0 < a) (h1 : a < Real.pi / 2) : ppWeight a ≠ Real.cos a ^ 2 := by
  have hc : 0 < Real.cos a := Real.cos_pos_of_mem_Ioo ⟨by linarith, h1⟩
  rw [C66_weight a hc.ne']
  have : Real.cos a < 1 := by
    rw [← Real.cos_zero]; exact Real.cos_lt_cos_of_nonneg_of_le_pi_div_two (le_refl _) h1.le h0
  nlinarith

theorem saas_T (h : ℝ) : (saasInit h).T = 18 - 0.0065 * h := by simp [saasInit]
theorem saas_P (h : ℝ) : (saasInit h).P = stdPressure h := by simp [saasInit, stdPressure]

theorem saas_e_bound {h : ℝ} (h0 : -1000 ≤ h) : 0 ≤ (saasInit h).e ∧ (saasInit h).e ≤ 50 * Real.exp (-31) := by
  simp only [saasInit, sub_zero]
  constructor
  · positivity
  · rw [mul_assoc, ← Real.exp_add]
    refine mul_le_mul_of_nonneg_left (Real.exp_le_exp.2 ?_) (by norm_num)
    have : (0 : ℝ) ≤ (0.000256908 : ℝ) ^ (2 : ℝ) := by positivity
    linarith

theorem exp_neg31 : Real.exp (-31) ≤ 1 / 2 ^ 31 := by
  rw [Real.exp_neg, ← one_div]
  refine one_div_le_one_div_of_le (by positivity) ?_
  have h1 : (2 : ℝ) ≤ Real.exp 1 := by have := Real.exp_one_gt_d9; linarith
  calc (2 : ℝ) ^ 31 ≤ Real.exp 1 ^ 31 := pow_le_pow_left₀ (by norm_num) h1 31
    _ = Real.exp 31 := by rw [← Real.exp_nat_mul]; norm_num

/-- **C66**, partial: up to 2500 m the correction is the dry part of Saastamoinen's delay, to a fiftieth of a millimetre over cos z.
Missing: the wet part, see `C66_wet_missing`. -/
theorem C66_dry_partial (h z : ℝ) (h0 : -1000 ≤ h) (h1 : h ≤ 2500) :
    |saasCorrection (saasInit h) z - dryDelay h z| ≤ 2e-5 / |Real.cos z| := by
  have e1 : saasCorrection (saasInit h) z - dryDelay h z = 0.002277 / Real.cos z * ((0.05 + 1255 / (saasInit h).T) * (saasInit h).e) := by
    simp only [saasCorrection, dryDelay, saas_P]; ring
  obtain ⟨b0, b1⟩ := saas_e_bound h0
  have hT : 1 ≤ (saasInit h).T := by rw [saas_T]; linarith
  have hf : 0 ≤ 0.05 + 1255 / (saasInit h).T ∧ 0.05 + 1255 / (saasInit h).T ≤ 1256 := by
    have : 1255 / (saasInit h).T ≤ 1255 := by rw [div_le_iff₀ (by linarith)]; linarith
    exact ⟨by positivity, by linarith⟩
  have hb : (saasInit h).e ≤ 50 / 2 ^ 31 := by linarith [exp_neg31, b1]
  rw [e1, abs_mul, abs_div, abs_of_nonneg (mul_nonneg hf.1 b0), abs_of_pos (show (0 : ℝ) < 0.002277 by norm_num), div_mul_eq_mul_div]
  refine div_le_div_of_nonneg_right ?_ (abs_nonneg _)
  have : (0.05 + 1255 / (saasInit h).T) * (saasInit h).e ≤ 1256 * (50 / 2 ^ 31) := mul_le_mul hf.2 hb b0 (by norm_num)
  norm_num at this ⊢
  linarith

theorem std_wet {h : ℝ} (h0 : 0 ≤ h) (h1 : h ≤ 1000) : 9 ≤ (1255 / stdTemperature h + 0.05) * vapourPressure h := by
  have hT1 : 284.65 ≤ stdTemperature h := by unfold stdTemperature; linarith
  have hT2 : stdTemperature h ≤ 291.15 := by unfold stdTemperature; linarith
  have hH : 0.18 ≤ stdHumidity h := by
    unfold stdHumidity
    have := Real.add_one_le_exp (-0.0006396 * h)
    linarith
  have hE : 11.8 ≤ Real.exp (-37.2465 + 0.213166 * stdTemperature h - 0.000256908 * stdTemperature h ^ 2) := by
    have g : (2.61 : ℝ) ≤ -37.2465 + 0.213166 * stdTemperature h - 0.000256908 * stdTemperature h ^ 2 := by nlinarith
    refine le_trans ?_ (Real.exp_le_exp.2 g)
    have e1 : Real.exp 2.61 = Real.exp 1 ^ 2 * Real.exp 0.61 := by
      rw [← Real.exp_nat_mul, ← Real.exp_add]; norm_num
    have e2 := Real.exp_one_gt_d9
    have e3 := Real.add_one_le_exp (0.61 : ℝ)
    rw [e1]
    have : (7.38 : ℝ) ≤ Real.exp 1 ^ 2 := by nlinarith
    nlinarith [Real.exp_pos (0.61 : ℝ)]
  have hV : 2.124 ≤ vapourPressure h := by
    unfold vapourPressure
    nlinarith
  have hF : 4.3 ≤ 1255 / stdTemperature h + 0.05 := by
    have : 4.3 ≤ 1255 / stdTemperature h := by rw [le_div_iff₀ (by linarith)]; linarith
    linarith
  nlinarith

/-- **C66** is false for the wet part (temperature in degrees Celsius where the formula has Kelvin, and its square left out): at every height from 0 to 1000 m
and every zenith angle in use the correction is too short, by at least 2 cm in the zenith and correspondingly (over cos z) more lower down. -/
theorem C66_wet_missing (h z : ℝ) (h0 : 0 ≤ h) (h1 : h ≤ 1000) (z0 : 0 ≤ z) (z1 : z < Real.pi / 2) :
    0.02 / Real.cos z ≤ tropDelay h z - saasCorrection (saasInit h) z := by
  have hc : 0 < Real.cos z := Real.cos_pos_of_mem_Ioo ⟨by linarith, z1⟩
  have hd := (abs_le.1 (C66_dry_partial h z (by linarith) (by linarith))).2
  rw [abs_of_pos hc] at hd
  have hw := std_wet h0 h1
  have e : tropDelay h z = dryDelay h z + 0.002277 * ((1255 / stdTemperature h + 0.05) * vapourPressure h) / Real.cos z := by
    unfold tropDelay dryDelay; ring
  have : 0.02002 / Real.cos z ≤ 0.002277 * ((1255 / stdTemperature h + 0.05) * vapourPressure h) / Real.cos z :=
    div_le_div_of_nonneg_right (by linarith) hc.le
  have e2 : 0.02002 / Real.cos z = 0.02 / Real.cos z + 2e-5 / Real.cos z := by rw [← add_div]; norm_num
  linarith

/-- At 10 degrees elevation the missing part exceeds 11 cm. -/
example (h : ℝ) (h0 : 0 ≤ h) (h1 : h ≤ 1000) : 0.11 ≤ tropDelay h (deg 80) - saasCorrection (saasInit h) (deg 80) := by
  have hp := Real.pi_lt_d2
  have hp0 := Real.pi_pos
  have hb : deg 80 < Real.pi / 2 := by unfold deg; linarith
  have h80 : 0 ≤ deg 80 := by unfold deg; positivity
  refine le_trans ?_ (C66_wet_missing h (deg 80) h0 h1 h80 hb)
  have hc : 0 < Real.cos (deg 80) := Real.cos_pos_of_mem_Ioo ⟨by linarith, hb⟩
  have hs : Real.cos (deg 80) ≤ 0.175 := by
    have : Real.cos (deg 80) = Real.sin (Real.pi / 18) := by
      rw [← Real.cos_pi_div_two_sub]; congr 1; unfold deg; ring
    rw [this]
    exact (Real.sin_le (by positivity)).trans (by linarith)
  rw [le_div_iff₀ hc]
  linarith

end Ggnss
