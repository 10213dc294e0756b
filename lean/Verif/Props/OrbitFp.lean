import Verif.Model.OrbitFp
import Verif.Spec.OrbitFp
import Verif.Lemmas.FpErr
import Verif.Props.KeplerFp
/-!
# Broadcast orbits and clocks in double precision
-/
namespace Ggnss

/-! ## Relative errors -/

/-- `x` is `y` up to the relative error `ε`. -/
def RelErr (x y ε : ℝ) : Prop := |x - y| ≤ ε * y

theorem RelErr.mul {x x' y y' ε ε' γ : ℝ} (h : RelErr x y ε) (h' : RelErr x' y' ε') (hy : 0 < y) (hy' : 0 < y')
    (hγ : ε + ε' + ε * ε' ≤ γ) : RelErr (x * x') (y * y') γ := by
  unfold RelErr at *
  have := mulE h h' (le_of_eq (abs_of_pos hy)) (le_of_eq (abs_of_pos hy'))
  have hp : 0 < y * y' := mul_pos hy hy'
  calc _ ≤ ε * y * (y' + ε' * y') + y * (ε' * y') := this
    _ = (ε + ε' + ε * ε') * (y * y') := by ring
    _ ≤ γ * (y * y') := mul_le_mul_of_nonneg_right hγ hp.le

theorem RelErr.rnd (F : Fp) {x y ε γ : ℝ} (h : RelErr x y ε) (hy : 2 ^ (-900 : ℤ) ≤ y) (_hε : ε ≤ 1 / 2)
    (hγ : ε + (1 + ε) * 1.12e-16 ≤ γ) : RelErr (F.rnd x) y γ := by
  unfold RelErr at *
  have hy0 : 0 < y := lt_of_lt_of_le (two_zpow_pos _) hy
  have h1 := F.rel x
  have h2 : |x| ≤ (1 + ε) * y := by
    have := abs_sub_abs_le_abs_sub x y
    rw [abs_of_pos hy0] at this
    linarith
  have h3 : (2 : ℝ) ^ (-1075 : ℤ) ≤ 2 ^ (-100 : ℤ) * y := by
    calc (2 : ℝ) ^ (-1075 : ℤ) ≤ 2 ^ (-100 + -900 : ℤ) := zpow_le_zpow_right₀ (by norm_num) (by norm_num)
      _ = 2 ^ (-100 : ℤ) * 2 ^ (-900 : ℤ) := two_zpow_add _ _
      _ ≤ _ := mul_le_mul_of_nonneg_left hy (two_zpow_pos _).le
  have h0 : 0 ≤ ε := by
    have := (abs_nonneg _).trans h
    by_contra hn
    push Not at hn
    nlinarith
  have h4 := abs_sub_le (F.rnd x) x y
  have h5 : (2 : ℝ) ^ (-53 : ℤ) * |x| ≤ 2 ^ (-53 : ℤ) * ((1 + ε) * y) := mul_le_mul_of_nonneg_left h2 (two_zpow_pos _).le
  have h6 : (2 : ℝ) ^ (-53 : ℤ) * ((1 + ε) * y) + 2 ^ (-100 : ℤ) * y ≤ (1 + ε) * 1.12e-16 * y := by
    have a : (2 : ℝ) ^ (-53 : ℤ) + 2 ^ (-100 : ℤ) ≤ 1.12e-16 := by norm_num
    have b : (2 : ℝ) ^ (-100 : ℤ) * y ≤ 2 ^ (-100 : ℤ) * ((1 + ε) * y) :=
      mul_le_mul_of_nonneg_left (by nlinarith) (two_zpow_pos _).le
    have c : 0 ≤ (1 + ε) * y := by positivity
    calc _ ≤ (2 : ℝ) ^ (-53 : ℤ) * ((1 + ε) * y) + 2 ^ (-100 : ℤ) * ((1 + ε) * y) := by linarith
      _ = ((2 : ℝ) ^ (-53 : ℤ) + 2 ^ (-100 : ℤ)) * ((1 + ε) * y) := by ring
      _ ≤ 1.12e-16 * ((1 + ε) * y) := mul_le_mul_of_nonneg_right a c
      _ = _ := by ring
  calc |F.rnd x - y| ≤ |F.rnd x - x| + |x - y| := h4
    _ ≤ (2 ^ (-53 : ℤ) * |x| + 2 ^ (-1075 : ℤ)) + ε * y := add_le_add h1 h
    _ ≤ (2 ^ (-53 : ℤ) * ((1 + ε) * y) + 2 ^ (-100 : ℤ) * y) + ε * y := add_le_add (add_le_add h5 h3) le_rfl
    _ ≤ (1 + ε) * 1.12e-16 * y + ε * y := add_le_add h6 le_rfl
    _ = (ε + (1 + ε) * 1.12e-16) * y := by ring
    _ ≤ γ * y := mul_le_mul_of_nonneg_right hγ hy0.le

theorem RelErr.div {x x' y y' ε ε' γ : ℝ} (h : RelErr x y ε) (h' : RelErr x' y' ε') (hy : 0 < y) (hy' : 0 < y')
    (hε' : ε' < 1) (hγ : (ε + ε') / (1 - ε') ≤ γ) : RelErr (x / x') (y / y') γ := by
  unfold RelErr at *
  have hx' : (1 - ε') * y' ≤ x' := by
    have := (abs_le.1 h').1
    linarith
  have hp' : 0 < (1 - ε') * y' := mul_pos (by linarith) hy'
  have hx0 : 0 < x' := lt_of_lt_of_le hp' hx'
  have e : x / x' - y / y' = ((x - y) * y' - y * (x' - y')) / (x' * y') := by field_simp; ring
  have hn : |(x - y) * y' - y * (x' - y')| ≤ (ε + ε') * (y * y') := by
    refine (abs_sub _ _).trans ?_
    rw [abs_mul, abs_mul, abs_of_pos hy, abs_of_pos hy']
    have a := mul_le_mul_of_nonneg_right h hy'.le
    have b := mul_le_mul_of_nonneg_left h' hy.le
    calc _ ≤ ε * y * y' + y * (ε' * y') := add_le_add a b
      _ = _ := by ring
  rw [e, abs_div, abs_of_pos (mul_pos hx0 hy')]
  have hs : 0 ≤ (ε + ε') * (y * y') := (abs_nonneg _).trans hn
  calc _ ≤ (ε + ε') * (y * y') / ((1 - ε') * y' * y') :=
        div_le_div₀ hs hn (mul_pos hp' hy') (mul_le_mul_of_nonneg_right hx' hy'.le)
    _ = (ε + ε') / (1 - ε') * (y / y') := by
        have : (1 - ε') ≠ 0 := by linarith
        field_simp
    _ ≤ γ * (y / y') := mul_le_mul_of_nonneg_right hγ (div_pos hy hy').le

theorem RelErr.sqrt {x y ε γ : ℝ} (h : RelErr x y ε) (hy : 0 < y) (hε : ε ≤ 1 / 100) (hγ : 0.51 * ε ≤ γ) :
    RelErr (Real.sqrt x) (Real.sqrt y) γ := by
  unfold RelErr at *
  have h0 : 0 ≤ ε := by
    have := (abs_nonneg _).trans h
    by_contra hn
    push Not at hn
    nlinarith
  have hx : (1 - ε) * y ≤ x := by
    have := (abs_le.1 h).1
    linarith
  have hx0 : 0 < x := lt_of_lt_of_le (mul_pos (by linarith) hy) hx
  have sy := Real.sqrt_pos.2 hy
  have sx := Real.sqrt_pos.2 hx0
  have q1 := Real.mul_self_sqrt hx0.le
  have q2 := Real.mul_self_sqrt hy.le
  have hlow : 0.97 * Real.sqrt y ≤ Real.sqrt x := by
    apply Real.le_sqrt_of_sq_le
    calc (0.97 * Real.sqrt y) ^ 2 = 0.97 ^ 2 * (Real.sqrt y * Real.sqrt y) := by ring
      _ = 0.97 ^ 2 * y := by rw [q2]
      _ ≤ x := by nlinarith
  have e : (Real.sqrt x - Real.sqrt y) * (Real.sqrt x + Real.sqrt y) = x - y := by nlinarith
  have hab : |Real.sqrt x - Real.sqrt y| * (Real.sqrt x + Real.sqrt y) ≤ ε * (Real.sqrt y * Real.sqrt y) := by
    rw [q2]
    refine le_trans (le_of_eq ?_) h
    rw [← e, abs_mul, abs_of_pos (by linarith : 0 < Real.sqrt x + Real.sqrt y)]
  have h2 : |Real.sqrt x - Real.sqrt y| * (1.97 * Real.sqrt y) ≤ ε * (Real.sqrt y * Real.sqrt y) :=
    le_trans (mul_le_mul_of_nonneg_left (by linarith) (abs_nonneg _)) hab
  have h3 : |Real.sqrt x - Real.sqrt y| * 1.97 ≤ ε * Real.sqrt y := by
    have : (|Real.sqrt x - Real.sqrt y| * 1.97) * Real.sqrt y ≤ (ε * Real.sqrt y) * Real.sqrt y := by linarith
    exact le_of_mul_le_mul_right this sy
  have h4 : |Real.sqrt x - Real.sqrt y| ≤ 0.51 * ε * Real.sqrt y := by
    have : 0 ≤ ε * Real.sqrt y := by positivity
    nlinarith
  exact h4.trans (mul_le_mul_of_nonneg_right hγ sy.le)

/-! ## Constants -/

/-- The constants of the program are those of the systems, rounded. -/
structure ConstOK (k kF : KeplerConst) : Prop where
  mi : RelErr kF.mi k.mi 1.12e-16
  mi_lo : 1e14 ≤ k.mi
  mi_hi : k.mi ≤ 3.987e14
  om : |kF.omegae - k.omegae| ≤ 7e-21
  om_hi : |k.omegae| ≤ 7.3e-5
  fc : |kF.fClock - k.fClock| ≤ 1e-24
  fc_hi : |k.fClock| ≤ 4.5e-10

/-! ## Times -/

theorem refF_err (F : Fp) {t : Epoch} {r : DateTime} (h : HalfWeek t r) :
    |F.rnd ((if t.mjd - r.mjd ≠ 0 then F.rnd (t.sec + F.rnd (86400 * ((t.mjd - r.mjd : Int) : ℝ))) else t.sec) - (r.sec : ℝ)) -
      elapsed t r| ≤ 5.9e-11 := by
  have he : elapsed t r = t.sec + 86400 * ((t.mjd - r.mjd : Int) : ℝ) - (r.sec : ℝ) := by
    unfold elapsed Epoch.secs DateTime.total
    push_cast
    ring
  have hn := abs_le.1 h.near
  have hlo := h.lo
  have hhi := h.hi
  have hrl : (0 : ℝ) ≤ (r.sec : ℝ) := by exact_mod_cast h.ref_lo
  have hrh : (r.sec : ℝ) ≤ 86400 := by exact_mod_cast h.ref_hi
  have hrB : |(r.sec : ℝ)| ≤ 86400 := by rw [abs_of_nonneg hrl]; exact hrh
  rw [he] at hn ⊢
  have hprod : F.rnd (86400 * ((t.mjd - r.mjd : Int) : ℝ)) = 86400 * ((t.mjd - r.mjd : Int) : ℝ) := by
    have hd : ((86400 * (t.mjd - r.mjd) : Int) : ℝ) = 86400 * ((t.mjd - r.mjd : Int) : ℝ) := by push_cast; ring
    rw [← hd] at hn ⊢
    apply F.exact
    apply isDouble_int
    have h1 : ((86400 * (t.mjd - r.mjd) : Int) : ℝ) ≤ 400000 := by linarith
    have h2 : (-400000 : ℝ) ≤ ((86400 * (t.mjd - r.mjd) : Int) : ℝ) := by linarith
    have h1' : 86400 * (t.mjd - r.mjd) ≤ 400000 := by exact_mod_cast h1
    have h2' : -400000 ≤ 86400 * (t.mjd - r.mjd) := by exact_mod_cast h2
    rw [abs_le]
    constructor <;> omega
  have hsum : |(if t.mjd - r.mjd ≠ 0 then F.rnd (t.sec + F.rnd (86400 * ((t.mjd - r.mjd : Int) : ℝ))) else t.sec) -
      (t.sec + 86400 * ((t.mjd - r.mjd : Int) : ℝ))| ≤ 2.95e-11 := by
    split
    · rw [hprod]
      refine F.rndX 19 (Y := 400000) ?_ (by norm_num) (by norm_num) (by norm_num)
      rw [abs_le]
      constructor <;> linarith [hn.1, hn.2]
    · rename_i h0
      push Not at h0
      rw [h0]
      norm_num
  refine F.sub 19 (β := 0) (C := 302400) hsum (by simp) ?_ (by norm_num) (by norm_num) (by norm_num)
  rw [abs_le]
  exact hn

theorem tkF_err (F : Fp) {f : NavFrame} {t : Epoch} (h : HalfWeek t f.toe) :
    |F.rnd (ref2toeF F f t - f.toeSec) - elapsed t f.toe| ≤ 5.9e-11 := refF_err F h

theorem dtF_err (F : Fp) {f : NavFrame} {t : Epoch} (h : HalfWeek t f.toc) :
    |F.rnd (ref2tocF F f t - f.tocSec) - elapsed t f.toc| ≤ 5.9e-11 := refF_err F h

/-! ## Mean anomaly -/

theorem meanMotion_bound {mi s : ℝ} (hm' : mi ≤ 3.987e14) (h : 5000 ≤ s) :
    Real.sqrt (mi / (s * s * (s * s) * (s * s))) ≤ 1.598e-4 := by
  rw [show (1.598e-4 : ℝ) = Real.sqrt (1.598e-4 ^ 2) from (Real.sqrt_sq (by norm_num)).symm]
  apply Real.sqrt_le_sqrt
  have h1 : (25000000 : ℝ) ≤ s * s := by nlinarith
  have h2 : (25000000 : ℝ) * 25000000 ≤ s * s * (s * s) := mul_le_mul h1 h1 (by norm_num) (by positivity)
  have h3 : (25000000 : ℝ) * 25000000 * 25000000 ≤ s * s * (s * s) * (s * s) := mul_le_mul h2 h1 (by norm_num) (by positivity)
  rw [div_le_iff₀ (by positivity)]
  calc mi ≤ 3.987e14 := hm'
    _ ≤ 1.598e-4 ^ 2 * ((25000000 : ℝ) * 25000000 * 25000000) := by norm_num
    _ ≤ _ := mul_le_mul_of_nonneg_left h3 (by norm_num)

/-- The computed mean anomaly. -/
theorem meanAnomalyF_err (F : Fp) {k kF : KeplerConst} (hk : ConstOK k kF) {f : NavFrame} (hs : (elements f).Sane)
    {dt dtF : ℝ} (hdt : |dtF - dt| ≤ 5.9e-11) (hdB : |dt| ≤ 302400) :
    |meanAnomalyF F kF f dtF - (elements f).meanAnomaly k.mi dt| ≤ 7.5e-14 ∧
    |(elements f).meanAnomaly k.mi dt| ≤ 53 := by
  rw [← meanAnomaly_spec]
  have h1 : 5000 ≤ f.d 10 := hs.sqrtA_lo
  have h2 : f.d 10 ≤ 6500 := hs.sqrtA_hi
  have h3 : |f.d 5| ≤ 9e-7 := hs.deltaN
  have h4 : |f.d 6| ≤ 4 := hs.m0
  have tiny : ∀ y : ℝ, 2 ^ (-100 : ℤ) ≤ y → (2 : ℝ) ^ (-900 : ℤ) ≤ y := fun y hy =>
    le_trans (zpow_le_zpow_right₀ (by norm_num) (by norm_num)) hy
  unfold meanAnomalyF meanAnomaly NavFrame.dF
  simp only
  set s := f.d 10 with hsd
  have hA : (25000000 : ℝ) ≤ s * s := by nlinarith
  have hA' : s * s ≤ 42250000 := by nlinarith
  have hA0 : 0 < s * s := by linarith
  have hB : (25000000 : ℝ) * 25000000 ≤ s * s * (s * s) := mul_le_mul hA hA (by norm_num) hA0.le
  have hB' : s * s * (s * s) ≤ 42250000 * 42250000 := mul_le_mul hA' hA' hA0.le (by norm_num)
  have hB0 : 0 < s * s * (s * s) := by positivity
  have hC : (25000000 : ℝ) * 25000000 * 25000000 ≤ s * s * (s * s) * (s * s) := mul_le_mul hB hA (by norm_num) hB0.le
  have hC' : s * s * (s * s) * (s * s) ≤ 42250000 * 42250000 * 42250000 := mul_le_mul hB' hA' hA0.le (by norm_num)
  have hC0 : 0 < s * s * (s * s) * (s * s) := by positivity
  have r0 : RelErr (F.rnd s) s 1.12e-16 :=
    RelErr.rnd F (ε := 0) (by unfold RelErr; simp) (tiny _ (le_trans (by norm_num) h1)) (by norm_num) (by norm_num)
  have rA : RelErr (F.rnd (F.rnd s * F.rnd s)) (s * s) 3.4e-16 :=
    RelErr.rnd F (r0.mul r0 (γ := 2.25e-16) (by linarith) (by linarith) (by norm_num)) (tiny _ (le_trans (by norm_num) hA)) (by norm_num)
      (by norm_num)
  generalize F.rnd (F.rnd s * F.rnd s) = AF at rA ⊢
  have rB : RelErr (F.rnd (AF * AF)) (s * s * (s * s)) 8e-16 :=
    RelErr.rnd F (rA.mul rA (γ := 6.81e-16) hA0 hA0 (by norm_num)) (tiny _ (le_trans (by norm_num) hB)) (by norm_num) (by norm_num)
  have rC : RelErr (F.rnd (F.rnd (AF * AF) * AF)) (s * s * (s * s) * (s * s)) 12.6e-16 :=
    RelErr.rnd F (rB.mul rA (γ := 11.41e-16) hB0 hA0 (by norm_num)) (tiny _ (le_trans (by norm_num) hC)) (by norm_num) (by norm_num)
  have hm0 : 0 < k.mi := lt_of_lt_of_le (by norm_num) hk.mi_lo
  have hq0 : 0 < k.mi / (s * s * (s * s) * (s * s)) := div_pos hm0 hC0
  have hq1 : 1e-10 ≤ k.mi / (s * s * (s * s) * (s * s)) := by
    rw [le_div_iff₀ hC0]
    have := hk.mi_lo
    calc _ ≤ (1e-10 : ℝ) * (42250000 * 42250000 * 42250000) := mul_le_mul_of_nonneg_left hC' (by norm_num)
      _ ≤ 1e14 := by norm_num
      _ ≤ _ := this
  have rq : RelErr (F.rnd (kF.mi / F.rnd (F.rnd (AF * AF) * AF))) (k.mi / (s * s * (s * s) * (s * s))) 15e-16 :=
    RelErr.rnd F (hk.mi.div rC (γ := 13.8e-16) hm0 hC0 (by norm_num) (by norm_num)) (tiny _ (le_trans (by norm_num) hq1)) (by norm_num)
      (by norm_num)
  have hn0 := meanMotion_bound hk.mi_hi h1
  have hnlo : 1e-5 ≤ Real.sqrt (k.mi / (s * s * (s * s) * (s * s))) :=
    Real.le_sqrt_of_sq_le (le_trans (by norm_num) hq1)
  have rn : RelErr (F.rnd (Real.sqrt (F.rnd (kF.mi / F.rnd (F.rnd (AF * AF) * AF)))))
      (Real.sqrt (k.mi / (s * s * (s * s) * (s * s)))) 8.8e-16 :=
    RelErr.rnd F (rq.sqrt (γ := 7.65e-16) hq0 (by norm_num) (by norm_num)) (tiny _ (le_trans (by norm_num) hnlo)) (by norm_num) (by norm_num)
  generalize F.rnd (Real.sqrt (F.rnd (kF.mi / F.rnd (F.rnd (AF * AF) * AF)))) = nF at rn ⊢
  generalize Real.sqrt (k.mi / (s * s * (s * s) * (s * s))) = n0 at rn hn0 hnlo ⊢
  have en : |nF - n0| ≤ 1.41e-19 := by
    unfold RelErr at rn
    refine rn.trans ?_
    nlinarith
  have n0B : |n0| ≤ 1.598e-4 := by rw [abs_of_nonneg (by linarith)]; exact hn0
  have e5 : |F.rnd (f.d 5) - f.d 5| ≤ 6e-23 := F.rndX (-20) h3 (by norm_num) (by norm_num) (by norm_num)
  have hnB : |n0 + f.d 5| ≤ 1.607e-4 := (addB n0B h3).trans (by norm_num)
  have ens : |F.rnd (nF + F.rnd (f.d 5)) - (n0 + f.d 5)| ≤ 1.6e-19 := F.add (-12) en e5 hnB (by norm_num) (by norm_num) (by norm_num)
  have hp : |F.rnd (F.rnd (nF + F.rnd (f.d 5)) * dtF) - (n0 + f.d 5) * dt| ≤ 6.2e-14 :=
    F.mul 6 ens hdt hnB hdB (by norm_num) (by norm_num) (by norm_num)
  have e6 : |F.rnd (f.d 6) - f.d 6| ≤ 2.3e-16 := F.rndX 2 h4 (by norm_num) (by norm_num) (by norm_num)
  have hpB : |(n0 + f.d 5) * dt| ≤ 49 := (mulB hnB hdB).trans (by norm_num)
  have hMB : |f.d 6 + (n0 + f.d 5) * dt| ≤ 53 := (addB h4 hpB).trans (by norm_num)
  exact ⟨F.add 6 e6 hp hMB (by norm_num) (by norm_num) (by norm_num), hMB⟩

/-! ## Eccentric and true anomaly -/

theorem kepler_close {e eF M MF E EF ε μ : ℝ} (h0 : 0 ≤ e) (h1 : e ≤ 1 / 4) (he : |eF - e| ≤ ε) (hM : |MF - M| ≤ μ)
    (hE : SolvesKepler e M E 0) {ρ : ℝ} (hF : SolvesKepler eF MF EF ρ) : |EF - E| ≤ 4 / 3 * (ε + μ + ρ) := by
  unfold SolvesKepler at hE hF
  have hz : E - e * Real.sin E - M = 0 := abs_nonpos_iff.1 hE
  have hd : EF - E = (EF - eF * Real.sin EF - MF) + (MF - M) + ((eF - e) * Real.sin EF + e * (Real.sin EF - Real.sin E)) := by
    linarith
  have a : |(eF - e) * Real.sin EF| ≤ ε * 1 := mulB he (Real.abs_sin_le_one _)
  have b : |e * (Real.sin EF - Real.sin E)| ≤ 1 / 4 * |EF - E| :=
    mulB (by rw [abs_of_nonneg h0]; exact h1) (sin_lip _ _)
  have c : |EF - E| ≤ (ρ + μ) + (ε * 1 + 1 / 4 * |EF - E|) := by
    conv_lhs => rw [hd]
    exact addB (addB hF hM) (addB a b)
  linarith

/-- The loop finds the eccentric anomaly. -/
theorem keplerF_close (F : Fp) {k kF : KeplerConst} (hk : ConstOK k kF) {f : NavFrame} (hs : (elements f).Sane)
    {dt dtF : ℝ} (hdt : |dtF - dt| ≤ 5.9e-11) (hdB : |dt| ≤ 302400) {E : ℝ}
    (hE : SolvesKepler (elements f).e ((elements f).meanAnomaly k.mi dt) E 0) :
    (keplerLoopF F (f.dF F 8) (meanAnomalyF F kF f dtF) 0 (meanAnomalyF F kF f dtF) 0).2 ≤ 31 ∧
    |(keplerLoopF F (f.dF F 8) (meanAnomalyF F kF f dtF) 0 (meanAnomalyF F kF f dtF) 0).1 - E| ≤ 1.09e-13 := by
  obtain ⟨hM, hMB⟩ := meanAnomalyF_err F hk hs hdt hdB
  have h0 : 0 ≤ f.d 8 := hs.e_lo
  have h1 : f.d 8 ≤ 1 / 4 := hs.e_hi
  have z0 : IsDouble 0 := ⟨0, 0, by norm_num, by norm_num, by simp⟩
  have z4 : IsDouble (1 / 4) := isDouble_of (n := 1) (e := -2) (by norm_num) (by norm_num) (by norm_num)
  have g0 : 0 ≤ f.dF F 8 := F.le_rnd z0 h0
  have g1 : f.dF F 8 ≤ 1 / 4 := F.rnd_le z4 h1
  have he : |f.dF F 8 - f.d 8| ≤ 1.4e-17 :=
    F.rndX (-2) (Y := 1 / 4) (by rw [abs_of_nonneg h0]; exact h1) (by norm_num) (by norm_num) (by norm_num)
  have hMF : |meanAnomalyF F kF f dtF| ≤ 63 := by
    have := abs_sub_abs_le_abs_sub (meanAnomalyF F kF f dtF) ((elements f).meanAnomaly k.mi dt)
    have h75 : (7.5e-14 : ℝ) ≤ 1 := by norm_num
    linarith
  obtain ⟨a, b⟩ := keplerLoopF_spec F g0 g1 hMF
  refine ⟨a, (kepler_close h0 h1 he hM hE b).trans (by norm_num)⟩

/-- The computed true anomaly. -/
theorem trueAnomalyF_err (F : Fp) {e eF E EF v : ℝ} (h0 : 0 ≤ e) (h1 : e ≤ 1 / 4) (he : |eF - e| ≤ 1.4e-17)
    (hE : |EF - E| ≤ 1.09e-13) (hv : IsTrueAnomaly e E v) :
    ∃ v', Real.cos v' = Real.cos v ∧ Real.sin v' = Real.sin v ∧ |trueAnomalyF F eF EF - v'| ≤ 6.2e-13 ∧ |v'| ≤ 3.15 := by
  obtain ⟨hc, hs⟩ := hv
  have eB : |e| ≤ 1 / 4 := by rw [abs_of_nonneg h0]; exact h1
  have sE : |F.sin EF - Real.sin E| ≤ 1.092e-13 := F.sinE hE (by norm_num)
  have cE : |F.cos EF - Real.cos E| ≤ 1.092e-13 := F.cosE hE (by norm_num)
  have sB := Real.abs_sin_le_one E
  have cB := Real.abs_cos_le_one E
  have hec : |F.rnd (eF * F.cos EF) - e * Real.cos E| ≤ 2.75e-14 :=
    F.mul (-1) he cE eB cB (by norm_num) (by norm_num) (by norm_num)
  have hecB : |e * Real.cos E| ≤ 1 / 4 := (mulB eB cB).trans (by norm_num)
  have hDB : |1 - e * Real.cos E| ≤ 5 / 4 := (subB (le_of_eq abs_one) hecB).trans (by norm_num)
  have hD : |F.rnd (1 - F.rnd (eF * F.cos EF)) - (1 - e * Real.cos E)| ≤ 2.77e-14 :=
    F.sub 1 (α := 0) (by simp) hec hDB (by norm_num) (by norm_num) (by norm_num)
  have hDlo : 3 / 4 ≤ 1 - e * Real.cos E := by have := (abs_le.1 hecB).2; linarith
  have hee : |F.rnd (eF * eF) - e * e| ≤ 1.5e-17 := F.mul (-3) he he eB eB (by norm_num) (by norm_num) (by norm_num)
  have heeB : |e * e| ≤ 1 / 16 := (mulB eB eB).trans (by norm_num)
  have h1ee : |F.rnd (1 - F.rnd (eF * eF)) - (1 - e * e)| ≤ 1.3e-16 :=
    F.sub 1 (α := 0) (C := 17 / 16) (by simp) hee ((subB (le_of_eq abs_one) heeB).trans (by norm_num)) (by norm_num) (by norm_num) (by norm_num)
  have hlo : 15 / 16 ≤ 1 - e * e := by have := (abs_le.1 heeB).2; linarith
  have hloF : 1 / 4 ≤ F.rnd (1 - F.rnd (eF * eF)) := by
    have := (abs_le.1 h1ee).1
    have h2 : (1.3e-16 : ℝ) ≤ 1 / 4 := by norm_num
    linarith
  have hsq := sqrtE h1ee hloF (by linarith)
  have hsqB : |Real.sqrt (1 - e * e)| ≤ 1 := by
    rw [abs_of_nonneg (Real.sqrt_nonneg _)]
    exact Real.sqrt_le_one.2 (by nlinarith)
  have hsqF : |F.rnd (Real.sqrt (F.rnd (1 - F.rnd (eF * eF)))) - Real.sqrt (1 - e * e)| ≤ 2.5e-16 :=
    F.rndE 1 hsq hsqB (by norm_num) (by norm_num) (by norm_num)
  have hnum : |F.rnd (F.rnd (Real.sqrt (F.rnd (1 - F.rnd (eF * eF)))) * F.sin EF) - Real.sqrt (1 - e * e) * Real.sin E| ≤ 1.097e-13 :=
    F.mul 1 hsqF sE hsqB sB (by norm_num) (by norm_num) (by norm_num)
  have hs' : Real.sqrt (1 - e * e) * Real.sin E / (1 - e * Real.cos E) = Real.sin v := by rw [hs, sq]
  have hy := F.div 1 (Q := 1) (B := 3 / 4) (γ := 1.85e-13) hnum hD (by rw [hs']; exact Real.abs_sin_le_one v) hDlo (by norm_num)
    (by norm_num) (by norm_num) (by norm_num)
  rw [hs'] at hy
  have hce : |F.rnd (F.cos EF - eF) - (Real.cos E - e)| ≤ 1.095e-13 :=
    F.sub 1 cE he ((subB cB eB).trans (by norm_num : (1 : ℝ) + 1 / 4 ≤ 5 / 4)) (by norm_num) (by norm_num) (by norm_num)
  have hx := F.div 1 (Q := 1) (B := 3 / 4) (γ := 1.85e-13) hce hD (by rw [← hc]; exact Real.abs_cos_le_one v) hDlo (by norm_num)
    (by norm_num) (by norm_num) (by norm_num)
  rw [← hc] at hx
  obtain ⟨v', q1, q2, q3⟩ := arg_near hx hy (by norm_num)
  have hpi := Complex.abs_arg_le_pi ⟨F.rnd (F.rnd (F.cos EF - eF) / F.rnd (1 - F.rnd (eF * F.cos EF))),
    F.rnd (F.rnd (F.rnd (Real.sqrt (F.rnd (1 - F.rnd (eF * eF)))) * F.sin EF) / F.rnd (1 - F.rnd (eF * F.cos EF)))⟩
  refine ⟨v', q1, q2, ?_, ?_⟩
  swap
  · rw [abs_sub_comm] at q3
    have h6 := abs_sub_abs_le_abs_sub v' (Complex.arg ⟨F.rnd (F.rnd (F.cos EF - eF) / F.rnd (1 - F.rnd (eF * F.cos EF))),
      F.rnd (F.rnd (F.rnd (Real.sqrt (F.rnd (1 - F.rnd (eF * eF)))) * F.sin EF) / F.rnd (1 - F.rnd (eF * F.cos EF)))⟩)
    have h7 : (3.2 : ℝ) * 1.85e-13 ≤ 0.005 := by norm_num
    have h8 := Real.pi_lt_d4
    have h9 : (3.1416 : ℝ) + 0.005 ≤ 3.15 := by norm_num
    linarith
  unfold trueAnomalyF
  simp only
  refine (abs_sub_le _ _ _).trans ((add_le_add (F.atan2_err _ _) q3).trans (by norm_num))

/-! ## Position -/

theorem position_eq (el : Elements) (w tk E v : ℝ) : el.position w tk E v =
    ![el.radius E v * Real.cos (el.argLat v) * Real.cos (el.node w tk) -
        el.radius E v * Real.sin (el.argLat v) * Real.sin (el.node w tk) * Real.cos (el.incl tk v),
      el.radius E v * Real.cos (el.argLat v) * Real.sin (el.node w tk) +
        el.radius E v * Real.sin (el.argLat v) * Real.cos (el.node w tk) * Real.cos (el.incl tk v),
      el.radius E v * Real.sin (el.argLat v) * Real.sin (el.incl tk v)] := by
  unfold Elements.position
  simp only [rotZ, rotX]
  funext i
  fin_cases i <;>
    simp [Matrix.mulVec, dotProduct, Fin.sum_univ_three] <;> ring

/-- Only the direction of the true anomaly matters. -/
theorem position_congr (el : Elements) (w tk E : ℝ) {v v' : ℝ} (hc : Real.cos v' = Real.cos v) (hs : Real.sin v' = Real.sin v) :
    el.position w tk E v' = el.position w tk E v := by
  have h2s : Real.sin (2 * (v' + el.omega)) = Real.sin (2 * (v + el.omega)) := by
    rw [Real.sin_two_mul, Real.sin_two_mul, Real.sin_add, Real.cos_add, Real.sin_add, Real.cos_add, hc, hs]
  have h2c : Real.cos (2 * (v' + el.omega)) = Real.cos (2 * (v + el.omega)) := by
    rw [Real.cos_two_mul, Real.cos_two_mul, Real.cos_add, Real.cos_add, hc, hs]
  have hr : el.radius E v' = el.radius E v := by unfold Elements.radius; rw [h2s, h2c]
  have hi : el.incl tk v' = el.incl tk v := by unfold Elements.incl; rw [h2s, h2c]
  have ha : ∀ x, el.argLat x = x + (el.omega + el.cus * Real.sin (2 * (x + el.omega)) + el.cuc * Real.cos (2 * (x + el.omega))) := by
    intro x; unfold Elements.argLat; ring
  have hac : Real.cos (el.argLat v') = Real.cos (el.argLat v) := by
    rw [ha, ha, h2s, h2c, Real.cos_add v', Real.cos_add v, hc, hs]
  have has : Real.sin (el.argLat v') = Real.sin (el.argLat v) := by
    rw [ha, ha, h2s, h2c, Real.sin_add v', Real.sin_add v, hc, hs]
  rw [position_eq, position_eq, hr, hi, hac, has]

theorem harmonicF_err (F : Fp) {a b s c x B δ γ : ℝ} (m : ℤ) (ha : |a| ≤ B) (hb : |b| ≤ B) (hB : B ≤ 2 ^ m) (hm : -1000 ≤ m)
    (hs : |s - Real.sin x| ≤ 1.27e-12) (hc : |c - Real.cos x| ≤ 1.27e-12) (hδ : (2 : ℝ) ^ (m - 54) ≤ δ)
    (h1 : B + (δ * (1 + 1.27e-12) + B * 1.27e-12) ≤ 2 ^ (m + 1))
    (h2 : 2 * B + 2 * (δ * (1 + 1.27e-12) + B * 1.27e-12 + 2 ^ (m + 1 - 54)) ≤ 2 ^ (m + 2))
    (h3 : 2 * (δ * (1 + 1.27e-12) + B * 1.27e-12 + 2 ^ (m + 1 - 54)) + 2 ^ (m + 2 - 54) ≤ γ) :
    |harmonicF F (F.rnd a) (F.rnd b) s c - (a * Real.sin x + b * Real.cos x)| ≤ γ := by
  have ea := F.rndX m ha (by omega) hB hδ
  have eb := F.rndX m hb (by omega) hB hδ
  have sB := Real.abs_sin_le_one x
  have cB := Real.abs_cos_le_one x
  have p := F.mul (m + 1) (γ := δ * (1 + 1.27e-12) + B * 1.27e-12 + 2 ^ (m + 1 - 54)) ea hs ha sB (by omega) (by rw [mul_one]; exact h1) le_rfl
  have q := F.mul (m + 1) (γ := δ * (1 + 1.27e-12) + B * 1.27e-12 + 2 ^ (m + 1 - 54)) eb hc hb cB (by omega) (by rw [mul_one]; exact h1) le_rfl
  have hC : |a * Real.sin x + b * Real.cos x| ≤ B * 1 + B * 1 := addB (mulB ha sB) (mulB hb cB)
  exact F.add (m + 2) p q hC (by omega) (by linarith) (by linarith)

/-- The computed position, for an eccentric anomaly and a time known up to their errors. -/
theorem keplerPosF_err (F : Fp) {k kF : KeplerConst} (hk : ConstOK k kF) {f : NavFrame} (hs : (elements f).Sane)
    {tk tkF E EF v : ℝ} (htk : |tkF - tk| ≤ 5.9e-11) (htB : |tk| ≤ 302400) (hE : |EF - E| ≤ 1.09e-13)
    (hv : IsTrueAnomaly (elements f).e E v) (i : Fin 3) :
    |keplerPosF F kF f tkF EF i - (elements f).position k.omegae tk E v i| ≤ 1e-4 := by
  have h0 : 0 ≤ f.d 8 := hs.e_lo
  have h1 : f.d 8 ≤ 1 / 4 := hs.e_hi
  have eB : |f.d 8| ≤ 1 / 4 := by rw [abs_of_nonneg h0]; exact h1
  have he : |F.rnd (f.d 8) - f.d 8| ≤ 1.4e-17 := F.rndX (-2) eB (by norm_num) (by norm_num) (by norm_num)
  obtain ⟨v', q1, q2, q3, vB⟩ := trueAnomalyF_err F h0 h1 he hE hv
  rw [← position_congr (elements f) k.omegae tk E q1 q2, position_eq]
  have hr : (elements f).radius E v' = f.d 10 * f.d 10 * (1 - f.d 8 * Real.cos E) +
      (f.d 4 * Real.sin (2 * (v' + f.d 17)) + f.d 16 * Real.cos (2 * (v' + f.d 17))) := by
    simp only [Elements.radius, elements, at_eq, specIndex]; norm_num; ring
  have hu : (elements f).argLat v' = v' + f.d 17 + (f.d 9 * Real.sin (2 * (v' + f.d 17)) + f.d 7 * Real.cos (2 * (v' + f.d 17))) := by
    simp only [Elements.argLat, elements, at_eq, specIndex]; norm_num; ring
  have hi : (elements f).incl tk v' = f.d 15 + (f.d 14 * Real.sin (2 * (v' + f.d 17)) + f.d 12 * Real.cos (2 * (v' + f.d 17))) +
      f.d 19 * tk := by
    simp only [Elements.incl, elements, at_eq, specIndex]; norm_num; ring
  have hn : (elements f).node k.omegae tk = f.d 13 + (f.d 18 - k.omegae) * tk - k.omegae * f.d 11 := rfl
  unfold keplerPosF NavFrame.dF
  generalize trueAnomalyF F (F.rnd (f.d 8)) EF = vF at q3 ⊢
  -- argument of latitude
  have b17 : |f.d 17| ≤ 4 := hs.omega
  have e17 : |F.rnd (f.d 17) - f.d 17| ≤ 2.3e-16 := F.rndX 2 b17 (by norm_num) (by norm_num) (by norm_num)
  have FkB : |v' + f.d 17| ≤ 7.15 := (addB vB b17).trans (by norm_num)
  have eFk : |F.rnd (vF + F.rnd (f.d 17)) - (v' + f.d 17)| ≤ 6.22e-13 := F.add 3 q3 e17 FkB (by norm_num) (by norm_num) (by norm_num)
  generalize F.rnd (vF + F.rnd (f.d 17)) = FkF at eFk ⊢
  generalize v' + f.d 17 = Fk at FkB eFk hr hu hi ⊢
  have e2F : |F.rnd (2 * FkF) - 2 * Fk| ≤ 1.25e-12 :=
    F.mul 4 (α := 0) (A := 2) (by simp) eFk (by norm_num) FkB (by norm_num) (by norm_num) (by norm_num)
  generalize F.rnd (2 * FkF) = F2 at e2F ⊢
  have s2 : |F.sin F2 - Real.sin (2 * Fk)| ≤ 1.27e-12 := F.sinE e2F (by norm_num)
  have c2 : |F.cos F2 - Real.cos (2 * Fk)| ≤ 1.27e-12 := F.cosE e2F (by norm_num)
  have s2B := Real.abs_sin_le_one (2 * Fk)
  have c2B := Real.abs_cos_le_one (2 * Fk)
  generalize F.sin F2 = s2F at s2 ⊢
  generalize F.cos F2 = c2F at c2 ⊢
  have b9 : |f.d 9| ≤ 1e-3 := hs.cus
  have b7 : |f.d 7| ≤ 1e-3 := hs.cuc
  have b4 : |f.d 4| ≤ 4096 := hs.crs
  have b16 : |f.d 16| ≤ 4096 := hs.crc
  have b14 : |f.d 14| ≤ 1e-3 := hs.cis
  have b12 : |f.d 12| ≤ 1e-3 := hs.cic
  have edu := harmonicF_err F (γ := 3e-15) (δ := 1.1e-19) (-9) b9 b7 (by norm_num) (by norm_num) s2 c2 (by norm_num) (by norm_num)
    (by norm_num) (by norm_num)
  have edr := harmonicF_err F (γ := 1.1e-8) (δ := 2.3e-13) 12 b4 b16 (by norm_num) (by norm_num) s2 c2 (by norm_num) (by norm_num)
    (by norm_num) (by norm_num)
  have edi := harmonicF_err F (γ := 3e-15) (δ := 1.1e-19) (-9) b14 b12 (by norm_num) (by norm_num) s2 c2 (by norm_num) (by norm_num)
    (by norm_num) (by norm_num)
  have duB : |f.d 9 * Real.sin (2 * Fk) + f.d 7 * Real.cos (2 * Fk)| ≤ 2e-3 := (addB (mulB b9 s2B) (mulB b7 c2B)).trans (by norm_num)
  have drB : |f.d 4 * Real.sin (2 * Fk) + f.d 16 * Real.cos (2 * Fk)| ≤ 8192 := (addB (mulB b4 s2B) (mulB b16 c2B)).trans (by norm_num)
  have diB : |f.d 14 * Real.sin (2 * Fk) + f.d 12 * Real.cos (2 * Fk)| ≤ 2e-3 := (addB (mulB b14 s2B) (mulB b12 c2B)).trans (by norm_num)
  generalize harmonicF F (F.rnd (f.d 9)) (F.rnd (f.d 7)) s2F c2F = duF at edu ⊢
  generalize harmonicF F (F.rnd (f.d 4)) (F.rnd (f.d 16)) s2F c2F = drF at edr ⊢
  generalize harmonicF F (F.rnd (f.d 14)) (F.rnd (f.d 12)) s2F c2F = diF at edi ⊢
  generalize f.d 9 * Real.sin (2 * Fk) + f.d 7 * Real.cos (2 * Fk) = du at edu duB hu ⊢
  generalize f.d 4 * Real.sin (2 * Fk) + f.d 16 * Real.cos (2 * Fk) = dr at edr drB hr ⊢
  generalize f.d 14 * Real.sin (2 * Fk) + f.d 12 * Real.cos (2 * Fk) = di at edi diB hi ⊢
  have eu : |F.rnd (FkF + duF) - (elements f).argLat v'| ≤ 6.3e-13 := by
    rw [hu]
    exact F.add 3 eFk edu ((addB FkB duB).trans (by norm_num : (7.15 : ℝ) + 2e-3 ≤ 7.2)) (by norm_num) (by norm_num) (by norm_num)
  generalize F.rnd (FkF + duF) = uF at eu ⊢
  have su := F.sinE eu (by norm_num : (6.3e-13 : ℝ) + 2 ^ (-53 : ℤ) ≤ 6.302e-13)
  have cu := F.cosE eu (by norm_num : (6.3e-13 : ℝ) + 2 ^ (-53 : ℤ) ≤ 6.302e-13)
  have suB := Real.abs_sin_le_one ((elements f).argLat v')
  have cuB := Real.abs_cos_le_one ((elements f).argLat v')
  -- radius
  have l10 : 5000 ≤ f.d 10 := hs.sqrtA_lo
  have b10 : |f.d 10| ≤ 6500 := by rw [abs_of_nonneg (by linarith)]; exact hs.sqrtA_hi
  have e10 : |F.rnd (f.d 10) - f.d 10| ≤ 4.6e-13 := F.rndX 13 b10 (by norm_num) (by norm_num) (by norm_num)
  have eA : |F.rnd (F.rnd (f.d 10) * F.rnd (f.d 10)) - f.d 10 * f.d 10| ≤ 1e-8 :=
    F.mul 26 e10 e10 b10 b10 (by norm_num) (by norm_num) (by norm_num)
  have bA : |f.d 10 * f.d 10| ≤ 42250000 := (mulB b10 b10).trans (by norm_num)
  have cE : |F.cos EF - Real.cos E| ≤ 1.092e-13 := F.cosE hE (by norm_num)
  have cB := Real.abs_cos_le_one E
  have hec : |F.rnd (F.rnd (f.d 8) * F.cos EF) - f.d 8 * Real.cos E| ≤ 2.75e-14 :=
    F.mul (-1) he cE eB cB (by norm_num) (by norm_num) (by norm_num)
  have hecB : |f.d 8 * Real.cos E| ≤ 1 / 4 := (mulB eB cB).trans (by norm_num)
  have hDB : |1 - f.d 8 * Real.cos E| ≤ 5 / 4 := (subB (le_of_eq abs_one) hecB).trans (by norm_num)
  have hD : |F.rnd (1 - F.rnd (F.rnd (f.d 8) * F.cos EF)) - (1 - f.d 8 * Real.cos E)| ≤ 2.77e-14 :=
    F.sub 1 (α := 0) (by simp) hec hDB (by norm_num) (by norm_num) (by norm_num)
  have eAD : |F.rnd (F.rnd (F.rnd (f.d 10) * F.rnd (f.d 10)) * F.rnd (1 - F.rnd (F.rnd (f.d 8) * F.cos EF))) -
      f.d 10 * f.d 10 * (1 - f.d 8 * Real.cos E)| ≤ 1.2e-6 := F.mul 26 eA hD bA hDB (by norm_num) (by norm_num) (by norm_num)
  have bAD : |f.d 10 * f.d 10 * (1 - f.d 8 * Real.cos E)| ≤ 52820000 := (mulB bA hDB).trans (by norm_num)
  have er : |F.rnd (F.rnd (F.rnd (F.rnd (f.d 10) * F.rnd (f.d 10)) * F.rnd (1 - F.rnd (F.rnd (f.d 8) * F.cos EF))) + drF) -
      (elements f).radius E v'| ≤ 1.22e-6 := by
    rw [hr]
    exact F.add 26 eAD edr ((addB bAD drB).trans (by norm_num : (52820000 : ℝ) + 8192 ≤ 5.29e7)) (by norm_num) (by norm_num) (by norm_num)
  have rB : |(elements f).radius E v'| ≤ 5.29e7 := by
    rw [hr]
    exact (addB bAD drB).trans (by norm_num)
  generalize F.rnd (F.rnd (F.rnd (F.rnd (f.d 10) * F.rnd (f.d 10)) * F.rnd (1 - F.rnd (F.rnd (f.d 8) * F.cos EF))) + drF) = rF at er ⊢
  generalize (elements f).radius E v' = r at er rB ⊢
  -- coordinates in the orbital plane
  have ex : |F.rnd (rF * F.cos uF) - r * Real.cos ((elements f).argLat v')| ≤ 3.457e-5 :=
    F.mul 26 er cu rB cuB (by norm_num) (by norm_num) (by norm_num)
  have ey : |F.rnd (rF * F.sin uF) - r * Real.sin ((elements f).argLat v')| ≤ 3.457e-5 :=
    F.mul 26 er su rB suB (by norm_num) (by norm_num) (by norm_num)
  have xB : |r * Real.cos ((elements f).argLat v')| ≤ 5.29e7 := (mulB rB cuB).trans (by norm_num)
  have yB : |r * Real.sin ((elements f).argLat v')| ≤ 5.29e7 := (mulB rB suB).trans (by norm_num)
  generalize F.rnd (rF * F.cos uF) = xF at ex ⊢
  generalize F.rnd (rF * F.sin uF) = yF at ey ⊢
  generalize r * Real.cos ((elements f).argLat v') = x at ex xB ⊢
  generalize r * Real.sin ((elements f).argLat v') = y at ey yB ⊢
  -- inclination
  have b15 : |f.d 15| ≤ 4 := hs.i0
  have b19 : |f.d 19| ≤ 1e-6 := hs.idot
  have e15 : |F.rnd (f.d 15) - f.d 15| ≤ 2.3e-16 := F.rndX 2 b15 (by norm_num) (by norm_num) (by norm_num)
  have e19 : |F.rnd (f.d 19) - f.d 19| ≤ 1.1e-22 := F.rndX (-19) b19 (by norm_num) (by norm_num) (by norm_num)
  have ei1 : |F.rnd (F.rnd (f.d 15) + diF) - (f.d 15 + di)| ≤ 3.8e-15 :=
    F.add 3 e15 edi ((addB b15 diB).trans (by norm_num : (4 : ℝ) + 2e-3 ≤ 4.01)) (by norm_num) (by norm_num) (by norm_num)
  have ei2 : |F.rnd (F.rnd (f.d 19) * tkF) - f.d 19 * tk| ≤ 2e-16 := F.mul (-1) e19 htk b19 htB (by norm_num) (by norm_num) (by norm_num)
  have b2 : |f.d 19 * tk| ≤ 0.3024 := (mulB b19 htB).trans (by norm_num)
  have ei : |F.rnd (F.rnd (F.rnd (f.d 15) + diF) + F.rnd (F.rnd (f.d 19) * tkF)) - (elements f).incl tk v'| ≤ 5e-15 := by
    rw [hi]
    exact F.add 3 ei1 ei2 ((addB (addB b15 diB) b2).trans (by norm_num : (4 : ℝ) + 2e-3 + 0.3024 ≤ 4.4)) (by norm_num) (by norm_num) (by norm_num)
  generalize F.rnd (F.rnd (F.rnd (f.d 15) + diF) + F.rnd (F.rnd (f.d 19) * tkF)) = iF at ei ⊢
  have si := F.sinE ei (by norm_num : (5e-15 : ℝ) + 2 ^ (-53 : ℤ) ≤ 5.2e-15)
  have ci := F.cosE ei (by norm_num : (5e-15 : ℝ) + 2 ^ (-53 : ℤ) ≤ 5.2e-15)
  have siB := Real.abs_sin_le_one ((elements f).incl tk v')
  have ciB := Real.abs_cos_le_one ((elements f).incl tk v')
  -- node
  have b13 : |f.d 13| ≤ 4 := hs.omega0
  have b18 : |f.d 18| ≤ 1e-6 := hs.omegaDot
  have b11 : |f.d 11| ≤ 604800 := hs.toeSow
  have e13 : |F.rnd (f.d 13) - f.d 13| ≤ 2.3e-16 := F.rndX 2 b13 (by norm_num) (by norm_num) (by norm_num)
  have e18 : |F.rnd (f.d 18) - f.d 18| ≤ 1.1e-22 := F.rndX (-19) b18 (by norm_num) (by norm_num) (by norm_num)
  have e11 : |F.rnd (f.d 11) - f.d 11| ≤ 5.9e-11 := F.rndX 20 b11 (by norm_num) (by norm_num) (by norm_num)
  have bo : |f.d 18 - k.omegae| ≤ 7.4e-5 := (subB b18 hk.om_hi).trans (by norm_num)
  have eo1 : |F.rnd (F.rnd (f.d 18) - kF.omegae) - (f.d 18 - k.omegae)| ≤ 1.5e-20 :=
    F.sub (-13) e18 hk.om bo (by norm_num) (by norm_num) (by norm_num)
  have eo2 : |F.rnd (F.rnd (F.rnd (f.d 18) - kF.omegae) * tkF) - (f.d 18 - k.omegae) * tk| ≤ 1.1e-14 :=
    F.mul 5 eo1 htk bo htB (by norm_num) (by norm_num) (by norm_num)
  have bo2 : |(f.d 18 - k.omegae) * tk| ≤ 22.4 := (mulB bo htB).trans (by norm_num)
  have eo3 : |F.rnd (F.rnd (f.d 13) + F.rnd (F.rnd (F.rnd (f.d 18) - kF.omegae) * tkF)) - (f.d 13 + (f.d 18 - k.omegae) * tk)| ≤ 1.4e-14 :=
    F.add 5 e13 eo2 ((addB b13 bo2).trans (by norm_num : (4 : ℝ) + 22.4 ≤ 26.5)) (by norm_num) (by norm_num) (by norm_num)
  have eo4 : |F.rnd (kF.omegae * F.rnd (f.d 11)) - k.omegae * f.d 11| ≤ 1.3e-14 :=
    F.mul 6 hk.om e11 hk.om_hi b11 (by norm_num) (by norm_num) (by norm_num)
  have bo4 : |k.omegae * f.d 11| ≤ 44.2 := (mulB hk.om_hi b11).trans (by norm_num)
  have eo : |F.rnd (F.rnd (F.rnd (f.d 13) + F.rnd (F.rnd (F.rnd (f.d 18) - kF.omegae) * tkF)) - F.rnd (kF.omegae * F.rnd (f.d 11))) -
      (elements f).node k.omegae tk| ≤ 3.5e-14 := by
    rw [hn]
    exact F.sub 7 eo3 eo4 ((subB (addB b13 bo2) bo4).trans (by norm_num : (4 : ℝ) + 22.4 + 44.2 ≤ 71)) (by norm_num) (by norm_num) (by norm_num)
  generalize F.rnd (F.rnd (F.rnd (f.d 13) + F.rnd (F.rnd (F.rnd (f.d 18) - kF.omegae) * tkF)) - F.rnd (kF.omegae * F.rnd (f.d 11))) = oF at eo ⊢
  have so := F.sinE eo (by norm_num : (3.5e-14 : ℝ) + 2 ^ (-53 : ℤ) ≤ 3.52e-14)
  have co := F.cosE eo (by norm_num : (3.5e-14 : ℝ) + 2 ^ (-53 : ℤ) ≤ 3.52e-14)
  have soB := Real.abs_sin_le_one ((elements f).node k.omegae tk)
  have coB := Real.abs_cos_le_one ((elements f).node k.omegae tk)
  generalize F.sin oF = soF at so ⊢
  generalize F.cos oF = coF at co ⊢
  generalize F.sin iF = siF at si ⊢
  generalize F.cos iF = ciF at ci ⊢
  generalize Real.sin ((elements f).node k.omegae tk) = so' at so soB ⊢
  generalize Real.cos ((elements f).node k.omegae tk) = co' at co coB ⊢
  generalize Real.sin ((elements f).incl tk v') = si' at si siB ⊢
  generalize Real.cos ((elements f).incl tk v') = ci' at ci ciB ⊢
  have exc : |F.rnd (xF * coF) - x * co'| ≤ 3.65e-5 := F.mul 26 ex co xB coB (by norm_num) (by norm_num) (by norm_num)
  have exs : |F.rnd (xF * soF) - x * so'| ≤ 3.65e-5 := F.mul 26 ex so xB soB (by norm_num) (by norm_num) (by norm_num)
  have eyc : |F.rnd (yF * coF) - y * co'| ≤ 3.65e-5 := F.mul 26 ey co yB coB (by norm_num) (by norm_num) (by norm_num)
  have eys : |F.rnd (yF * soF) - y * so'| ≤ 3.65e-5 := F.mul 26 ey so yB soB (by norm_num) (by norm_num) (by norm_num)
  have bxc : |x * co'| ≤ 5.29e7 := (mulB xB coB).trans (by norm_num)
  have bxs : |x * so'| ≤ 5.29e7 := (mulB xB soB).trans (by norm_num)
  have byc : |y * co'| ≤ 5.29e7 := (mulB yB coB).trans (by norm_num)
  have bys : |y * so'| ≤ 5.29e7 := (mulB yB soB).trans (by norm_num)
  have eysc : |F.rnd (F.rnd (yF * soF) * ciF) - y * so' * ci'| ≤ 3.7e-5 := F.mul 26 eys ci bys ciB (by norm_num) (by norm_num) (by norm_num)
  have eycc : |F.rnd (F.rnd (yF * coF) * ciF) - y * co' * ci'| ≤ 3.7e-5 := F.mul 26 eyc ci byc ciB (by norm_num) (by norm_num) (by norm_num)
  have bysc : |y * so' * ci'| ≤ 5.29e7 := (mulB bys ciB).trans (by norm_num)
  have bycc : |y * co' * ci'| ≤ 5.29e7 := (mulB byc ciB).trans (by norm_num)
  have f0 : |F.rnd (F.rnd (xF * coF) - F.rnd (F.rnd (yF * soF) * ciF)) - (x * co' - y * so' * ci')| ≤ 1e-4 :=
    F.sub 27 exc eysc (subB bxc bysc) (by norm_num) (by norm_num) (by norm_num)
  have f1 : |F.rnd (F.rnd (xF * soF) + F.rnd (F.rnd (yF * coF) * ciF)) - (x * so' + y * co' * ci')| ≤ 1e-4 :=
    F.add 27 exs eycc (addB bxs bycc) (by norm_num) (by norm_num) (by norm_num)
  have f2 : |F.rnd (yF * siF) - y * si'| ≤ 1e-4 := F.mul 27 ey si yB siB (by norm_num) (by norm_num) (by norm_num)
  fin_cases i
  · exact f0
  · exact f1
  · exact f2

end Ggnss
