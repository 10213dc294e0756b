import Verif.Model.GloFp
import Verif.Lemmas.FpErr
import Verif.Props.Glonass
/-!
# C79: the GLONASS orbit in double precision
-/
namespace Ggnss
namespace GloFp

/-! ### Rounding errors of the derivative -/

theorem sqrtE' {a a' α s : ℝ} (ha : |a - a'| ≤ α) (hs : 0 < s) (h1 : s ^ 2 ≤ a) (h2 : s ^ 2 ≤ a') :
    |Real.sqrt a - Real.sqrt a'| ≤ α / (2 * s) := by
  have s1 : s ≤ Real.sqrt a := Real.le_sqrt_of_sq_le h1
  have s2 : s ≤ Real.sqrt a' := Real.le_sqrt_of_sq_le h2
  have q1 := Real.sq_sqrt (show 0 ≤ a by nlinarith)
  have q2 := Real.sq_sqrt (show 0 ≤ a' by nlinarith)
  have e : (Real.sqrt a - Real.sqrt a') * (Real.sqrt a + Real.sqrt a') = a - a' := by
    calc _ = Real.sqrt a ^ 2 - Real.sqrt a' ^ 2 := by ring
      _ = _ := by rw [q1, q2]
  rw [le_div_iff₀ (by positivity)]
  refine le_trans ?_ ha
  rw [← e, abs_mul, abs_of_nonneg (show 0 ≤ Real.sqrt a + Real.sqrt a' by linarith)]
  exact mul_le_mul_of_nonneg_left (by linarith) (abs_nonneg _)

/-- Where the derivative is evaluated in double precision. -/
structure Dom' (x y z : ℝ) : Prop where
  hx : |x| ≤ 3.4e7
  hy : |y| ≤ 3.4e7
  hz : |z| ≤ 3.4e7
  lo : 1.6e14 ≤ x * x + y * y + z * z

noncomputable def gK : ℝ := 1.5 * J2_GLO * GM_GLO * (AE_GLO * AE_GLO)

theorem gK_val : gK = 1.5 * (1082625.75e-9) * 398600441.8e06 * (6378136 * 6378136) := rfl

theorem exact_mul (F : Fp) {x : ℝ} (n : ℤ) (h : |n| ≤ 2 ^ 53) (hx : x = n) : F.rnd x = x := by
  rw [hx]; exact F.exact (isDouble_int h)

theorem zeroE (x : ℝ) : |x - x| ≤ 0 := by simp

theorem j2F (F : Fp) : |J2_GLOF F - J2_GLO| ≤ 2 ^ (-63 : ℤ) :=
  F.rndX (Y := 1 / 512) (-9) (by unfold J2_GLO; norm_num [abs_of_pos]) (by norm_num) (by norm_num) (by norm_num)

theorem omF (F : Fp) : |OMEGA_GLOF F - OMEGA_GLO| ≤ 2 ^ (-67 : ℤ) :=
  F.rndX (Y := 2 ^ (-13 : ℤ)) (-13) (by unfold OMEGA_GLO; norm_num [abs_of_pos]) (by norm_num) (by norm_num) (by norm_num)

theorem kF (F : Fp) : |F.rnd (F.rnd (F.rnd (1.5 * J2_GLOF F) * GM_GLO) * F.rnd (AE_GLO * AE_GLO)) - gK| ≤ 3e10 := by
  have hae : F.rnd (AE_GLO * AE_GLO) = AE_GLO * AE_GLO := exact_mul F (6378136 * 6378136) (by norm_num) (by unfold AE_GLO; norm_num)
  have h1 : |F.rnd (1.5 * J2_GLOF F) - 1.5 * J2_GLO| ≤ 5e-19 :=
    F.mul (A := 1.5) (B := 1 / 512) (-8) (zeroE 1.5) (j2F F) (by norm_num [abs_of_pos]) (by unfold J2_GLO; norm_num [abs_of_pos]) (by norm_num) (by norm_num) (by norm_num)
  have h2 : |F.rnd (F.rnd (1.5 * J2_GLOF F) * GM_GLO) - 1.5 * J2_GLO * GM_GLO| ≤ 3e-4 :=
    F.mul (A := 1.63e-3) (B := 4e14) 40 h1 (zeroE GM_GLO) (by unfold J2_GLO; norm_num [abs_of_pos]) (by unfold GM_GLO; norm_num [abs_of_pos]) (by norm_num) (by norm_num) (by norm_num)
  rw [hae]
  exact F.mul (A := 6.52e11) (B := 4.07e13) 85 h2 (zeroE _) (by unfold J2_GLO GM_GLO; norm_num [abs_of_pos]) (by unfold AE_GLO; norm_num [abs_of_pos]) (by norm_num) (by norm_num) (by norm_num)

/-- `c` and `a` exactly. -/
noncomputable def gloA (x y z : ℝ) : ℝ := gK / (x * x + y * y + z * z) / ((x * x + y * y + z * z) * Real.sqrt (x * x + y * y + z * z))
noncomputable def gloC (x y z : ℝ) : ℝ :=
  -GM_GLO / ((x * x + y * y + z * z) * Real.sqrt (x * x + y * y + z * z)) - gloA x y z * (1 - 5 * z * z / (x * x + y * y + z * z))

theorem sqB {x : ℝ} (h : |x| ≤ 3.4e7) : |x * x| ≤ 1.156e15 := (mulB h h).trans (by norm_num)

theorem gm_div {r3 : ℝ} (h : 2e21 ≤ r3) : |-GM_GLO / r3| ≤ 2e-7 := by
  rw [abs_div, abs_neg, abs_of_pos (show (0 : ℝ) < r3 by linarith [show (0 : ℝ) < 2e21 by norm_num]), div_le_iff₀ (by linarith [show (0 : ℝ) < 2e21 by norm_num])]
  have : |GM_GLO| ≤ 4e14 := by unfold GM_GLO; norm_num [abs_of_pos]
  exact this.trans (by nlinarith)

theorem coef_err (F : Fp) {x y z : ℝ} (h : Dom' x y z) :
    |(gloCoefF F x y z).1 - gloC x y z| ≤ 3e-20 ∧ |(gloCoefF F x y z).2 - gloA x y z| ≤ 2e-23 ∧ |gloC x y z| ≤ 2.01e-7 ∧ |gloA x y z| ≤ 8.4e-11 := by
  have hx := sqB h.hx; have hy := sqB h.hy; have hz := sqB h.hz
  have fx : |F.rnd (x * x) - x * x| ≤ 0.125 := F.rndX 51 hx (by norm_num) (by norm_num) (by norm_num)
  have fy : |F.rnd (y * y) - y * y| ≤ 0.125 := F.rndX 51 hy (by norm_num) (by norm_num) (by norm_num)
  have fz : |F.rnd (z * z) - z * z| ≤ 0.125 := F.rndX 51 hz (by norm_num) (by norm_num) (by norm_num)
  have b1 : |x * x + y * y| ≤ 2.312e15 := (addB hx hy).trans (by norm_num)
  have b2 : |x * x + y * y + z * z| ≤ 3.468e15 := (addB b1 hz).trans (by norm_num)
  have f1 : |F.rnd (F.rnd (x * x) + F.rnd (y * y)) - (x * x + y * y)| ≤ 0.5 := F.add 52 fx fy b1 (by norm_num) (by norm_num) (by norm_num)
  have f2 : |F.rnd (F.rnd (F.rnd (x * x) + F.rnd (y * y)) + F.rnd (z * z)) - (x * x + y * y + z * z)| ≤ 1 :=
    F.add 52 f1 fz b2 (by norm_num) (by norm_num) (by norm_num)
  have hlo := h.lo
  have hzr : z * z ≤ x * x + y * y + z * z := by nlinarith [mul_self_nonneg x, mul_self_nonneg y]
  have hz0 := mul_self_nonneg z
  unfold gloCoefF gloC gloA
  dsimp only
  generalize F.rnd (F.rnd (F.rnd (x * x) + F.rnd (y * y)) + F.rnd (z * z)) = r2 at *
  generalize x * x + y * y + z * z = R at *
  have hr2 : R - 1 ≤ r2 := by have := (abs_le.1 f2).1; linarith
  have hR : R ≤ 3.468e15 := (le_abs_self _).trans b2
  -- the square root
  have g1 : |Real.sqrt r2 - Real.sqrt R| ≤ 4.2e-8 := (sqrtE' (s := 1.2e7) f2 (by norm_num) (by norm_num; linarith) (by norm_num; linarith)).trans (by norm_num)
  have b3 : Real.sqrt R ≤ 5.9e7 := Real.sqrt_le_iff.2 ⟨by norm_num, by norm_num; linarith⟩
  have b3' : 1.26e7 ≤ Real.sqrt R := Real.le_sqrt_of_sq_le (by norm_num; linarith)
  have b3a : |Real.sqrt R| ≤ 5.9e7 := by rw [abs_of_nonneg (Real.sqrt_nonneg _)]; exact b3
  have g2 : |F.rnd (Real.sqrt r2) - Real.sqrt R| ≤ 5e-8 := F.rndE 26 g1 b3a (by norm_num) (by norm_num) (by norm_num)
  have g3 : |F.rnd (r2 * F.rnd (Real.sqrt r2)) - R * Real.sqrt R| ≤ 2.6e8 := F.mul 78 f2 g2 b2 b3a (by norm_num) (by norm_num) (by norm_num)
  have b4 : 2e21 ≤ R * Real.sqrt R := by nlinarith
  generalize F.rnd (r2 * F.rnd (Real.sqrt r2)) = r3 at *
  generalize R * Real.sqrt R = R3 at *
  have q1 : |-GM_GLO / R3| ≤ 2e-7 := gm_div b4
  have g4 : |F.rnd (-GM_GLO / r3) - -GM_GLO / R3| ≤ 2.7e-20 := F.div (-22) (zeroE _) g3 q1 b4 (by norm_num) (by norm_num) (by norm_num) (by norm_num)
  have hk0 : |gK| ≤ 2.64e25 := by rw [gK_val]; norm_num [abs_of_pos]
  have q2 : |gK / R| ≤ 1.65e11 := by
    rw [abs_div, abs_of_pos (show (0 : ℝ) < R by linarith [show (0 : ℝ) < 1.6e14 by norm_num]), div_le_iff₀ (by linarith [show (0 : ℝ) < 1.6e14 by norm_num])]
    exact hk0.trans (by nlinarith)
  have g5 := F.div (γ := 1.3e-3) 38 (kF F) f2 q2 hlo (by norm_num) (by norm_num) (by norm_num) (by norm_num)
  generalize F.rnd (F.rnd (F.rnd (F.rnd (1.5 * J2_GLOF F) * GM_GLO) * F.rnd (AE_GLO * AE_GLO)) / r2) = k2 at *
  have q3 : |gK / R / R3| ≤ 8.4e-11 := by
    rw [abs_div, abs_of_pos (show (0 : ℝ) < R3 by linarith [show (0 : ℝ) < 2e21 by norm_num]), div_le_iff₀ (by linarith [show (0 : ℝ) < 2e21 by norm_num])]
    exact q2.trans (by nlinarith)
  have g6 : |F.rnd (k2 / r3) - gK / R / R3| ≤ 2e-23 := F.div (-33) g5 g3 q3 b4 (by norm_num) (by norm_num) (by norm_num) (by norm_num)
  -- b
  have u1 : |F.rnd (5 * z) - 5 * z| ≤ 1.5e-8 := F.rndX (Y := 1.7e8) 28 (by rw [abs_mul]; norm_num; linarith [h.hz]) (by norm_num) (by norm_num) (by norm_num)
  have u2 : |F.rnd (F.rnd (5 * z) * z) - 5 * z * z| ≤ 1.02 :=
    F.mul (A := 1.7e8) 53 u1 (zeroE z) (by rw [abs_mul]; norm_num; linarith [h.hz]) h.hz (by norm_num) (by norm_num) (by norm_num)
  have hR0 : (0 : ℝ) < R := by linarith [show (0 : ℝ) < 1.6e14 by norm_num]
  have c0 : 0 ≤ 5 * z * z / R := div_nonneg (by nlinarith) hR0.le
  have c5 : 5 * z * z / R ≤ 5 := by rw [div_le_iff₀ hR0]; nlinarith
  have u3 : |F.rnd (F.rnd (F.rnd (5 * z) * z) / r2) - 5 * z * z / R| ≤ 4e-14 :=
    F.div (Q := 5) 3 u2 f2 (by rw [abs_of_nonneg c0]; exact c5) hlo (by norm_num) (by norm_num) (by norm_num) (by norm_num)
  have u4 : |F.rnd (1 - F.rnd (F.rnd (F.rnd (5 * z) * z) / r2)) - (1 - 5 * z * z / R)| ≤ 4.2e-14 :=
    F.sub (C := 4) 3 (zeroE 1) u3 (by rw [abs_le]; constructor <;> linarith) (by norm_num) (by norm_num) (by norm_num)
  have c4 : |1 - 5 * z * z / R| ≤ 4 := by rw [abs_le]; constructor <;> linarith
  have u5 := F.mul (γ := 1e-22) (-31) g6 u4 q3 c4 (by norm_num) (by norm_num) (by norm_num)
  have c6 := mulB q3 c4
  have c7 : |-GM_GLO / R3 - gK / R / R3 * (1 - 5 * z * z / R)| ≤ 2.01e-7 := (subB q1 c6).trans (by norm_num)
  exact ⟨F.sub (-22) g4 u5 c7 (by norm_num) (by norm_num) (by norm_num), g6, c7, q3⟩

theorem omega2F (F : Fp) : |F.rnd (OMEGA_GLOF F * OMEGA_GLOF F) - OMEGA_GLO * OMEGA_GLO| ≤ 2e-24 :=
  F.mul (A := 7.3e-5) (B := 7.3e-5) (-27) (omF F) (omF F) (by unfold OMEGA_GLO; norm_num [abs_of_pos]) (by unfold OMEGA_GLO; norm_num [abs_of_pos])
    (by norm_num) (by norm_num) (by norm_num)

theorem omega2B : |OMEGA_GLO * OMEGA_GLO| ≤ 5.4e-9 := by unfold OMEGA_GLO; norm_num [abs_of_pos]

theorem coriolis (F : Fp) {v : ℝ} (hv : |v| ≤ 7500) : |F.rnd (2 * OMEGA_GLOF F * v) - 2 * OMEGA_GLO * v| ≤ 3e-16 ∧ |2 * OMEGA_GLO * v| ≤ 1.1 := by
  have h := omF F
  have h2 : |2 * OMEGA_GLOF F - 2 * OMEGA_GLO| ≤ 2 ^ (-66 : ℤ) := by
    rw [← mul_sub, abs_mul]; norm_num at h ⊢; linarith
  have hb : |2 * OMEGA_GLO| ≤ 1.4585e-4 := by unfold OMEGA_GLO; norm_num [abs_of_pos]
  exact ⟨F.mul 1 h2 (zeroE v) hb hv (by norm_num) (by norm_num) (by norm_num), (mulB hb hv).trans (by norm_num)⟩

/-- The accelerations along x, y, z. -/
theorem accel_err (F : Fp) {c a cF aF w x v g gF : ℝ} (hw : |w| ≤ 1.1) (hv : |v - w| ≤ 3e-16)
    (hc : |cF - c| ≤ 3e-20) (ha : |aF - a| ≤ 2e-23) (hcb : |c| ≤ 2.01e-7) (hab : |a| ≤ 8.4e-11) (hx : |x| ≤ 3.4e7) (hg : |gF - g| ≤ 1e-18) (hgb : |g| ≤ 1e-4) :
    |F.rnd (F.rnd (F.rnd (F.rnd (cF + F.rnd (OMEGA_GLOF F * OMEGA_GLOF F)) * x) + v) + gF) - ((c + OMEGA_GLO * OMEGA_GLO) * x + w + g)| ≤ 2e-12 ∧
    |F.rnd (F.rnd (F.rnd (F.rnd (cF + F.rnd (OMEGA_GLOF F * OMEGA_GLOF F)) * x) - v) + gF) - ((c + OMEGA_GLO * OMEGA_GLO) * x - w + g)| ≤ 2e-12 ∧
    |F.rnd (F.rnd (F.rnd (cF - 2 * aF) * x) + gF) - ((c - 2 * a) * x + g)| ≤ 2e-12 := by
  have b1 : |c + OMEGA_GLO * OMEGA_GLO| ≤ 2.1e-7 := (addB hcb omega2B).trans (by norm_num)
  have e1 := F.add (γ := 3.1e-20) (-22) hc (omega2F F) b1 (by norm_num) (by norm_num) (by norm_num)
  have e2 := F.mul (γ := 1.1e-12) 3 e1 (zeroE x) b1 hx (by norm_num) (by norm_num) (by norm_num)
  have b2 : |(c + OMEGA_GLO * OMEGA_GLO) * x| ≤ 7.2 := (mulB b1 hx).trans (by norm_num)
  have b3 := (addB b2 hw).trans (show (7.2 : ℝ) + 1.1 ≤ 8.3 by norm_num)
  have b4 := (subB b2 hw).trans (show (7.2 : ℝ) + 1.1 ≤ 8.3 by norm_num)
  have e3 := F.add (γ := 1.2e-12) 4 e2 hv b3 (by norm_num) (by norm_num) (by norm_num)
  have e4 := F.sub (γ := 1.2e-12) 4 e2 hv b4 (by norm_num) (by norm_num) (by norm_num)
  have b5 := (addB b3 hgb).trans (show (8.3 : ℝ) + 1e-4 ≤ 8.4 by norm_num)
  have b6 := (addB b4 hgb).trans (show (8.3 : ℝ) + 1e-4 ≤ 8.4 by norm_num)
  refine ⟨F.add 4 e3 hg b5 (by norm_num) (by norm_num) (by norm_num), F.add 4 e4 hg b6 (by norm_num) (by norm_num) (by norm_num), ?_⟩
  have h2a : |2 * aF - 2 * a| ≤ 4e-23 := by rw [← mul_sub, abs_mul]; norm_num at ha ⊢; linarith
  have h2b : |2 * a| ≤ 1.7e-10 := by rw [abs_mul]; norm_num at hab ⊢; linarith
  have b7 := (subB hcb h2b).trans (show (2.01e-7 : ℝ) + 1.7e-10 ≤ 2.1e-7 by norm_num)
  have e5 := F.sub (γ := 3.1e-20) (-22) hc h2a b7 (by norm_num) (by norm_num) (by norm_num)
  have e6 := F.mul (γ := 1.1e-12) 3 e5 (zeroE x) b7 hx (by norm_num) (by norm_num) (by norm_num)
  have b8 : |(c - 2 * a) * x| ≤ 7.2 := (mulB b7 hx).trans (by norm_num)
  have b9 := (addB b8 hgb).trans (show (7.2 : ℝ) + 1e-4 ≤ 7.3 by norm_num)
  exact F.add 3 e6 hg b9 (by norm_num) (by norm_num) (by norm_num)

/-- The derivative in double precision, at the same point. -/
theorem deriv_rounding (F : Fp) {y : Fin 6 → ℝ} {acc accF : Fin 3 → ℝ} (h : Dom' (y 0) (y 1) (y 2)) (hv : ∀ i : Fin 6, 3 ≤ i.1 → |y i| ≤ 7500)
    (ha : ∀ i, |accF i - acc i| ≤ 1e-18) (hb : ∀ i, |acc i| ≤ 1e-4) (i : Fin 6) :
    |gloStateDerivF F y accF i - gloStateDeriv y acc i| ≤ (if i.1 < 3 then 0 else 2e-12) := by
  obtain ⟨h1, h2, h3, h4⟩ := coef_err F h
  have w4 := coriolis F (hv 4 (by simp))
  have w3 := coriolis F (hv 3 (by simp))
  have k0 := accel_err F w4.2 w4.1 h1 h2 h3 h4 h.hx (ha 0) (hb 0)
  have k1 := accel_err F w3.2 w3.1 h1 h2 h3 h4 h.hy (ha 1) (hb 1)
  have k2 := accel_err F w3.2 w3.1 h1 h2 h3 h4 h.hz (ha 2) (hb 2)
  fin_cases i
  · simp [gloStateDerivF, gloStateDeriv]
  · simp [gloStateDerivF, gloStateDeriv]
  · simp [gloStateDerivF, gloStateDeriv]
  · exact k0.1.trans (by norm_num)
  · exact k1.2.1.trans (by norm_num)
  · exact k2.2.2.trans (by norm_num)

/-! ### How the exact derivative depends on the point -/

theorem mulL {a b a' b' α β A B : ℝ} (ha : |a - a'| ≤ α) (hb : |b - b'| ≤ β) (hA : |a'| ≤ A) (hB : |b| ≤ B) :
    |a * b - a' * b'| ≤ α * B + A * β := by
  have e : a * b - a' * b' = (a - a') * b + a' * (b - b') := by ring
  rw [e]
  refine (abs_add_le _ _).trans (add_le_add ?_ ?_)
  · exact mulB ha hB
  · exact mulB hA hb

noncomputable def inv3 (x y z : ℝ) : ℝ := 1 / Real.sqrt (x * x + y * y + z * z)

theorem inv3_facts {x y z : ℝ} (h : 1.6e14 ≤ x * x + y * y + z * z) :
    0 < inv3 x y z ∧ inv3 x y z ≤ 8e-8 ∧ |x * inv3 x y z| ≤ 1 ∧ |y * inv3 x y z| ≤ 1 ∧ |z * inv3 x y z| ≤ 1 := by
  have hs : 1.26e7 ≤ Real.sqrt (x * x + y * y + z * z) := Real.le_sqrt_of_sq_le (by norm_num at h ⊢; linarith)
  have hs0 : (0 : ℝ) < Real.sqrt (x * x + y * y + z * z) := by linarith [show (0 : ℝ) < 1.26e7 by norm_num]
  have key : ∀ t : ℝ, t ^ 2 ≤ x * x + y * y + z * z → |t * inv3 x y z| ≤ 1 := by
    intro t ht
    unfold inv3
    rw [mul_one_div, abs_div, abs_of_pos hs0, div_le_one hs0]
    exact Real.abs_le_sqrt ht
  refine ⟨by unfold inv3; positivity, ?_, key x ?_, key y ?_, key z ?_⟩
  · unfold inv3
    rw [div_le_iff₀ hs0]
    nlinarith
  all_goals nlinarith [mul_self_nonneg x, mul_self_nonneg y, mul_self_nonneg z]

theorem gloA_inv {x y z : ℝ} (h : 1.6e14 ≤ x * x + y * y + z * z) : gloA x y z = gK * inv3 x y z ^ 5 := by
  have h0 : (0 : ℝ) ≤ x * x + y * y + z * z := by norm_num at h; linarith
  have hs : 1.26e7 ≤ Real.sqrt (x * x + y * y + z * z) := Real.le_sqrt_of_sq_le (by norm_num at h ⊢; linarith)
  have hs0 : (0 : ℝ) < Real.sqrt (x * x + y * y + z * z) := by linarith [show (0 : ℝ) < 1.26e7 by norm_num]
  unfold gloA inv3
  have e := Real.mul_self_sqrt h0
  generalize Real.sqrt (x * x + y * y + z * z) = s at *
  rw [← e]
  field_simp

theorem gloC_inv {x y z : ℝ} (h : 1.6e14 ≤ x * x + y * y + z * z) :
    gloC x y z = -(GM_GLO * inv3 x y z ^ 3) - gK * inv3 x y z ^ 5 * (1 - 5 * ((z * inv3 x y z) * (z * inv3 x y z))) := by
  unfold gloC
  rw [gloA_inv h]
  have h0 : (0 : ℝ) ≤ x * x + y * y + z * z := by norm_num at h; linarith
  have hs : 1.26e7 ≤ Real.sqrt (x * x + y * y + z * z) := Real.le_sqrt_of_sq_le (by norm_num at h ⊢; linarith)
  have hs0 : (0 : ℝ) < Real.sqrt (x * x + y * y + z * z) := by linarith [show (0 : ℝ) < 1.26e7 by norm_num]
  unfold inv3
  have e := Real.mul_self_sqrt h0
  generalize Real.sqrt (x * x + y * y + z * z) = s at *
  rw [← e]
  field_simp

/-- Attraction along an axis: `p`, `q` direction cosines, `u` the inverse distance, `j` 1 or 3. -/
noncomputable def pull (j p q u : ℝ) : ℝ := -(GM_GLO * (p * (u * u))) - gK * (p * (u * u * (u * u)) * (j - 5 * (q * q)))

theorem pull_lip {j p q u p' q' u' α : ℝ} (hj : 1 ≤ j ∧ j ≤ 3) (hp' : |p'| ≤ 1) (hq : |q| ≤ 1) (hq' : |q'| ≤ 1) (hu : |u| ≤ 8e-8)
    (hu' : |u'| ≤ 8e-8) (dp : |p - p'| ≤ 3.2e-7 * α) (dq : |q - q'| ≤ 3.2e-7 * α) (du : |u - u'| ≤ 1.92e-14 * α) :
    |pull j p q u - pull j p' q' u'| ≤ 2.09e-6 * α := by
  have hα : 0 ≤ α := by
    have := (abs_nonneg _).trans dp
    by_contra hn
    push Not at hn
    nlinarith
  have B2 : |u * u| ≤ 6.4e-15 := (mulB hu hu).trans (by norm_num)
  have B2' : |u' * u'| ≤ 6.4e-15 := (mulB hu' hu').trans (by norm_num)
  have d2 := mulL du du hu' hu
  have d2' : |u * u - u' * u'| ≤ 3.1e-21 * α := d2.trans (by norm_num; linarith)
  have d4 : |u * u * (u * u) - u' * u' * (u' * u')| ≤ 4e-35 * α := (mulL d2' d2' B2' B2).trans (by norm_num; linarith)
  have B4 : |u * u * (u * u)| ≤ 4.1e-29 := (mulB B2 B2).trans (by norm_num)
  have B4' : |u' * u' * (u' * u')| ≤ 4.1e-29 := (mulB B2' B2').trans (by norm_num)
  have e1 : |p * (u * u) - p' * (u' * u')| ≤ 5.2e-21 * α := (mulL dp d2' hp' B2).trans (by norm_num; linarith)
  have e2 : |p * (u * u * (u * u)) - p' * (u' * u' * (u' * u'))| ≤ 6e-35 * α := (mulL dp d4 hp' B4).trans (by norm_num; linarith)
  have e2b : |p' * (u' * u' * (u' * u'))| ≤ 4.1e-29 := (mulB hp' B4').trans (by norm_num)
  have q2 : |q * q - q' * q'| ≤ 6.5e-7 * α := (mulL dq dq hq' hq).trans (by norm_num; linarith)
  have Bq : |q * q| ≤ 1 := (mulB hq hq).trans (by norm_num)
  have e3 : |(j - 5 * (q * q)) - (j - 5 * (q' * q'))| ≤ 3.3e-6 * α := by
    rw [show (j - 5 * (q * q)) - (j - 5 * (q' * q')) = -5 * (q * q - q' * q') by ring, abs_mul]
    norm_num at q2 ⊢; linarith
  have e3b : |j - 5 * (q * q)| ≤ 4 := by
    have h0 := mul_self_nonneg q
    have h1 := (abs_le.1 Bq).2
    rw [abs_le]; constructor <;> linarith [hj.1, hj.2]
  have e4 := mulL e2 e3 e2b e3b
  have hGM : |GM_GLO| ≤ 3.987e14 := by unfold GM_GLO; norm_num [abs_of_pos]
  have hK : |gK| ≤ 2.64e25 := by rw [gK_val]; norm_num [abs_of_pos]
  unfold pull
  rw [show ∀ a b c d m k : ℝ, -(m * a) - k * b - (-(m * c) - k * d) = -(m * (a - c)) - k * (b - d) by intros; ring]
  refine (abs_sub _ _).trans ?_
  rw [abs_neg]
  exact (add_le_add (mulB hGM e1) (mulB hK e4)).trans (by norm_num; linarith)

theorem inv3_lip {x y z x' y' z' α : ℝ} (h : 1.6e14 ≤ x * x + y * y + z * z) (h' : 1.6e14 ≤ x' * x' + y' * y' + z' * z')
    (dx : |x - x'| ≤ α) (dy : |y - y'| ≤ α) (dz : |z - z'| ≤ α) :
    |inv3 x y z - inv3 x' y' z'| ≤ 3 * α * (inv3 x y z * inv3 x' y' z') := by
  have hs : 1.26e7 ≤ Real.sqrt (x * x + y * y + z * z) := Real.le_sqrt_of_sq_le (by norm_num at h ⊢; linarith)
  have hs0 : (0 : ℝ) < Real.sqrt (x * x + y * y + z * z) := by linarith [show (0 : ℝ) < 1.26e7 by norm_num]
  have hs' : 1.26e7 ≤ Real.sqrt (x' * x' + y' * y' + z' * z') := Real.le_sqrt_of_sq_le (by norm_num at h' ⊢; linarith)
  have hs0' : (0 : ℝ) < Real.sqrt (x' * x' + y' * y' + z' * z') := by linarith [show (0 : ℝ) < 1.26e7 by norm_num]
  have ax : |x| ≤ Real.sqrt (x * x + y * y + z * z) := Real.abs_le_sqrt (by nlinarith [mul_self_nonneg y, mul_self_nonneg z])
  have ay : |y| ≤ Real.sqrt (x * x + y * y + z * z) := Real.abs_le_sqrt (by nlinarith [mul_self_nonneg x, mul_self_nonneg z])
  have az : |z| ≤ Real.sqrt (x * x + y * y + z * z) := Real.abs_le_sqrt (by nlinarith [mul_self_nonneg y, mul_self_nonneg x])
  have ax' : |x'| ≤ Real.sqrt (x' * x' + y' * y' + z' * z') := Real.abs_le_sqrt (by nlinarith [mul_self_nonneg y', mul_self_nonneg z'])
  have ay' : |y'| ≤ Real.sqrt (x' * x' + y' * y' + z' * z') := Real.abs_le_sqrt (by nlinarith [mul_self_nonneg x', mul_self_nonneg z'])
  have az' : |z'| ≤ Real.sqrt (x' * x' + y' * y' + z' * z') := Real.abs_le_sqrt (by nlinarith [mul_self_nonneg y', mul_self_nonneg x'])
  have e := Real.mul_self_sqrt (show (0 : ℝ) ≤ x * x + y * y + z * z by nlinarith [mul_self_nonneg y, mul_self_nonneg x, mul_self_nonneg z])
  have e' := Real.mul_self_sqrt (show (0 : ℝ) ≤ x' * x' + y' * y' + z' * z' by nlinarith [mul_self_nonneg y', mul_self_nonneg x', mul_self_nonneg z'])
  unfold inv3
  generalize Real.sqrt (x * x + y * y + z * z) = s at *
  generalize Real.sqrt (x' * x' + y' * y' + z' * z') = s' at *
  have dist : |s' - s| ≤ 3 * α := by
    have k : ∀ {a b : ℝ}, |a - b| ≤ α → |a| ≤ s → |b| ≤ s' → |a * a - b * b| ≤ α * (s + s') := by
      intro a b hab ha hb
      rw [show a * a - b * b = (a - b) * (a + b) by ring]
      exact mulB hab (addB ha hb)
    have t : |(s' - s) * (s + s')| ≤ 3 * α * (s + s') := by
      rw [show (s' - s) * (s + s') = -((x * x - x' * x') + (y * y - y' * y') + (z * z - z' * z')) by nlinarith, abs_neg]
      exact (addB (addB (k dx ax ax') (k dy ay ay')) (k dz az az')).trans (by linarith)
    rw [abs_mul, abs_of_pos (show 0 < s + s' by linarith)] at t
    exact le_of_mul_le_mul_right t (by linarith)
  rw [show 1 / s - 1 / s' = (s' - s) * (1 / s * (1 / s')) by field_simp, abs_mul, abs_of_pos (show 0 < 1 / s * (1 / s') by positivity)]
  exact mul_le_mul_of_nonneg_right dist (by positivity)

theorem deriv_3 (y : Fin 6 → ℝ) (acc : Fin 3 → ℝ) (h : 1.6e14 ≤ y 0 * y 0 + y 1 * y 1 + y 2 * y 2) :
    gloStateDeriv y acc 3 = pull 1 (y 0 * inv3 (y 0) (y 1) (y 2)) (y 2 * inv3 (y 0) (y 1) (y 2)) (inv3 (y 0) (y 1) (y 2)) +
      OMEGA_GLO * OMEGA_GLO * y 0 + 2 * OMEGA_GLO * y 4 + acc 0 := by
  have e : gloStateDeriv y acc 3 = (gloC (y 0) (y 1) (y 2) + OMEGA_GLO * OMEGA_GLO) * y 0 + 2 * OMEGA_GLO * y 4 + acc 0 := rfl
  rw [e, gloC_inv h]; unfold pull; ring

theorem deriv_4 (y : Fin 6 → ℝ) (acc : Fin 3 → ℝ) (h : 1.6e14 ≤ y 0 * y 0 + y 1 * y 1 + y 2 * y 2) :
    gloStateDeriv y acc 4 = pull 1 (y 1 * inv3 (y 0) (y 1) (y 2)) (y 2 * inv3 (y 0) (y 1) (y 2)) (inv3 (y 0) (y 1) (y 2)) +
      OMEGA_GLO * OMEGA_GLO * y 1 + -(2 * OMEGA_GLO * y 3) + acc 1 := by
  have e : gloStateDeriv y acc 4 = (gloC (y 0) (y 1) (y 2) + OMEGA_GLO * OMEGA_GLO) * y 1 - 2 * OMEGA_GLO * y 3 + acc 1 := rfl
  rw [e, gloC_inv h]; unfold pull; ring

theorem deriv_5 (y : Fin 6 → ℝ) (acc : Fin 3 → ℝ) (h : 1.6e14 ≤ y 0 * y 0 + y 1 * y 1 + y 2 * y 2) :
    gloStateDeriv y acc 5 = pull 3 (y 2 * inv3 (y 0) (y 1) (y 2)) (y 2 * inv3 (y 0) (y 1) (y 2)) (inv3 (y 0) (y 1) (y 2)) + acc 2 := by
  have e : gloStateDeriv y acc 5 = (gloC (y 0) (y 1) (y 2) - 2 * gloA (y 0) (y 1) (y 2)) * y 2 + acc 2 := rfl
  rw [e, gloC_inv h, gloA_inv h]; unfold pull; ring

/-- Weights: velocities count 500 times. -/
noncomputable def wt (i : Fin 6) : ℝ := if i.1 < 3 then 1 else 1 / 500

def Close (ε : ℝ) (y y' : Fin 6 → ℝ) : Prop := ∀ i, |y i - y' i| ≤ ε * wt i

theorem deriv_lip {y y' : Fin 6 → ℝ} (acc : Fin 3 → ℝ) {ε : ℝ} (h : 1.6e14 ≤ y 0 * y 0 + y 1 * y 1 + y 2 * y 2)
    (h' : 1.6e14 ≤ y' 0 * y' 0 + y' 1 * y' 1 + y' 2 * y' 2) (hc : Close ε y y') :
    Close (0.002 * ε) (gloStateDeriv y acc) (gloStateDeriv y' acc) := by
  have d0 : |y 0 - y' 0| ≤ ε := by simpa [wt] using hc 0
  have d1 : |y 1 - y' 1| ≤ ε := by simpa [wt] using hc 1
  have d2 : |y 2 - y' 2| ≤ ε := by simpa [wt] using hc 2
  have d3 : |y 3 - y' 3| ≤ ε / 500 := by simpa [wt, div_eq_mul_inv] using hc 3
  have d4 : |y 4 - y' 4| ≤ ε / 500 := by simpa [wt, div_eq_mul_inv] using hc 4
  have d5 : |y 5 - y' 5| ≤ ε / 500 := by simpa [wt, div_eq_mul_inv] using hc 5
  have hε : 0 ≤ ε := (abs_nonneg _).trans d0
  obtain ⟨u0, uU, ux, uy, uz⟩ := inv3_facts h
  obtain ⟨u0', uU', ux', uy', uz'⟩ := inv3_facts h'
  have du := inv3_lip h h' d0 d1 d2
  have k3 := deriv_3 y acc h; have k4 := deriv_4 y acc h; have k5 := deriv_5 y acc h
  have k3' := deriv_3 y' acc h'; have k4' := deriv_4 y' acc h'; have k5' := deriv_5 y' acc h'
  generalize inv3 (y 0) (y 1) (y 2) = u at *
  generalize inv3 (y' 0) (y' 1) (y' 2) = u' at *
  have au : |u| ≤ 8e-8 := by rw [abs_of_pos u0]; exact uU
  have au' : |u'| ≤ 8e-8 := by rw [abs_of_pos u0']; exact uU'
  have du' : |u - u'| ≤ 1.92e-14 * ε := by
    refine du.trans ?_
    have : u * u' ≤ 8e-8 * 8e-8 := mul_le_mul uU uU' u0'.le (by norm_num)
    calc 3 * ε * (u * u') ≤ 3 * ε * (8e-8 * 8e-8) := mul_le_mul_of_nonneg_left this (by positivity)
      _ ≤ _ := by norm_num; linarith
  have dp : ∀ {a b : ℝ}, |a - b| ≤ ε → |b * u'| ≤ 1 → |a * u - b * u'| ≤ 3.2e-7 * ε := by
    intro a b hab hb
    have e : a * u - b * u' = (a - b) * u + b * (u - u') := by ring
    have t : |b * (u - u')| ≤ 3 * ε * u := by
      rw [abs_mul]
      calc |b| * |u - u'| ≤ |b| * (3 * ε * (u * u')) := mul_le_mul_of_nonneg_left du (abs_nonneg _)
        _ = 3 * ε * u * |b * u'| := by rw [abs_mul, abs_of_pos u0']; ring
        _ ≤ 3 * ε * u * 1 := mul_le_mul_of_nonneg_left hb (by positivity)
        _ = _ := by ring
    rw [e]
    refine (abs_add_le _ _).trans ((add_le_add (mulB hab au) t).trans ?_)
    have : 3 * ε * u ≤ 3 * ε * 8e-8 := mul_le_mul_of_nonneg_left uU (by positivity)
    norm_num at this ⊢; linarith
  have px := dp d0 ux'; have py := dp d1 uy'; have pz := dp d2 uz'
  have p0 := pull_lip (j := 1) ⟨le_refl _, by norm_num⟩ ux' uz uz' au au' px pz du'
  have p1 := pull_lip (j := 1) ⟨le_refl _, by norm_num⟩ uy' uz uz' au au' py pz du'
  have p2 := pull_lip (j := 3) ⟨by norm_num, le_refl _⟩ uz' uz uz' au au' pz pz du'
  have hom : |2 * OMEGA_GLO| ≤ 1.46e-4 := by unfold OMEGA_GLO; norm_num [abs_of_pos]
  have acc_bound : ∀ {P P' X X' V V' g : ℝ}, |P - P'| ≤ 2.09e-6 * ε → |X - X'| ≤ ε → |V - V'| ≤ ε / 500 →
      |(P + OMEGA_GLO * OMEGA_GLO * X + 2 * OMEGA_GLO * V + g) - (P' + OMEGA_GLO * OMEGA_GLO * X' + 2 * OMEGA_GLO * V' + g)| ≤ 0.002 * ε * (1 / 500) := by
    intro P P' X X' V V' g hP hX hV
    rw [show (P + OMEGA_GLO * OMEGA_GLO * X + 2 * OMEGA_GLO * V + g) - (P' + OMEGA_GLO * OMEGA_GLO * X' + 2 * OMEGA_GLO * V' + g) =
      (P - P') + OMEGA_GLO * OMEGA_GLO * (X - X') + 2 * OMEGA_GLO * (V - V') by ring]
    refine (addB (addB hP (mulB omega2B hX)) (mulB hom hV)).trans ?_
    norm_num; linarith
  intro i
  fin_cases i
  · show |y 3 - y' 3| ≤ _
    simp only [wt]; norm_num at d3 ⊢; linarith
  · show |y 4 - y' 4| ≤ _
    simp only [wt]; norm_num at d4 ⊢; linarith
  · show |y 5 - y' 5| ≤ _
    simp only [wt]; norm_num at d5 ⊢; linarith
  · show |gloStateDeriv y acc 3 - gloStateDeriv y' acc 3| ≤ _
    rw [k3, k3']
    have := acc_bound (g := acc 0) p0 d0 d4
    simpa [wt] using this
  · show |gloStateDeriv y acc 4 - gloStateDeriv y' acc 4| ≤ _
    rw [k4, k4']
    have := acc_bound (g := acc 1) (V := -y 3) (V' := -y' 3) p1 d1 (by rw [show -y 3 - -y' 3 = -(y 3 - y' 3) by ring, abs_neg]; exact d3)
    simpa [wt] using this
  · show |gloStateDeriv y acc 5 - gloStateDeriv y' acc 5| ≤ _
    rw [k5, k5', add_sub_add_right_eq_sub]
    refine p2.trans ?_
    simp only [wt]; norm_num; linarith

/-! ### The region of the trajectory -/

/-- Start of the integration: a GLONASS orbit. -/
structure StartOK (s : Fin 6 → ℝ) (acc : Fin 3 → ℝ) : Prop where
  pos : ∀ i : Fin 6, i.1 < 3 → |s i| ≤ 2.6e7
  far : 6.25e14 ≤ s 0 * s 0 + s 1 * s 1 + s 2 * s 2
  vel : ∀ i : Fin 6, 3 ≤ i.1 → |s i| ≤ 4000
  acc : ∀ i, |acc i| ≤ 1e-4

/-- Where it can be after `τ` seconds. -/
structure Reach (s : Fin 6 → ℝ) (τ : ℝ) (y : Fin 6 → ℝ) : Prop where
  pos : ∀ i : Fin 6, i.1 < 3 → |y i - s i| ≤ 7400 * τ
  vel : ∀ i : Fin 6, 3 ≤ i.1 → |y i| ≤ 4000 + 3.7 * τ

theorem Reach.mono {s y : Fin 6 → ℝ} {τ τ' : ℝ} (h : Reach s τ y) (ht : τ ≤ τ') : Reach s τ' y :=
  ⟨fun i hi => (h.pos i hi).trans (by linarith), fun i hi => (h.vel i hi).trans (by linarith)⟩

theorem shrink {a b d : ℝ} (h : |a - b| ≤ d) : 0.545 * (b * b) - 1.198 * (d * d) ≤ a * a := by
  have h1 : (a - b) * (a - b) ≤ d * d := by
    have := abs_le.1 h
    have hd : 0 ≤ d := (abs_nonneg _).trans h
    nlinarith
  nlinarith [sq_nonneg (0.455 * b + (a - b))]

theorem Reach.inside {s y : Fin 6 → ℝ} {acc : Fin 3 → ℝ} {τ : ℝ} (hs : StartOK s acc) (h : Reach s τ y) (ht : τ ≤ 900) :
    (∀ i : Fin 6, i.1 < 3 → |y i| ≤ 3.27e7) ∧ 1.69e14 ≤ y 0 * y 0 + y 1 * y 1 + y 2 * y 2 ∧ (∀ i : Fin 6, 3 ≤ i.1 → |y i| ≤ 7330) := by
  have h := h.mono ht
  refine ⟨?_, ?_, fun i hi => (h.vel i hi).trans (by norm_num)⟩
  · intro i hi
    have h1 := hs.pos i hi
    have h2 := h.pos i hi
    have h3 := abs_sub_abs_le_abs_sub (y i) (s i)
    norm_num at h1 h2 ⊢; linarith
  · have e0 := shrink (h.pos 0 (by simp))
    have e1 := shrink (h.pos 1 (by simp))
    have e2 := shrink (h.pos 2 (by simp))
    have := hs.far
    norm_num at e0 e1 e2 this ⊢
    linarith

theorem pull_bound {j p q u : ℝ} (hj : 1 ≤ j ∧ j ≤ 3) (hp : |p| ≤ 1) (hq : |q| ≤ 1) (hu0 : 0 ≤ u) (hu : u ≤ 7.7e-8) : |pull j p q u| ≤ 2.4 := by
  have hua : |u| ≤ 7.7e-8 := by rw [abs_of_nonneg hu0]; exact hu
  have B2 := mulB hua hua
  have B4 := mulB B2 B2
  have hGM : |GM_GLO| ≤ 3.987e14 := by unfold GM_GLO; norm_num [abs_of_pos]
  have hK : |gK| ≤ 2.64e25 := by rw [gK_val]; norm_num [abs_of_pos]
  have e3b : |j - 5 * (q * q)| ≤ 4 := by
    have h0 := mul_self_nonneg q
    have h1 : q * q ≤ 1 := by have := (abs_le.1 (mulB hq hq)).2; linarith
    rw [abs_le]; constructor <;> linarith [hj.1, hj.2]
  unfold pull
  refine (abs_sub _ _).trans ?_
  rw [abs_neg]
  exact (add_le_add (mulB hGM (mulB hp B2)) (mulB hK (mulB (mulB hp B4) e3b))).trans (by norm_num)

/-- Bounds of the derivative. -/
noncomputable def fieldB (i : Fin 6) : ℝ := if i.1 < 3 then 7400 else 3.7

theorem field_bound {s y : Fin 6 → ℝ} {acc : Fin 3 → ℝ} {τ : ℝ} (hs : StartOK s acc) (h : Reach s τ y) (ht : τ ≤ 900) (i : Fin 6) :
    |gloStateDeriv y acc i| ≤ fieldB i := by
  obtain ⟨hp, hr, hv⟩ := h.inside hs ht
  have hr' : 1.6e14 ≤ y 0 * y 0 + y 1 * y 1 + y 2 * y 2 := le_trans (by norm_num) hr
  obtain ⟨u0, -, ux, uy, uz⟩ := inv3_facts hr'
  have uU : inv3 (y 0) (y 1) (y 2) ≤ 7.7e-8 := by
    unfold inv3
    have hs1 : 1.3e7 ≤ Real.sqrt (y 0 * y 0 + y 1 * y 1 + y 2 * y 2) := Real.le_sqrt_of_sq_le (by norm_num at hr ⊢; linarith)
    rw [div_le_iff₀ (by linarith [show (0 : ℝ) < 1.3e7 by norm_num])]
    nlinarith
  have hom : |2 * OMEGA_GLO| ≤ 1.46e-4 := by unfold OMEGA_GLO; norm_num [abs_of_pos]
  have b3 := addB (addB (addB (pull_bound (j := 1) ⟨le_refl _, by norm_num⟩ ux uz u0.le uU) (mulB omega2B (hp 0 (by simp)))) (mulB hom (hv 4 (by simp)))) (hs.acc 0)
  have b4 := addB (addB (addB (pull_bound (j := 1) ⟨le_refl _, by norm_num⟩ uy uz u0.le uU) (mulB omega2B (hp 1 (by simp)))) ((abs_neg _).trans_le (mulB hom (hv 3 (by simp))))) (hs.acc 1)
  have b5 := addB (pull_bound (j := 3) ⟨by norm_num, le_refl _⟩ uz uz u0.le uU) (hs.acc 2)
  fin_cases i
  · exact (hv 3 (by simp)).trans (by simp [fieldB]; norm_num)
  · exact (hv 4 (by simp)).trans (by simp [fieldB]; norm_num)
  · exact (hv 5 (by simp)).trans (by simp [fieldB]; norm_num)
  · show |gloStateDeriv y acc 3| ≤ _
    rw [deriv_3 y acc hr']
    exact b3.trans (by simp only [fieldB]; norm_num)
  · show |gloStateDeriv y acc 4| ≤ _
    rw [deriv_4 y acc hr']
    exact b4.trans (by simp only [fieldB]; norm_num)
  · show |gloStateDeriv y acc 5| ≤ _
    rw [deriv_5 y acc hr']
    exact b5.trans (by simp only [fieldB]; norm_num)

/-- A stage of the method. -/
theorem Reach.move {s y k : Fin 6 → ℝ} {τ c : ℝ} (h : Reach s τ y) (hk : ∀ i, |k i| ≤ fieldB i) (hc : |c| ≤ 60) :
    Reach s (τ + 60) (fun i => y i + c * k i) := by
  constructor
  · intro i hi
    have h1 := h.pos i hi
    have h2 := mulB hc (hk i)
    rw [show y i + c * k i - s i = (y i - s i) + c * k i by ring]
    refine (addB h1 h2).trans ?_
    simp only [fieldB, hi, if_true]; linarith
  · intro i hi
    refine (addB (h.vel i hi) (mulB hc (hk i))).trans ?_
    simp only [fieldB, if_neg (show ¬ i.1 < 3 by omega)]; linarith

/-! ### A step in double precision -/

theorem Close.mono {y y' : Fin 6 → ℝ} {ε ε' : ℝ} (h : Close ε y y') (he : ε ≤ ε') : Close ε' y y' := by
  intro i
  refine (h i).trans (mul_le_mul_of_nonneg_right he ?_)
  unfold wt; split <;> norm_num

theorem Close.pos {y y' : Fin 6 → ℝ} {ε : ℝ} (h : Close ε y y') (i : Fin 6) (hi : i.1 < 3) : |y i - y' i| ≤ ε := by
  simpa [wt, hi] using h i

theorem Close.vel {y y' : Fin 6 → ℝ} {ε : ℝ} (h : Close ε y y') (i : Fin 6) (hi : 3 ≤ i.1) : |y i - y' i| ≤ ε / 500 := by
  simpa [wt, show ¬ i.1 < 3 by omega, div_eq_mul_inv] using h i

theorem prod_low {a b d : ℝ} (h : |a - b| ≤ 1e-2) (hb : |b| ≤ d) (hd : d = 3.27e7) : b * b - 1e6 ≤ a * a := by
  have h1 := abs_le.1 h
  have h2 := abs_le.1 hb
  have : |(a - b) * b| ≤ 1e-2 * d := mulB h hb
  have := (abs_le.1 this).1
  subst hd
  norm_num at this ⊢
  nlinarith [sq_nonneg (a - b)]

/-- The derivative in double precision near a point of the trajectory. -/
theorem deriv_close (F : Fp) {s y yF : Fin 6 → ℝ} {acc accF : Fin 3 → ℝ} {τ ε : ℝ} (hs : StartOK s acc) (h : Reach s τ y) (ht : τ ≤ 900)
    (hc : Close ε yF y) (hε : ε ≤ 1e-2) (ha : ∀ i, |accF i - acc i| ≤ 1e-18) :
    Close (0.002 * ε + 1e-9) (gloStateDerivF F yF accF) (gloStateDeriv y acc) := by
  obtain ⟨hp, hr, hv⟩ := h.inside hs ht
  have hc' := hc.mono hε
  have near : ∀ i : Fin 6, i.1 < 3 → |yF i| ≤ 3.4e7 := by
    intro i hi
    have h1 := hp i hi
    have h2 := hc'.pos i hi
    have h3 := abs_sub_abs_le_abs_sub (yF i) (y i)
    norm_num at h1 h2 ⊢; linarith
  have nearv : ∀ i : Fin 6, 3 ≤ i.1 → |yF i| ≤ 7500 := by
    intro i hi
    have h1 := hv i hi
    have h2 := hc'.vel i hi
    have h3 := abs_sub_abs_le_abs_sub (yF i) (y i)
    norm_num at h1 h2 ⊢; linarith
  have low : 1.6e14 ≤ yF 0 * yF 0 + yF 1 * yF 1 + yF 2 * yF 2 := by
    have e0 := prod_low (hc'.pos 0 (by simp)) (hp 0 (by simp)) rfl
    have e1 := prod_low (hc'.pos 1 (by simp)) (hp 1 (by simp)) rfl
    have e2 := prod_low (hc'.pos 2 (by simp)) (hp 2 (by simp)) rfl
    norm_num at e0 e1 e2 hr ⊢; linarith
  have k := deriv_rounding F (acc := acc) (accF := accF) ⟨near 0 (by simp), near 1 (by simp), near 2 (by simp), low⟩ nearv ha hs.acc
  have l := deriv_lip acc low (le_trans (by norm_num) hr) hc
  intro i
  have h1 := k i
  have h2 := l i
  have h3 := abs_sub_le (gloStateDerivF F yF accF i) (gloStateDeriv yF acc i) (gloStateDeriv y acc i)
  by_cases hi : i.1 < 3
  · simp only [wt, if_pos hi] at h1 h2 ⊢
    norm_num at h1 h2 ⊢; rw [h1] at h3; norm_num at h3; linarith
  · simp only [wt, if_neg hi] at h1 h2 ⊢
    norm_num at h1 h2 ⊢; linarith

/-- The next point of a stage in double precision. -/
theorem move_close (F : Fp) {y yF k kF : Fin 6 → ℝ} {c ε κ : ℝ} (hc : Close ε yF y) (hk : Close κ kF k) (hε : ε ≤ 1e-2) (hκ : κ ≤ 1e-2) (hcb : |c| ≤ 60)
    (hp : ∀ i : Fin 6, i.1 < 3 → |y i + c * k i| ≤ 3.3e7) (hv : ∀ i : Fin 6, 3 ≤ i.1 → |y i + c * k i| ≤ 7400)
    (kp : ∀ i : Fin 6, i.1 < 3 → |c * k i| ≤ 4.5e5) (kv : ∀ i : Fin 6, 3 ≤ i.1 → |c * k i| ≤ 230) :
    Close (ε + |c| * κ + 4e-9) (fun i => F.rnd (yF i + F.rnd (c * kF i))) (fun i => y i + c * k i) := by
  have hκ0 : 0 ≤ κ := (abs_nonneg _).trans (hk.pos 0 (by simp))
  have hck : |c| * κ ≤ 60 * 1e-2 := mul_le_mul hcb hκ hκ0 (by norm_num)
  intro i
  have e : |c * kF i - c * k i| ≤ |c| * (κ * wt i) := by
    rw [← mul_sub, abs_mul]
    exact mul_le_mul_of_nonneg_left (hk i) (abs_nonneg _)
  have hi1 := hc i
  by_cases hi : i.1 < 3
  · have r1 : |F.rnd (c * kF i) - c * k i| ≤ |c| * κ + 3e-11 :=
      F.rndE (Y := 4.5e5) 19 (by simpa [wt, hi] using e) (kp i hi) (by norm_num) (by norm_num at hck ⊢; linarith) (by norm_num)
    have r2 := F.add (γ := ε + |c| * κ + 4e-9) 26 (hc.pos i hi) r1 (hp i hi) (by norm_num) (by norm_num at hck hε ⊢; linarith) (by norm_num; linarith)
    simpa [wt, hi] using r2
  · have e' : |c * kF i - c * k i| ≤ |c| * κ / 500 := by
      have := e
      simp only [wt, hi, if_false] at this
      rw [show |c| * κ / 500 = |c| * (κ * (1 / 500)) by ring]; exact this
    have r1 : |F.rnd (c * kF i) - c * k i| ≤ |c| * κ / 500 + 2e-14 :=
      F.rndE (α := |c| * κ / 500) (Y := 230) 8 e' (kv i (by omega)) (by norm_num) (by norm_num at hck ⊢; linarith) (by norm_num)
    have r2 := F.add (γ := (ε + |c| * κ + 4e-9) / 500) 13 (hc.vel i (by omega)) r1 (hv i (by omega)) (by norm_num) (by norm_num at hck hε ⊢; linarith) (by norm_num; linarith)
    simp only [wt, hi, if_false]
    rw [mul_one_div]; exact r2

/-- The weighted sum of the four derivatives. -/
theorem sum_close (F : Fp) {k1 k2 k3 k4 f1 f2 f3 f4 : Fin 6 → ℝ} {a b c d : ℝ} (h1 : Close a f1 k1) (h2 : Close b f2 k2) (h3 : Close c f3 k3)
    (h4 : Close d f4 k4) (b1 : ∀ i, |k1 i| ≤ fieldB i) (b2 : ∀ i, |k2 i| ≤ fieldB i) (b3 : ∀ i, |k3 i| ≤ fieldB i) (b4 : ∀ i, |k4 i| ≤ fieldB i)
    (ha : a ≤ 1e-3) (hb : b ≤ 1e-3) (hc : c ≤ 1e-3) (hd : d ≤ 1e-3) :
    Close (a + 2 * b + 2 * c + d + 2e-11) (fun i => F.rnd (F.rnd (F.rnd (f1 i + 2 * f2 i) + 2 * f3 i) + f4 i)) (fun i => k1 i + 2 * k2 i + 2 * k3 i + k4 i) := by
  have dbl : ∀ {x y e : ℝ}, |x - y| ≤ e → |2 * x - 2 * y| ≤ 2 * e := by
    intro x y e h
    rw [← mul_sub, abs_mul, abs_two]; linarith
  have dbl' : ∀ {x e : ℝ}, |x| ≤ e → |2 * x| ≤ 2 * e := by
    intro x e h
    rw [abs_mul, abs_two]; linarith
  intro i
  by_cases hi : i.1 < 3
  · have B1 := b1 i; have B2 := b2 i; have B3 := b3 i; have B4 := b4 i
    simp only [fieldB, if_pos hi] at B1 B2 B3 B4
    have s1 := F.add (C := 22200) (γ := a + 2 * b + 2e-12) 15 (h1.pos i hi) (dbl (h2.pos i hi)) ((addB B1 (dbl' B2)).trans (by norm_num)) (by norm_num)
      (by norm_num at ha hb ⊢; linarith) (by norm_num)
    have s2 := F.add (C := 37000) (γ := a + 2 * b + 2 * c + 6e-12) 16 s1 (dbl (h3.pos i hi)) ((addB (addB B1 (dbl' B2)) (dbl' B3)).trans (by norm_num)) (by norm_num)
      (by norm_num at ha hb hc ⊢; linarith) (by norm_num; linarith)
    have s3 := F.add (C := 44400) (γ := a + 2 * b + 2 * c + d + 2e-11) 16 s2 (h4.pos i hi) ((addB (addB (addB B1 (dbl' B2)) (dbl' B3)) B4).trans (by norm_num)) (by norm_num)
      (by norm_num at ha hb hc hd ⊢; linarith) (by norm_num; linarith)
    simpa [wt, hi] using s3
  · have B1 := b1 i; have B2 := b2 i; have B3 := b3 i; have B4 := b4 i
    simp only [fieldB, if_neg hi] at B1 B2 B3 B4
    have s1 := F.add (C := 11.1) (γ := a / 500 + 2 * (b / 500) + 1e-15) 4 (h1.vel i (by omega)) (dbl (h2.vel i (by omega))) ((addB B1 (dbl' B2)).trans (by norm_num)) (by norm_num)
      (by norm_num at ha hb ⊢; linarith) (by norm_num)
    have s2 := F.add (C := 18.5) (γ := a / 500 + 2 * (b / 500) + 2 * (c / 500) + 4e-15) 5 s1 (dbl (h3.vel i (by omega))) ((addB (addB B1 (dbl' B2)) (dbl' B3)).trans (by norm_num)) (by norm_num)
      (by norm_num at ha hb hc ⊢; linarith) (by norm_num; linarith)
    have s3 := F.add (C := 22.2) (γ := (a + 2 * b + 2 * c + d + 2e-11) / 500) 5 s2 (h4.vel i (by omega)) ((addB (addB (addB B1 (dbl' B2)) (dbl' B3)) B4).trans (by norm_num)) (by norm_num)
      (by norm_num at ha hb hc hd ⊢; linarith) (by norm_num; linarith)
    simp only [wt, hi, if_false]
    rw [mul_one_div]; exact s3

/-- `move_close` for a derivative of the field. -/
theorem stage_close (F : Fp) {s y yF k kF : Fin 6 → ℝ} {acc : Fin 3 → ℝ} {τ c ε κ : ℝ} (hs : StartOK s acc) (h : Reach s τ y) (ht : τ + 60 ≤ 900)
    (hc : Close ε yF y) (hk : Close κ kF k) (hε : ε ≤ 1e-2) (hκ : κ ≤ 1e-2) (hcb : |c| ≤ 60) (hkb : ∀ i, |k i| ≤ fieldB i) :
    Close (ε + |c| * κ + 4e-9) (fun i => F.rnd (yF i + F.rnd (c * kF i))) (fun i => y i + c * k i) ∧ Reach s (τ + 60) (fun i => y i + c * k i) := by
  have hr := h.move hkb hcb
  obtain ⟨hp, -, hv⟩ := hr.inside hs ht
  refine ⟨move_close F hc hk hε hκ hcb (fun i hi => (hp i hi).trans (by norm_num)) (fun i hi => (hv i hi).trans (by norm_num)) ?_ ?_, hr⟩
  · intro i hi
    refine (mulB hcb (hkb i)).trans ?_
    simp only [fieldB, if_pos hi]; norm_num
  · intro i hi
    refine (mulB hcb (hkb i)).trans ?_
    simp only [fieldB, if_neg (show ¬ i.1 < 3 by omega)]; norm_num

/-- A step of the integration. -/
theorem step_close (F : Fp) {s y yF : Fin 6 → ℝ} {acc accF : Fin 3 → ℝ} {τ ε h : ℝ} (hs : StartOK s acc) (hr : Reach s τ y) (ht : τ + 60 ≤ 900)
    (hc : Close ε yF y) (hε : ε ≤ 1e-3) (hh : |h| = 60) (ha : ∀ i, |accF i - acc i| ≤ 1e-18) :
    Close (1.13 * ε + 8e-8) (gloStepF F accF h yF) (gloStep acc h y) ∧ Reach s (τ + 60) (gloStep acc h y) := by
  have hε0 : 0 ≤ ε := (abs_nonneg _).trans (hc.pos 0 (by simp))
  have h30 : |h / 2| = 30 := by rw [abs_div, hh]; norm_num
  have h10 : |h / 6| = 10 := by rw [abs_div, hh]; norm_num
  have hτ : τ ≤ 900 := by linarith
  unfold gloStepF gloStep
  dsimp only
  have c1 := deriv_close F hs hr hτ hc (le_trans hε (by norm_num)) ha
  have b1 := field_bound hs hr hτ
  generalize gloStateDerivF F yF accF = f1 at c1 ⊢
  generalize gloStateDeriv y acc = k1 at c1 b1 ⊢
  obtain ⟨p2, r2⟩ := stage_close F hs hr ht hc c1 (c := h / 2) (le_trans hε (by norm_num)) (by norm_num at hε ⊢; linarith) (by rw [h30]; norm_num) b1
  rw [h30] at p2
  have p2 := p2.mono (show _ ≤ 1.06 * ε + 3.5e-8 by norm_num; linarith)
  have c2 := deriv_close F hs r2 ht p2 (by norm_num at hε ⊢; linarith) ha
  have b2 := field_bound hs r2 ht
  generalize gloStateDerivF F (fun i => F.rnd (yF i + F.rnd (h / 2 * f1 i))) accF = f2 at c2 ⊢
  generalize gloStateDeriv (fun i => y i + h / 2 * k1 i) acc = k2 at c2 b2 ⊢
  have c2 := c2.mono (show _ ≤ 0.00212 * ε + 1.07e-9 by norm_num; linarith)
  obtain ⟨p3, r3⟩ := stage_close F hs hr ht hc c2 (c := h / 2) (le_trans hε (by norm_num)) (by norm_num at hε ⊢; linarith) (by rw [h30]; norm_num) b2
  rw [h30] at p3
  have p3 := p3.mono (show _ ≤ 1.0636 * ε + 3.7e-8 by norm_num; linarith)
  have c3 := deriv_close F hs r3 ht p3 (by norm_num at hε ⊢; linarith) ha
  have b3 := field_bound hs r3 ht
  generalize gloStateDerivF F (fun i => F.rnd (yF i + F.rnd (h / 2 * f2 i))) accF = f3 at c3 ⊢
  generalize gloStateDeriv (fun i => y i + h / 2 * k2 i) acc = k3 at c3 b3 ⊢
  have c3 := c3.mono (show _ ≤ 0.00213 * ε + 1.08e-9 by norm_num; linarith)
  obtain ⟨p4, r4⟩ := stage_close F hs hr ht hc c3 (c := h) (le_trans hε (by norm_num)) (by norm_num at hε ⊢; linarith) (by rw [hh]) b3
  rw [hh] at p4
  have p4 := p4.mono (show _ ≤ 1.128 * ε + 7e-8 by norm_num; linarith)
  have c4 := deriv_close F hs r4 ht p4 (by norm_num at hε ⊢; linarith) ha
  have b4 := field_bound hs r4 ht
  generalize gloStateDerivF F (fun i => F.rnd (yF i + F.rnd (h * f3 i))) accF = f4 at c4 ⊢
  generalize gloStateDeriv (fun i => y i + h * k3 i) acc = k4 at c4 b4 ⊢
  have c4 := c4.mono (show _ ≤ 0.00226 * ε + 1.15e-9 by norm_num; linarith)
  have cS := sum_close F c1 c2 c3 c4 b1 b2 b3 b4 (by norm_num at hε ⊢; linarith) (by norm_num at hε ⊢; linarith) (by norm_num at hε ⊢; linarith) (by norm_num at hε ⊢; linarith)
  have cS := cS.mono (show _ ≤ 0.01276 * ε + 6.6e-9 by norm_num; linarith)
  -- a sixth of the sum is again a bounded derivative
  have dbl' : ∀ {x e : ℝ}, |x| ≤ e → |2 * x| ≤ 2 * e := by
    intro x e h
    rw [abs_mul, abs_two]; linarith
  have bS : ∀ i, |(k1 i + 2 * k2 i + 2 * k3 i + k4 i) / 6| ≤ fieldB i := by
    intro i
    rw [abs_div, abs_of_pos (show (0 : ℝ) < 6 by norm_num), div_le_iff₀ (by norm_num)]
    refine (addB (addB (addB (b1 i) (dbl' (b2 i))) (dbl' (b3 i))) (b4 i)).trans (by linarith)
  have e : (fun i => y i + h / 6 * (k1 i + 2 * k2 i + 2 * k3 i + k4 i)) = fun i => y i + h * ((k1 i + 2 * k2 i + 2 * k3 i + k4 i) / 6) := by
    funext i; ring
  have rE := hr.move bS (c := h) (by rw [hh])
  rw [← e] at rE
  obtain ⟨hp, -, hv⟩ := rE.inside hs ht
  refine ⟨?_, rE⟩
  have m := move_close F (c := h / 6) hc cS (le_trans hε (by norm_num)) (by norm_num at hε ⊢; linarith) (by rw [h10]; norm_num)
    (fun i hi => (hp i hi).trans (by norm_num)) (fun i hi => (hv i hi).trans (by norm_num)) ?_ ?_
  · rw [h10] at m
    exact m.mono (by norm_num; linarith)
  · intro i hi
    rw [show h / 6 * (k1 i + 2 * k2 i + 2 * k3 i + k4 i) = h * ((k1 i + 2 * k2 i + 2 * k3 i + k4 i) / 6) by ring]
    refine (mulB hh.le (bS i)).trans ?_
    simp only [fieldB, if_pos hi]; norm_num
  · intro i hi
    rw [show h / 6 * (k1 i + 2 * k2 i + 2 * k3 i + k4 i) = h * ((k1 i + 2 * k2 i + 2 * k3 i + k4 i) / 6) by ring]
    refine (mulB hh.le (bS i)).trans ?_
    simp only [fieldB, if_neg (show ¬ i.1 < 3 by omega)]; norm_num

/-- Error bound after `n` steps. -/
noncomputable def errN : Nat → ℝ
  | 0 => 1e-8
  | n + 1 => 1.13 * errN n + 8e-8

theorem errN_mono (n : Nat) : errN n ≤ errN (n + 1) ∧ 0 ≤ errN n := by
  induction n with
  | zero => simp only [errN]; norm_num
  | succ n ih =>
    have h2 : errN (n + 1) = 1.13 * errN n + 8e-8 := rfl
    have h3 : errN (n + 2) = 1.13 * errN (n + 1) + 8e-8 := rfl
    norm_num at h2 h3
    rw [show n + 1 + 1 = n + 2 from rfl]
    constructor <;> linarith [ih.1, ih.2]

theorem errN_le {n : Nat} (h : n ≤ 15) : errN n ≤ 5e-6 := by
  have hm : Monotone errN := monotone_nat_of_le_succ fun n => (errN_mono n).1
  refine (hm h).trans ?_
  simp only [errN]; norm_num

theorem steps_close (F : Fp) {s yF : Fin 6 → ℝ} {acc accF : Fin 3 → ℝ} {h : ℝ} (hs : StartOK s acc) (hc : Close 1e-8 yF s) (hh : |h| = 60)
    (ha : ∀ i, |accF i - acc i| ≤ 1e-18) (n : Nat) (hn : n ≤ 15) :
    Close (errN n) ((gloStepF F accF h)^[n] yF) ((gloStep acc h)^[n] s) ∧ Reach s (60 * n) ((gloStep acc h)^[n] s) := by
  induction n with
  | zero =>
    refine ⟨hc, ⟨?_, ?_⟩⟩
    · intro i _; simp
    · intro i hi; simpa using hs.vel i hi
  | succ n ih =>
    obtain ⟨h1, h2⟩ := ih (by omega)
    have hn' : (n : ℝ) ≤ 14 := by exact_mod_cast (by omega : n ≤ 14)
    rw [Function.iterate_succ_apply', Function.iterate_succ_apply']
    obtain ⟨h3, h4⟩ := step_close F hs h2 (by linarith) h1 ((errN_le (by omega)).trans (by norm_num)) hh ha
    refine ⟨h3, ?_⟩
    rw [show (60 * ((n + 1 : ℕ) : ℝ)) = 60 * n + 60 by push_cast; ring]
    exact h4

end GloFp
end Ggnss
