import Verif.Props.OrbitFpMain
/-!
# C76: a message that meets the hypotheses, and one whose iteration never ends
-/
namespace Ggnss

namespace FpEx

/-- The numbers of a record of GPS satellite G05 (day 58849, time of ephemeris and of clock 7200 s of the day). -/
def rec : NavFrame :=
  ⟨.gps, 5, ⟨58849, 7200⟩, ⟨58849, 7200⟩,
    [-123456789 / 10 ^ 13, -3 / 10 ^ 12, 0, 45, 875 / 10, 45 / 10 ^ 10, 12 / 10, 45 / 10 ^ 7, 62 / 10 ^ 4, 85 / 10 ^ 7, 51536 / 10,
      266400, -1 / 10 ^ 7, -21 / 10, 9 / 10 ^ 8, 958 / 10 ^ 3, 2305 / 10, 755 / 10 ^ 3, -79 / 10 ^ 10, 3 / 10 ^ 10, 1, 2086, 0, 2, 0,
      -111 / 10 ^ 10, 45, 259200, 4, 0, 0]⟩

theorem sane : (elements rec).Sane := by
  constructor <;> simp only [elements, NavFrame.at, specIndex, rec] <;> norm_num [abs_le]

theorem saneClock : (elements rec).SaneClock := by
  constructor <;> simp only [elements, NavFrame.at, specIndex, rec] <;> norm_num [abs_le]

theorem halfWeek : HalfWeek ⟨58850, 1 / 2⟩ ⟨58849, 7200⟩ := by
  constructor
  · exact isDouble_of (n := 1) (e := -1) (by norm_num) (by norm_num) (by norm_num)
  · norm_num
  · norm_num
  · norm_num
  · norm_num
  · norm_num [elapsed, Epoch.secs, DateTime.total, abs_le]

/-- The record evaluated 22 h later, with any rounding and any mathematical library. -/
example (F : Fp) (o : StateClock) : ∃ r, stateNclockF F rec 0 ⟨58850, 1 / 2⟩ o = .ok r ∧ r.status = 0 ∧
    AccurateState (elements rec) 3.986005e14 7.2921151467e-5 (-4.442807633e-10) rec.toe rec.toc ⟨58850, 1 / 2⟩ o.state r.state
      r.clock :=
  C76_accurate F rec 0 ⟨58850, 1 / 2⟩ o rfl sane saneClock halfWeek halfWeek

end FpEx

/-! ## Whole seconds -/

/-- C22 in double precision: for epochs at whole seconds the seconds from the references are exact. -/
theorem C76_whole_seconds (F : Fp) (f : NavFrame) (d s : Int) (hs : |s| ≤ 86400) (hd : |d - f.toe.mjd| ≤ 10 ^ 6)
    (hr : |f.toe.sec| ≤ 86400) : F.rnd (ref2toeF F f ⟨d, s⟩ - f.toeSec) = elapsed ⟨d, s⟩ f.toe := by
  have h1 := abs_le.1 hs
  have h2 := abs_le.1 hd
  have h3 := abs_le.1 hr
  have hp : F.rnd (86400 * ((d - f.toe.mjd : Int) : ℝ)) = 86400 * ((d - f.toe.mjd : Int) : ℝ) := by
    have hd : ((86400 * (d - f.toe.mjd) : Int) : ℝ) = 86400 * ((d - f.toe.mjd : Int) : ℝ) := by push_cast; ring
    rw [← hd]
    apply F.exact
    apply isDouble_int
    rw [abs_le]
    constructor <;> omega
  have hq : ref2toeF F f ⟨d, s⟩ = ((s + 86400 * (d - f.toe.mjd) : Int) : ℝ) := by
    unfold ref2toeF
    dsimp only
    split
    · rw [hp]
      have hd : ((s + 86400 * (d - f.toe.mjd) : Int) : ℝ) = s + 86400 * ((d - f.toe.mjd : Int) : ℝ) := by push_cast; ring
      rw [← hd]
      apply F.exact
      apply isDouble_int
      rw [abs_le]
      constructor <;> omega
    · rename_i h0
      push Not at h0
      rw [h0]
      simp
  rw [hq]
  have he : elapsed ⟨d, s⟩ f.toe = ((s + 86400 * (d - f.toe.mjd) - f.toe.sec : Int) : ℝ) := by
    unfold elapsed Epoch.secs DateTime.total
    push_cast
    ring
  rw [he]
  unfold NavFrame.toeSec
  rw [← Int.cast_sub]
  apply F.exact
  apply isDouble_int
  rw [abs_le]
  constructor <;> omega

/-! ## Beyond 64 rad the limit is below the spacing of the doubles -/

namespace FpEx

theorem round_grid (F : Fp) {x : ℝ} {N : ℤ} (hN : |N| ≤ 2 ^ 53) (hx : 65 ≤ x) (h : |(N : ℝ) * 2 ^ (-46 : ℤ) - x| < 2 ^ (-47 : ℤ)) :
    F.rnd x = (N : ℝ) * 2 ^ (-46 : ℤ) := by
  have hd : IsDouble ((N : ℝ) * 2 ^ (-46 : ℤ)) := ⟨N, -46, hN, by norm_num, rfl⟩
  have h1 := lt_of_le_of_lt ((F.near x).2 _ hd) h
  have h64 : (64 : ℝ) < F.rnd x := by
    have : IsDouble 65 := isDouble_of (n := 65) (e := 0) (by norm_num) (by norm_num) (by norm_num)
    have := F.le_rnd this hx
    linarith
  obtain ⟨n, hn⟩ := double_grid (q := -46) (F.double x) (by rw [abs_of_pos (by linarith)]; norm_num; exact h64)
  have h2 : |((n - N : ℤ) : ℝ)| < 1 := by
    have e : ((n - N : ℤ) : ℝ) = (F.rnd x - (N : ℝ) * 2 ^ (-46 : ℤ)) * 2 ^ (46 : ℤ) := by
      rw [hn]; push_cast
      have : (2 : ℝ) ^ (-46 : ℤ) * 2 ^ (46 : ℤ) = 1 := by rw [← two_zpow_add]; norm_num
      rw [sub_mul, mul_assoc, mul_assoc, this, mul_one, mul_one]
    rw [e, abs_mul]
    have h3 : |F.rnd x - (N : ℝ) * 2 ^ (-46 : ℤ)| < 2 ^ (-46 : ℤ) := by
      have := abs_sub_le (F.rnd x) x ((N : ℝ) * 2 ^ (-46 : ℤ))
      rw [abs_sub_comm x] at this
      have e2 : (2 : ℝ) ^ (-46 : ℤ) = 2 ^ (-47 : ℤ) + 2 ^ (-47 : ℤ) := by norm_num
      exact lt_of_le_of_lt this ((add_lt_add h1 h).trans_eq e2.symm)
    norm_num at h3 ⊢
    linarith
  have h3 : n = N := by
    have h4 : |n - N| < 1 := by exact_mod_cast h2
    have := Int.abs_lt_one_iff.1 h4
    omega
  rw [hn, h3]

/-- The double after 65. -/
noncomputable def b65 : ℝ := 65 + 2 ^ (-46 : ℤ)

theorem sin65 : 1 / 2 ≤ Real.sin 65 := by
  have p1 := Real.pi_gt_d4
  have p2 := Real.pi_lt_d4
  have e : Real.sin 65 = Real.sin (Real.pi - (65 - (10 : ℕ) * (2 * Real.pi))) := by
    rw [Real.sin_pi_sub, Real.sin_sub_nat_mul_two_pi]
  rw [e, ← Real.sin_pi_div_six]
  apply Real.sin_le_sin_of_le_of_le_pi_div_two
  · linarith
  · push_cast; linarith
  · push_cast; linarith

theorem cos65 : Real.cos ((65 + b65) / 2) ≤ -(1 / 2) := by
  have p1 := Real.pi_gt_d4
  have p2 := Real.pi_lt_d4
  have hb1 : 65 ≤ b65 := by unfold b65; have := two_zpow_pos (-46); linarith
  have hb2 : b65 ≤ 65.001 := by unfold b65; norm_num
  have e : Real.cos ((65 + b65) / 2) = Real.cos ((65 + b65) / 2 - (10 : ℕ) * (2 * Real.pi)) := by
    rw [Real.cos_sub_nat_mul_two_pi]
  have e3 : -(1 / 2) = Real.cos (Real.pi - Real.pi / 3) := by rw [Real.cos_pi_sub, Real.cos_pi_div_three]
  rw [e, e3]
  apply Real.cos_le_cos_of_nonneg_of_le_pi
  · linarith
  · push_cast; linarith
  · push_cast; linarith

theorem sin_drop (F : Fp) : 6e-15 ≤ F.sin 65 - F.sin b65 := by
  have h1 := F.sin_err 65
  have h2 := F.sin_err b65
  have h3 : Real.sin 65 - Real.sin b65 = 2 * Real.sin ((b65 - 65) / 2) * -Real.cos ((65 + b65) / 2) := by
    rw [Real.sin_sub_sin, show (65 - b65) / 2 = -((b65 - 65) / 2) by ring, Real.sin_neg]
    ring
  have h4 := cos65
  have hh : (b65 - 65) / 2 = 2 ^ (-47 : ℤ) := by unfold b65; norm_num
  have h5 := Real.sin_gt_sub_cube (x := 2 ^ (-47 : ℤ)) (by norm_num)
  rw [hh] at h3
  have h6 : 7e-15 ≤ Real.sin (2 ^ (-47 : ℤ)) := le_trans (by norm_num) h5.le
  have h7 : 7e-15 ≤ Real.sin 65 - Real.sin b65 := by
    rw [h3]
    nlinarith
  rw [abs_le] at h1 h2
  norm_num at h1 h2 h7 ⊢
  linarith [h1.1, h1.2, h2.1, h2.2]

/-- An eccentricity between the two that would round to the one and to the other neighbour. -/
noncomputable def eCyc (F : Fp) : ℝ := F.rnd (2 ^ (-46 : ℤ) / (F.sin 65 + F.sin b65))

theorem sin_bounds (F : Fp) : 0.49 ≤ F.sin 65 ∧ F.sin 65 ≤ 1.01 ∧ 0.49 ≤ F.sin b65 ∧ F.sin b65 ≤ 1.01 := by
  have h1 := abs_le.1 (F.sin_err 65)
  have h2 := abs_le.1 (F.sin_err b65)
  have h3 := sin65
  have h4 := Real.sin_le_one 65
  have h5 := Real.sin_le_one b65
  have h6 := abs_le.1 (sin_lip 65 b65)
  have hh : |65 - b65| ≤ 0.001 := by unfold b65; norm_num [abs_le]
  have h7 := (abs_nonneg _).trans hh
  norm_num at h1 h2 h3 h4 h5 h6 hh ⊢
  refine ⟨?_, ?_, ?_, ?_⟩ <;> linarith [h1.1, h1.2, h2.1, h2.2, h6.1, h6.2]

theorem eCyc_err (F : Fp) : |eCyc F - 2 ^ (-46 : ℤ) / (F.sin 65 + F.sin b65)| ≤ 2 ^ (-99 : ℤ) := by
  obtain ⟨h1, h2, h3, h4⟩ := sin_bounds F
  have := F.err (x := 2 ^ (-46 : ℤ) / (F.sin 65 + F.sin b65)) (m := -45) (by norm_num) (by
    rw [abs_of_nonneg (div_nonneg (by positivity) (by linarith)), div_le_iff₀ (by linarith)]
    have e : (2 : ℝ) ^ (-46 : ℤ) = 2 ^ (-45 : ℤ) * (1 / 2) := by norm_num
    rw [e]
    exact mul_le_mul_of_nonneg_left (by linarith) (two_zpow_pos _).le)
  rw [show (-45 : ℤ) - 54 = -99 by norm_num] at this
  exact this

theorem step_a (F : Fp) : F.rnd (F.rnd (F.sin 65 * eCyc F) + 65) = b65 := by
  obtain ⟨h1, h2, h3, h4⟩ := sin_bounds F
  have hd := sin_drop F
  have he := abs_le.1 (eCyc_err F)
  set sa := F.sin 65
  set sb := F.sin b65
  have hS : 0 < sa + sb := by linarith
  have key : (2 : ℝ) ^ (-46 : ℤ) / (sa + sb) * sa = 2 ^ (-47 : ℤ) + 2 ^ (-47 : ℤ) * ((sa - sb) / (sa + sb)) := by
    have : (2 : ℝ) ^ (-46 : ℤ) = 2 ^ (-47 : ℤ) * 2 := by norm_num
    rw [this]
    field_simp
    ring
  have hr1 : 2.9e-15 ≤ (sa - sb) / (sa + sb) := by
    rw [le_div_iff₀ hS]
    norm_num at hd h2 h4 ⊢
    linarith
  have hr2 : (sa - sb) / (sa + sb) ≤ 0.6 := by
    rw [div_le_iff₀ hS]
    norm_num at h1 h2 h3 h4 ⊢
    linarith
  have hlo : 2 ^ (-47 : ℤ) + 1.8e-29 ≤ sa * eCyc F := by
    have a : (2 ^ (-46 : ℤ) / (sa + sb) - 2 ^ (-99 : ℤ)) * sa ≤ eCyc F * sa := mul_le_mul_of_nonneg_right (by linarith [he.1]) (by linarith)
    rw [sub_mul, key] at a
    have b : (2 : ℝ) ^ (-99 : ℤ) * sa ≤ 2 ^ (-99 : ℤ) * 1.01 := mul_le_mul_of_nonneg_left h2 (two_zpow_pos _).le
    have c : (2 : ℝ) ^ (-47 : ℤ) * 2.9e-15 ≤ 2 ^ (-47 : ℤ) * ((sa - sb) / (sa + sb)) := mul_le_mul_of_nonneg_left hr1 (two_zpow_pos _).le
    have n : (1.8e-29 : ℝ) ≤ 2 ^ (-47 : ℤ) * 2.9e-15 - 2 ^ (-99 : ℤ) * 1.01 := by norm_num
    rw [mul_comm sa]
    generalize (2 : ℝ) ^ (-47 : ℤ) = p at *
    generalize (1.8e-29 : ℝ) = q at *
    linarith
  have hhi : sa * eCyc F ≤ 2 ^ (-46 : ℤ) := by
    have a : eCyc F * sa ≤ (2 ^ (-46 : ℤ) / (sa + sb) + 2 ^ (-99 : ℤ)) * sa := mul_le_mul_of_nonneg_right (by linarith [he.2]) (by linarith)
    rw [add_mul, key] at a
    have b : (2 : ℝ) ^ (-99 : ℤ) * sa ≤ 2 ^ (-99 : ℤ) * 1.01 := mul_le_mul_of_nonneg_left h2 (two_zpow_pos _).le
    have c : (2 : ℝ) ^ (-47 : ℤ) * ((sa - sb) / (sa + sb)) ≤ 2 ^ (-47 : ℤ) * 0.6 := mul_le_mul_of_nonneg_left hr2 (two_zpow_pos _).le
    have n : (2 : ℝ) ^ (-47 : ℤ) + 2 ^ (-47 : ℤ) * 0.6 + 2 ^ (-99 : ℤ) * 1.01 ≤ 2 ^ (-46 : ℤ) := by norm_num
    rw [mul_comm sa]
    exact a.trans ((add_le_add (add_le_add le_rfl c) b).trans n)
  have hp := F.err (x := sa * eCyc F) (m := -46) (by norm_num) (by
    rw [abs_of_nonneg (le_trans (by positivity) hlo)]; exact hhi)
  rw [show (-46 : ℤ) - 54 = -100 by norm_num, abs_le] at hp
  have hp2 : F.rnd (sa * eCyc F) ≤ 2 ^ (-46 : ℤ) := F.rnd_le (isDouble_two (by norm_num)) hhi
  have hp1 : (2 : ℝ) ^ (-47 : ℤ) < F.rnd (sa * eCyc F) := by
    have n : (2 : ℝ) ^ (-100 : ℤ) < 1.8e-29 := by norm_num
    generalize (2 : ℝ) ^ (-47 : ℤ) = p at *
    generalize (1.8e-29 : ℝ) = q at *
    linarith [hp.1]
  have hb : b65 = ((65 * 2 ^ 46 + 1 : ℤ) : ℝ) * 2 ^ (-46 : ℤ) := by unfold b65; norm_num
  rw [hb]
  apply round_grid F (by norm_num)
  · have := two_zpow_pos (-47); linarith
  · rw [← hb]
    unfold b65
    have e : (2 : ℝ) ^ (-46 : ℤ) = 2 ^ (-47 : ℤ) + 2 ^ (-47 : ℤ) := by norm_num
    rw [e] at hp2 ⊢
    generalize (2 : ℝ) ^ (-47 : ℤ) = p at *
    rw [abs_lt]
    constructor <;> linarith

theorem step_b (F : Fp) : F.rnd (F.rnd (F.sin b65 * eCyc F) + 65) = 65 := by
  obtain ⟨h1, h2, h3, h4⟩ := sin_bounds F
  have hd := sin_drop F
  have he := abs_le.1 (eCyc_err F)
  set sa := F.sin 65
  set sb := F.sin b65
  have hS : 0 < sa + sb := by linarith
  have key : (2 : ℝ) ^ (-46 : ℤ) / (sa + sb) * sb = 2 ^ (-47 : ℤ) - 2 ^ (-47 : ℤ) * ((sa - sb) / (sa + sb)) := by
    have : (2 : ℝ) ^ (-46 : ℤ) = 2 ^ (-47 : ℤ) * 2 := by norm_num
    rw [this]
    field_simp
    ring
  have hr1 : 2.9e-15 ≤ (sa - sb) / (sa + sb) := by
    rw [le_div_iff₀ hS]
    norm_num at hd h2 h4 ⊢
    linarith
  have he0 : 0 ≤ eCyc F := F.le_rnd ⟨0, 0, by norm_num, by norm_num, by simp⟩ (div_nonneg (by positivity) hS.le)
  have hhi : sb * eCyc F ≤ 2 ^ (-47 : ℤ) - 1.8e-29 := by
    have a : eCyc F * sb ≤ (2 ^ (-46 : ℤ) / (sa + sb) + 2 ^ (-99 : ℤ)) * sb := mul_le_mul_of_nonneg_right (by linarith [he.2]) (by linarith)
    rw [add_mul, key] at a
    have b : (2 : ℝ) ^ (-99 : ℤ) * sb ≤ 2 ^ (-99 : ℤ) * 1.01 := mul_le_mul_of_nonneg_left h4 (two_zpow_pos _).le
    have c : (2 : ℝ) ^ (-47 : ℤ) * 2.9e-15 ≤ 2 ^ (-47 : ℤ) * ((sa - sb) / (sa + sb)) := mul_le_mul_of_nonneg_left hr1 (two_zpow_pos _).le
    have n : (1.8e-29 : ℝ) ≤ 2 ^ (-47 : ℤ) * 2.9e-15 - 2 ^ (-99 : ℤ) * 1.01 := by norm_num
    rw [mul_comm sb]
    generalize (2 : ℝ) ^ (-47 : ℤ) = p at *
    generalize (1.8e-29 : ℝ) = q at *
    linarith
  have hlo : 0 ≤ sb * eCyc F := mul_nonneg (by linarith) he0
  have hp := F.err (x := sb * eCyc F) (m := -46) (by norm_num) (by
    rw [abs_of_nonneg hlo]
    exact hhi.trans (by norm_num))
  rw [show (-46 : ℤ) - 54 = -100 by norm_num, abs_le] at hp
  have hp0 : 0 ≤ F.rnd (sb * eCyc F) := F.le_rnd ⟨0, 0, by norm_num, by norm_num, by simp⟩ hlo
  have hp1 : F.rnd (sb * eCyc F) < 2 ^ (-47 : ℤ) := by
    have n : (2 : ℝ) ^ (-100 : ℤ) < 1.8e-29 := by norm_num
    generalize (2 : ℝ) ^ (-47 : ℤ) = p at *
    generalize (1.8e-29 : ℝ) = q at *
    linarith [hp.2]
  have hb : (65 : ℝ) = ((65 * 2 ^ 46 : ℤ) : ℝ) * 2 ^ (-46 : ℤ) := by norm_num
  conv_rhs => rw [hb]
  apply round_grid F (by norm_num)
  · linarith
  · rw [← hb]
    generalize (2 : ℝ) ^ (-47 : ℤ) = p at *
    rw [abs_lt]
    constructor <;> linarith

/-- The loop alternates between the two doubles. -/
theorem cycle (F : Fp) : ∀ (n i : Nat), 1001 - i = n → i ≤ 1001 →
    (keplerLoopF F (eCyc F) 65 i 65 b65).2 = 1001 ∧ (keplerLoopF F (eCyc F) 65 i b65 65).2 = 1001 := by
  have hfar : ∀ x : ℝ, |x| = 2 ^ (-46 : ℤ) → |F.rnd x| > F.rnd KEPLER_LIMIT := by
    intro x hx
    have hd : IsDouble x := by
      rcases abs_choice x with h | h
      · rw [← h, hx]; exact isDouble_two (by norm_num)
      · have : x = -(2 ^ (-46 : ℤ)) := by rw [← hx, h]; ring
        rw [this]
        exact (isDouble_two (by norm_num)).neg
    rw [F.exact hd, hx]
    exact lt_of_le_of_lt (limit_bounds F).2 (by norm_num)
  have ha : |(65 : ℝ) - b65| = 2 ^ (-46 : ℤ) := by
    unfold b65
    rw [show (65 : ℝ) - (65 + 2 ^ (-46 : ℤ)) = -(2 ^ (-46 : ℤ)) by ring, abs_neg, abs_of_pos (two_zpow_pos _)]
  have hb : |b65 - 65| = 2 ^ (-46 : ℤ) := by rw [abs_sub_comm]; exact ha
  intro n
  induction n with
  | zero =>
    intro i h1 h2
    obtain rfl : i = 1001 := by omega
    constructor <;> rw [keplerLoopF, if_neg (fun h => by omega)]
  | succ n ih =>
    intro i h1 h2
    have := ih (i + 1) (by omega) (by omega)
    constructor
    · rw [keplerLoopF, if_pos ⟨hfar _ ha, by omega⟩, step_a]
      exact this.2
    · rw [keplerLoopF, if_pos ⟨hfar _ hb, by omega⟩, step_b]
      exact this.1

end FpEx

/-- C24 fails in double precision beyond 64 rad: with any rounding and any mathematical library there is an eccentricity
(a double below 1e-13) for which the iteration from the mean anomaly 65 alternates for ever between two neighbouring doubles,
because they differ by more than the limit 1e-14; a message with these numbers is refused at its time of ephemeris. -/
theorem C76_no_convergence (F : Fp) : ∃ f : NavFrame, 0 ≤ (elements f).e ∧ (elements f).e ≤ 1e-13 ∧ (elements f).m0 = 65 ∧
    ∀ kF o, (kepler2stateF F kF f f.toeSec o).status = 1 := by
  obtain ⟨h1, h2, h3, h4⟩ := FpEx.sin_bounds F
  have he := abs_le.1 (FpEx.eCyc_err F)
  have hS : 0 < F.sin 65 + F.sin FpEx.b65 := by linarith
  have he0 : 0 ≤ FpEx.eCyc F := F.le_rnd ⟨0, 0, by norm_num, by norm_num, by simp⟩ (div_nonneg (by positivity) hS.le)
  have he1 : FpEx.eCyc F ≤ 1e-13 := by
    have : (2 : ℝ) ^ (-46 : ℤ) / (F.sin 65 + F.sin FpEx.b65) ≤ 2 ^ (-46 : ℤ) / (1 / 2) :=
      div_le_div_of_nonneg_left (two_zpow_pos _).le (by norm_num) (by linarith)
    have n : (2 : ℝ) ^ (-46 : ℤ) / (1 / 2) + 2 ^ (-99 : ℤ) ≤ 1e-13 := by norm_num
    exact (show FpEx.eCyc F ≤ 2 ^ (-46 : ℤ) / (F.sin 65 + F.sin FpEx.b65) + 2 ^ (-99 : ℤ) by linarith [he.2]).trans
      ((add_le_add this le_rfl).trans n)
  obtain ⟨m, q, hm, hq, heq⟩ := F.double (2 ^ (-46 : ℤ) / (F.sin 65 + F.sin FpEx.b65))
  have hd8 : (((m : ℚ) * 2 ^ q : ℚ) : ℝ) = FpEx.eCyc F := by
    unfold FpEx.eCyc
    rw [heq]
    push_cast
    rfl
  let f : NavFrame := ⟨.gps, 1, ⟨58849, 0⟩, ⟨58849, 0⟩,
    [0, 0, 0, 0, 0, 0, 65, 0, (m : ℚ) * 2 ^ q, 0, 5153] ++ List.replicate 20 0⟩
  have f8 : f.d 8 = FpEx.eCyc F := by rw [← hd8]; rfl
  have f6 : f.d 6 = 65 := by simp [NavFrame.d, f]
  refine ⟨f, ?_, ?_, f6, ?_⟩
  · rw [show (elements f).e = f.d 8 from rfl, f8]; exact he0
  · rw [show (elements f).e = f.d 8 from rfl, f8]; exact he1
  · intro kF o
    have i0 : IsDouble 0 := ⟨0, 0, by norm_num, by norm_num, by simp⟩
    have i65 : IsDouble 65 := isDouble_of (n := 65) (e := 0) (by norm_num) (by norm_num) (by norm_num)
    have hM : meanAnomalyF F kF f (F.rnd (f.toeSec - f.toeSec)) = 65 := by
      unfold meanAnomalyF NavFrame.dF
      dsimp only
      rw [sub_self, F.exact i0, mul_zero, F.exact i0, f6, F.exact i65, add_zero, F.exact i65]
    have hE : f.dF F 8 = FpEx.eCyc F := by
      unfold NavFrame.dF
      rw [f8]
      exact F.exact (F.double _)
    have hl : (keplerLoopF F (FpEx.eCyc F) 65 0 65 0).2 = 1001 := by
      have hfar : |F.rnd (65 - 0)| > F.rnd KEPLER_LIMIT := by
        rw [sub_zero, F.exact i65]
        exact lt_of_le_of_lt (limit_bounds F).2 (by norm_num)
      rw [keplerLoopF, if_pos ⟨hfar, by norm_num⟩, FpEx.step_a]
      exact (FpEx.cycle F 1000 1 (by norm_num) (by norm_num)).2
    unfold kepler2stateF
    dsimp only
    rw [hM, hE, if_pos (by rw [hl]; norm_num)]

end Ggnss
