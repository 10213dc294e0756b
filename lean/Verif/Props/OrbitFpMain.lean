import Verif.Props.OrbitFp
import Verif.Model.GloFp
/-!
# C76: broadcast orbits and clocks in double precision
-/
namespace Ggnss

/-! ## The constants -/

theorem gps_constOK (F : Fp) : ConstOK gpsConst (gpsConstF F) where
  mi := by
    unfold gpsConst gpsConstF RelErr
    simp only
    rw [F.exact]
    · norm_num
    · exact isDouble_of (n := 398600500000000) (e := 0) (by norm_num) (by norm_num) (by norm_num)
  mi_lo := by unfold gpsConst; norm_num
  mi_hi := by unfold gpsConst; norm_num
  om := F.rndX (-13) (Y := 7.3e-5) (by norm_num) (by norm_num) (by norm_num) (by norm_num)
  om_hi := by unfold gpsConst; norm_num
  fc := F.rndX (-31) (Y := 4.5e-10) (by norm_num) (by norm_num) (by norm_num) (by norm_num)
  fc_hi := by unfold gpsConst; norm_num

theorem gal_constOK (F : Fp) : ConstOK galConst (galConstF F) where
  mi := by
    unfold galConst galConstF RelErr
    simp only
    rw [F.exact]
    · norm_num
    · exact isDouble_of (n := 398600441800000) (e := 0) (by norm_num) (by norm_num) (by norm_num)
  mi_lo := by unfold galConst; norm_num
  mi_hi := by unfold galConst; norm_num
  om := F.rndX (-13) (Y := 7.3e-5) (by norm_num) (by norm_num) (by norm_num) (by norm_num)
  om_hi := by unfold galConst; norm_num
  fc := F.rndX (-31) (Y := 4.5e-10) (by norm_num) (by norm_num) (by norm_num) (by norm_num)
  fc_hi := by unfold galConst; norm_num

theorem bds_fc (F : Fp) : |(bdsConstF F).fClock - bdsConst.fClock| ≤ 1e-24 ∧ |bdsConst.fClock| ≤ 4.5e-10 := by
  unfold bdsConst bdsConstF
  simp only
  rw [F.exact (x := 3.986004418e14) (isDouble_of (n := 398600441800000) (e := 0) (by norm_num) (by norm_num) (by norm_num)),
    F.exact (x := 2.99792458e8) (isDouble_of (n := 299792458) (e := 0) (by norm_num) (by norm_num) (by norm_num))]
  have s1 : Real.sqrt 3.986004418e14 ≤ 2e7 := Real.sqrt_le_iff.2 ⟨by norm_num, by norm_num⟩
  have s0 := Real.sqrt_nonneg 3.986004418e14
  generalize Real.sqrt 3.986004418e14 = s at s0 s1 ⊢
  have sB : |s| ≤ 2e7 := by rw [abs_of_nonneg s0]; exact s1
  have es : |F.rnd s - s| ≤ 1.9e-9 := F.rndX 25 sB (by norm_num) (by norm_num) (by norm_num)
  have e2 : |F.rnd (-2 * F.rnd s) - -2 * s| ≤ 7.6e-9 :=
    F.mul 26 (α := 0) (A := 2) (by simp) es (by norm_num) sB (by norm_num) (by norm_num) (by norm_num)
  have ep : |F.rnd (2.99792458e8 * 2.99792458e8) - 2.99792458e8 * 2.99792458e8| ≤ 8 :=
    F.rndX 57 (Y := 9e16) (by norm_num) (by norm_num) (by norm_num) (by norm_num)
  have hq : |-2 * s / (2.99792458e8 * 2.99792458e8)| ≤ 4.5e-10 := by
    rw [abs_div, abs_mul, div_le_iff₀ (by norm_num)]
    norm_num
    rw [abs_of_nonneg s0]
    linarith
  exact ⟨F.div (-31) (B := 8.98e16) e2 ep hq (by norm_num) (by norm_num) (by norm_num) (by norm_num) (by norm_num), hq⟩

theorem bds_constOK (F : Fp) : ConstOK bdsConst (bdsConstF F) where
  mi := by
    unfold bdsConst bdsConstF RelErr
    simp only
    rw [F.exact]
    · norm_num
    · exact isDouble_of (n := 398600441800000) (e := 0) (by norm_num) (by norm_num) (by norm_num)
  mi_lo := by unfold bdsConst; norm_num
  mi_hi := by unfold bdsConst; norm_num
  om := F.rndX (-13) (Y := 7.3e-5) (by norm_num) (by norm_num) (by norm_num) (by norm_num)
  om_hi := by unfold bdsConst; norm_num
  fc := (bds_fc F).1
  fc_hi := (bds_fc F).2

/-! ## The clock -/

/-- The computed clock correction. -/
theorem svClockF_err (F : Fp) {k kF : KeplerConst} (hk : ConstOK k kF) {f : NavFrame} (hs : (elements f).Sane)
    (hc : (elements f).SaneClock) {tSec dt c0 E : ℝ} (hdt : |F.rnd (tSec - f.tocSec) - dt| ≤ 5.9e-11) (hdB : |dt| ≤ 302400)
    (hE : SolvesKepler (elements f).e ((elements f).meanAnomaly k.mi dt) E 0) :
    (svClockF F kF f tSec c0).1 = 0 ∧ |(svClockF F kF f tSec c0).2 - (elements f).clock k.fClock dt E| ≤ 5e-16 := by
  have hcl : (elements f).clock k.fClock dt E =
      f.d 0 + f.d 1 * dt + f.d 2 * dt * dt + k.fClock * (f.d 8 * f.d 10 * Real.sin E) := by
    simp only [Elements.clock, elements, at_eq, specIndex]
    norm_num
    ring
  obtain ⟨hi, hEF⟩ := keplerF_close F hk hs hdt hdB hE
  unfold svClockF
  dsimp only
  rw [if_neg (by omega), hcl]
  generalize (keplerLoopF F (f.dF F 8) (meanAnomalyF F kF f (F.rnd (tSec - f.tocSec))) 0
    (meanAnomalyF F kF f (F.rnd (tSec - f.tocSec))) 0).1 = EF at hEF ⊢
  generalize F.rnd (tSec - f.tocSec) = dtF at hdt ⊢
  refine ⟨rfl, ?_⟩
  unfold NavFrame.dF
  have b0 : |f.d 0| ≤ 1 / 2 := hc.a0
  have b1 : |f.d 1| ≤ 1e-6 := hc.a1
  have b2 : |f.d 2| ≤ 1e-12 := hc.a2
  have b8 : |f.d 8| ≤ 1 / 4 := by rw [abs_of_nonneg (show 0 ≤ f.d 8 from hs.e_lo)]; exact hs.e_hi
  have b10 : |f.d 10| ≤ 6500 := by
    rw [abs_of_nonneg (show 0 ≤ f.d 10 from le_trans (by norm_num) hs.sqrtA_lo)]; exact hs.sqrtA_hi
  have e0 : |F.rnd (f.d 0) - f.d 0| ≤ 2.8e-17 := F.rndX (-1) b0 (by norm_num) (by norm_num) (by norm_num)
  have e1 : |F.rnd (f.d 1) - f.d 1| ≤ 1.1e-22 := F.rndX (-19) b1 (by norm_num) (by norm_num) (by norm_num)
  have e2 : |F.rnd (f.d 2) - f.d 2| ≤ 1.1e-28 := F.rndX (-39) b2 (by norm_num) (by norm_num) (by norm_num)
  have e8 : |F.rnd (f.d 8) - f.d 8| ≤ 1.4e-17 := F.rndX (-2) b8 (by norm_num) (by norm_num) (by norm_num)
  have e10 : |F.rnd (f.d 10) - f.d 10| ≤ 4.6e-13 := F.rndX 13 b10 (by norm_num) (by norm_num) (by norm_num)
  have p1 : |F.rnd (F.rnd (f.d 1) * dtF) - f.d 1 * dt| ≤ 1.3e-16 := F.mul (-1) e1 hdt b1 hdB (by norm_num) (by norm_num) (by norm_num)
  have q1 : |f.d 1 * dt| ≤ 0.3025 := (mulB b1 hdB).trans (by norm_num)
  have p01 : |F.rnd (F.rnd (f.d 0) + F.rnd (F.rnd (f.d 1) * dtF)) - (f.d 0 + f.d 1 * dt)| ≤ 2.2e-16 :=
    F.add 0 e0 p1 ((addB b0 q1).trans (by norm_num : (1 / 2 : ℝ) + 0.3025 ≤ 0.81)) (by norm_num) (by norm_num) (by norm_num)
  have p2 : |F.rnd (F.rnd (f.d 2) * dtF) - f.d 2 * dt| ≤ 1.3e-22 := F.mul (-21) e2 hdt b2 hdB (by norm_num) (by norm_num) (by norm_num)
  have q2 : |f.d 2 * dt| ≤ 3.03e-7 := (mulB b2 hdB).trans (by norm_num)
  have p22 : |F.rnd (F.rnd (F.rnd (f.d 2) * dtF) * dtF) - f.d 2 * dt * dt| ≤ 6.6e-17 :=
    F.mul (-3) p2 hdt q2 hdB (by norm_num) (by norm_num) (by norm_num)
  have q22 : |f.d 2 * dt * dt| ≤ 0.092 := (mulB q2 hdB).trans (by norm_num)
  have hsum : |F.rnd (F.rnd (F.rnd (f.d 0) + F.rnd (F.rnd (f.d 1) * dtF)) + F.rnd (F.rnd (F.rnd (f.d 2) * dtF) * dtF)) -
      (f.d 0 + f.d 1 * dt + f.d 2 * dt * dt)| ≤ 3.5e-16 :=
    F.add 0 p01 p22 ((addB (addB b0 q1) q22).trans (by norm_num : (1 / 2 : ℝ) + 0.3025 + 0.092 ≤ 0.9)) (by norm_num) (by norm_num) (by norm_num)
  have sE : |F.sin EF - Real.sin E| ≤ 1.092e-13 := F.sinE hEF (by norm_num)
  have sB := Real.abs_sin_le_one E
  have pe : |F.rnd (F.rnd (f.d 8) * F.rnd (f.d 10)) - f.d 8 * f.d 10| ≤ 4e-13 := F.mul 11 e8 e10 b8 b10 (by norm_num) (by norm_num) (by norm_num)
  have qe : |f.d 8 * f.d 10| ≤ 1625 := (mulB b8 b10).trans (by norm_num)
  have ps : |F.rnd (F.rnd (F.rnd (f.d 8) * F.rnd (f.d 10)) * F.sin EF) - f.d 8 * f.d 10 * Real.sin E| ≤ 1.9e-10 :=
    F.mul 11 pe sE qe sB (by norm_num) (by norm_num) (by norm_num)
  have qs : |f.d 8 * f.d 10 * Real.sin E| ≤ 1625 := (mulB qe sB).trans (by norm_num)
  have pr : |F.rnd (kF.fClock * F.rnd (F.rnd (F.rnd (f.d 8) * F.rnd (f.d 10)) * F.sin EF)) -
      k.fClock * (f.d 8 * f.d 10 * Real.sin E)| ≤ 1e-18 := F.mul (-20) hk.fc ps hk.fc_hi qs (by norm_num) (by norm_num) (by norm_num)
  have qr : |k.fClock * (f.d 8 * f.d 10 * Real.sin E)| ≤ 1e-6 := (mulB hk.fc_hi qs).trans (by norm_num)
  exact F.add 0 hsum pr ((addB (addB (addB b0 q1) q22) qr).trans (by norm_num : (1 / 2 : ℝ) + 0.3025 + 0.092 + 1e-6 ≤ 0.9)) (by norm_num)
    (by norm_num) (by norm_num)

/-! ## State and clock -/

/-- Kepler's equation has a solution. -/
theorem kepler_exists {e : ℝ} (h0 : 0 ≤ e) (h1 : e ≤ 1) (M : ℝ) : ∃ E, SolvesKepler e M E 0 := by
  have hc : ContinuousOn (fun E : ℝ => E - e * Real.sin E) (Set.Icc (M - 1) (M + 1)) := by
    apply Continuous.continuousOn
    fun_prop
  have eB : |e| ≤ 1 := by rw [abs_of_nonneg h0]; exact h1
  have hb : ∀ x, |e * Real.sin x| ≤ 1 := fun x => (mulB eB (Real.abs_sin_le_one x)).trans (by norm_num)
  have := intermediate_value_Icc (show M - 1 ≤ M + 1 by linarith) hc
  have hl : M - 1 - e * Real.sin (M - 1) ≤ M := by have := (abs_le.1 (hb (M - 1))).1; linarith
  have hu : M ≤ M + 1 - e * Real.sin (M + 1) := by have := (abs_le.1 (hb (M + 1))).2; linarith
  obtain ⟨E, _, hE⟩ := this ⟨hl, hu⟩
  refine ⟨E, ?_⟩
  unfold SolvesKepler
  simp only at hE
  rw [hE, sub_self, abs_zero]

theorem keplerStateNclockF_spec (F : Fp) {k kF : KeplerConst} (hk : ConstOK k kF) (f : NavFrame) (t : Epoch) (o : StateClock)
    (hs : (elements f).Sane) (hc : (elements f).SaneClock) (he : HalfWeek t f.toe) (hcl : HalfWeek t f.toc) :
    (keplerStateNclockF F kF f t o).status = 0 ∧
    AccurateState (elements f) k.mi k.omegae k.fClock f.toe f.toc t o.state (keplerStateNclockF F kF f t o).state
      (keplerStateNclockF F kF f t o).clock := by
  have htk := tkF_err F he
  have hdt := dtF_err F hcl
  obtain ⟨E0, hE0⟩ := kepler_exists hs.e_lo (hs.e_hi.trans (by norm_num)) ((elements f).meanAnomaly k.mi (elapsed t f.toe))
  obtain ⟨E1, hE1⟩ := kepler_exists hs.e_lo (hs.e_hi.trans (by norm_num)) ((elements f).meanAnomaly k.mi (elapsed t f.toc))
  obtain ⟨hi, _⟩ := keplerF_close F hk hs htk he.near hE0
  have hpos : kepler2stateF F kF f (ref2toeF F f t) ⟨0, ![o.state 0, o.state 1, o.state 2], 0⟩ =
      ⟨0, keplerPosF F kF f (F.rnd (ref2toeF F f t - f.toeSec))
        (keplerLoopF F (f.dF F 8) (meanAnomalyF F kF f (F.rnd (ref2toeF F f t - f.toeSec))) 0
          (meanAnomalyF F kF f (F.rnd (ref2toeF F f t - f.toeSec))) 0).1,
        (keplerLoopF F (f.dF F 8) (meanAnomalyF F kF f (F.rnd (ref2toeF F f t - f.toeSec))) 0
          (meanAnomalyF F kF f (F.rnd (ref2toeF F f t - f.toeSec))) 0).1⟩ := by
    unfold kepler2stateF
    dsimp only
    rw [if_neg (by omega)]
  unfold keplerStateNclockF
  dsimp only
  rw [hpos]
  simp only [ne_eq, not_true_eq_false, if_false]
  refine ⟨(svClockF_err F hk hs hc hdt hcl.near hE1 (c0 := o.clock)).1, ?_⟩
  constructor
  · intro E v hE hv
    have hEF := (keplerF_close F hk hs htk he.near hE).2
    have := fun i => keplerPosF_err F hk hs htk he.near hEF hv i
    exact ⟨this 0, this 1, this 2⟩
  · exact ⟨rfl, rfl, rfl⟩
  · intro E hE
    exact (svClockF_err F hk hs hc hdt hcl.near hE (c0 := o.clock)).2

/-- C76: in double precision, for every message with elements in their ranges and every epoch within half a week of its
references, `stateNclock` succeeds, and its position and clock are those of the interface document at the exact solution of
Kepler's equation, to a tenth of a millimetre and 5e-16 s. -/
theorem C76_accurate (F : Fp) (f : NavFrame) (fuel : Nat) (t : Epoch) (o : StateClock) {mu omegaE fClock : ℝ}
    (hsys : icdConst f.sys = some (mu, omegaE, fClock)) (hs : (elements f).Sane) (hc : (elements f).SaneClock)
    (he : HalfWeek t f.toe) (hcl : HalfWeek t f.toc) :
    ∃ r, stateNclockF F f fuel t o = .ok r ∧ r.status = 0 ∧
      AccurateState (elements f) mu omegaE fClock f.toe f.toc t o.state r.state r.clock := by
  have aux : ∀ k kF : KeplerConst, ConstOK k kF → k.mi = mu → k.omegae = omegaE → k.fClock = fClock →
      stateNclockF F f fuel t o = .ok (keplerStateNclockF F kF f t o) →
      ∃ r, stateNclockF F f fuel t o = .ok r ∧ r.status = 0 ∧
        AccurateState (elements f) mu omegaE fClock f.toe f.toc t o.state r.state r.clock := by
    intro k kF hk h1 h2 h3 h4
    subst h1 h2 h3
    have := keplerStateNclockF_spec F hk f t o hs hc he hcl
    exact ⟨_, h4, this.1, this.2⟩
  unfold icdConst at hsys
  split at hsys
  · rename_i h
    simp only [Option.some.injEq, Prod.mk.injEq] at hsys
    obtain ⟨rfl, rfl, rfl⟩ := hsys
    exact aux _ _ (gps_constOK F) rfl rfl rfl (by unfold stateNclockF; rw [h])
  · rename_i h
    simp only [Option.some.injEq, Prod.mk.injEq] at hsys
    obtain ⟨rfl, rfl, rfl⟩ := hsys
    exact aux _ _ (gal_constOK F) rfl rfl rfl (by unfold stateNclockF; rw [h])
  · rename_i h
    simp only [Option.some.injEq, Prod.mk.injEq] at hsys
    obtain ⟨rfl, rfl, rfl⟩ := hsys
    refine aux _ _ (bds_constOK F) rfl rfl ?_ (by unfold stateNclockF; rw [h])
    unfold bdsConst
    norm_num
  · cases hsys

end Ggnss
