import Verif.Props.Kepler
import Mathlib.Algebra.Order.Floor.Ring
import Mathlib.Algebra.Order.Floor.Semiring
import Mathlib.Algebra.Order.Archimedean.Real.Basic
/-!
# C23, C27, C28, C46: GLONASS reference time and state; C29: GPS user range accuracy
-/
namespace Ggnss

/-! ## C23 -/

/-- Start of the GPS week containing an epoch, seconds since MJD 0 (weeks start on Sunday; MJD 44244 is
Sunday 6 January 1980). -/
def weekStart (d : DateTime) : Int := 86400 * (44244 + 7 * ((d.mjd - 44244) / 7))

/-- C23: the time of ephemeris is the given second of the week of the time of clock, for every time of
clock since 1980 and every second of week. -/
theorem C23_in_week (f : NavFrame) (sow : Int) (hm : 44244 ≤ f.toc.mjd) (h0 : 0 ≤ f.toc.sec)
    (h1 : f.toc.sec < 86400) (hs : f.data[2]? = some (sow : Rat)) (hs0 : 0 ≤ sow) (hs1 : sow < 604800) :
    ∃ d, gloToe f = .ok d ∧ d.total = weekStart f.toc + sow ∧ 0 ≤ d.sec ∧ d.sec < 86400 := by
  unfold gloToe
  simp only [dataAt, hs, Res.bind_ok]
  rw [castLong_int (by omega) (by omega)]
  simp only [Res.bind_ok, Res.pure_eq]
  refine ⟨_, rfl, ?_, ?_, ?_⟩
  · rw [sow_tdiv _ hm h0 h1]
    unfold DateTime.total weekStart
    simp only
    have := Int.mul_tdiv_add_tmod sow 86400
    omega
  · exact Int.tmod_nonneg _ hs0
  · exact Int.tmod_lt_of_pos _ (by norm_num)

/-- C23, second part: the time of ephemeris is within half a week of the time of clock exactly when
the two seconds of week are; nothing is done about a message frame time of the neighbouring week. -/
theorem C23_half_week_partial (f : NavFrame) (sow : Int) (hm : 44244 ≤ f.toc.mjd) (h0 : 0 ≤ f.toc.sec)
    (h1 : f.toc.sec < 86400) (hs : f.data[2]? = some (sow : Rat)) (hs0 : 0 ≤ sow) (hs1 : sow < 604800) :
    ∃ d, gloToe f = .ok d ∧
      (|d.total - f.toc.total| ≤ 302400 ↔ |sow - (f.toc.total - weekStart f.toc)| ≤ 302400) := by
  obtain ⟨d, hd, ht, _⟩ := C23_in_week f sow hm h0 h1 hs hs0 hs1
  refine ⟨d, hd, ?_⟩
  rw [ht, show weekStart f.toc + sow - f.toc.total = sow - (f.toc.total - weekStart f.toc) by ring]

/-- C23, second part, fails at a change of week: time of clock Sunday 5 January 2020 00:15, message
frame time Saturday 23:59:30 (15.5 minutes earlier) gives a time of ephemeris almost a week later. -/
theorem C23_week_rollover_wrong (f : NavFrame) (ht : f.toc = ⟨58853, 900⟩) (hs : f.data[2]? = some 604770) :
    gloToe f = .ok ⟨58859, 86370⟩ ∧ (⟨58859, 86370⟩ : DateTime).total - f.toc.total = 603870 := by
  have hcl : castLong (604770 : ℚ) = .ok 604770 := castLong_int (v := 604770) (by norm_num) (by norm_num)
  constructor
  · unfold gloToe
    simp only [dataAt, hs, Res.bind_ok, hcl, Res.pure_eq, ht, DateTime.sow, MJD_JAN61980]
    rfl
  · rw [ht]; rfl

/-! ## C27 -/

theorem cround_zero {x : ℝ} (h : |x| < 1 / 2) : cround x = 0 := by
  obtain ⟨h1, h2⟩ := abs_lt.1 h
  unfold cround
  split
  · have : ⌊x + 1 / 2⌋ = 0 := by rw [Int.floor_eq_iff]; constructor <;> push_cast <;> linarith
    rw [this]; simp
  · have : ⌊-x + 1 / 2⌋ = 0 := by rw [Int.floor_eq_iff]; constructor <;> push_cast <;> linarith
    rw [this]; simp

theorem cround_near (x : ℝ) : |x - cround x| ≤ 1 / 2 := by
  unfold cround
  split
  · have h1 := Int.floor_le (x + 1 / 2)
    have h2 := Int.lt_floor_add_one (x + 1 / 2)
    rw [abs_le]; constructor <;> linarith
  · have h1 := Int.floor_le (-x + 1 / 2)
    have h2 := Int.lt_floor_add_one (-x + 1 / 2)
    rw [abs_le]; constructor <;> linarith

theorem cround_int (n : ℤ) : cround (n : ℝ) = n := by
  unfold cround
  split
  · have : ⌊(n : ℝ) + 1 / 2⌋ = n := by rw [Int.floor_eq_iff]; constructor <;> linarith
    rw [this]
  · have : ⌊-(n : ℝ) + 1 / 2⌋ = -n := by rw [Int.floor_eq_iff]; push_cast; constructor <;> linarith
    rw [this]; simp

/-- The equations of motion in the code are those of the interface document. -/
theorem deriv_spec (f : NavFrame) (x : Fin 6 → ℝ) : gloStateDeriv x (gloAcc f) = gloFieldOf f x := by
  unfold gloStateDeriv gloFieldOf gloField gloAcc
  have hr2 : x 0 * x 0 + x 1 * x 1 + x 2 * x 2 = x 0 ^ 2 + x 1 ^ 2 + x 2 ^ 2 := by ring
  have hnn : 0 ≤ x 0 ^ 2 + x 1 ^ 2 + x 2 ^ 2 := by positivity
  simp only [hr2, GM_GLO, J2_GLO, AE_GLO, OMEGA_GLO]
  generalize hS : x 0 ^ 2 + x 1 ^ 2 + x 2 ^ 2 = S at *
  have hsq : Real.sqrt S ^ 2 = S := Real.sq_sqrt hnn
  generalize Real.sqrt S = r at *
  subst hsq
  have h3 : r ^ 2 * r = r ^ 3 := by ring
  simp only [h3, div_div, show r ^ 2 * r ^ 3 = r ^ 5 by ring]
  have a1 : f.at 1 2 = f.d 5 := rfl
  have a2 : f.at 2 2 = f.d 9 := rfl
  have a3 : f.at 3 2 = f.d 13 := rfl
  ext i
  fin_cases i <;> simp [a1, a2, a3] <;> ring

theorem step_spec (f : NavFrame) (h : ℝ) (y : Fin 6 → ℝ) : gloStep (gloAcc f) h y = rk4 (gloFieldOf f) h y := by
  unfold gloStep rk4
  simp only [deriv_spec]
  rfl

theorem gloX0_spec (f : NavFrame) : gloX0 f = gloStart f := rfl

/-- Forward integration. -/
theorem gloLoop_fwd (acc : Fin 3 → ℝ) (tLim : ℝ) (m : Nat) : ∀ (n : Nat) (fuel : Nat) (y : Fin 6 → ℝ) (ti : ℝ),
    n < fuel → (∀ k : Nat, k < n → ti + 60 * k < tLim) → tLim ≤ ti + 60 * n →
    gloLoop acc 60 tLim fuel y ti m = .ok ((gloStep acc 60)^[n] y, ti + 60 * n, m) := by
  intro n
  induction n with
  | zero =>
    intro fuel y ti hf _ hle
    obtain ⟨g, rfl⟩ : ∃ g, fuel = g + 1 := ⟨fuel - 1, by omega⟩
    rw [gloLoop, if_pos (by norm_num), if_neg (by simpa using hle)]
    simp
  | succ n ih =>
    intro fuel y ti hf hlt hle
    obtain ⟨g, rfl⟩ : ∃ g, fuel = g + 1 := ⟨fuel - 1, by omega⟩
    rw [gloLoop, if_pos (by norm_num), if_pos (by simpa using hlt 0 (by omega))]
    rw [ih g _ (ti + 60) (by omega) (fun k hk => ?_) (by push_cast at hle; linarith)]
    · simp only [Function.iterate_succ, Function.comp_apply]
      congr 3
      push_cast; ring
    · have := hlt (k + 1) (by omega)
      push_cast at this; linarith

/-- Backward integration. -/
theorem gloLoop_bwd (acc : Fin 3 → ℝ) (tLim : ℝ) : ∀ (n : Nat) (fuel : Nat) (y : Fin 6 → ℝ) (ti : ℝ) (m : Nat),
    n < fuel → m + n < 1500 → (∀ k : Nat, k < n → tLim < ti - 60 * k) → ti - 60 * n ≤ tLim →
    gloLoop acc (-60) tLim fuel y ti m = .ok ((gloStep acc (-60))^[n] y, ti - 60 * n, m + n) := by
  intro n
  induction n with
  | zero =>
    intro fuel y ti m hf _ _ hle
    obtain ⟨g, rfl⟩ : ∃ g, fuel = g + 1 := ⟨fuel - 1, by omega⟩
    rw [gloLoop, if_neg (by norm_num), if_neg (by simpa using hle)]
    simp
  | succ n ih =>
    intro fuel y ti m hf hm hlt hle
    obtain ⟨g, rfl⟩ : ∃ g, fuel = g + 1 := ⟨fuel - 1, by omega⟩
    rw [gloLoop, if_neg (by norm_num), if_pos (by simpa using hlt 0 (by omega)), if_pos (by omega)]
    rw [ih g _ (ti + -60) (m + 1) (by omega) (by omega) (fun k hk => ?_) (by push_cast at hle; linarith)]
    · simp only [Function.iterate_succ, Function.comp_apply]
      congr 3
      · push_cast; ring
      · omega
    · have := hlt (k + 1) (by omega)
      push_cast at this; linarith

theorem ceil_steps {x : ℝ} (n : Nat) (hn : n = ⌈x / 60⌉₊) :
    (∀ k : Nat, k < n → 60 * (k : ℝ) < x) ∧ x ≤ 60 * (n : ℝ) := by
  subst hn
  constructor
  · intro k hk
    have := Nat.lt_ceil.1 hk
    rw [lt_div_iff₀ (by norm_num)] at this
    linarith
  · have := Nat.le_ceil (x / 60)
    rw [div_le_iff₀ (by norm_num)] at this
    linarith

/-- C27: less than half a day from the time of ephemeris the state is what `ceil(|t - toe| / 60)`
fourth order Runge-Kutta steps of the equations of motion of the interface document, 60 s long and
directed towards `t`, make of the position and velocity of the record; the status is 0 inside the
15 minute window and -1 outside. -/
theorem C27_integration (f : NavFrame) (fuel : Nat) (tSec : ℝ) (s0 : Fin 6 → ℝ)
    (hdt : |tSec - f.toeSec| < 43200) (hfuel : ⌈|tSec - f.toeSec| / 60⌉₊ < fuel) :
    gloEcef f fuel tSec s0 = .ok (if |tSec - f.toeSec| > 900 then -1 else 0,
      (rk4 (gloFieldOf f) (if tSec > f.toeSec then 60 else -60))^[⌈|tSec - f.toeSec| / 60⌉₊] (gloStart f)) := by
  have hst : gloStep (gloAcc f) = rk4 (gloFieldOf f) := by
    funext h y; exact step_spec f h y
  have hr : cround ((tSec - f.toeSec) / 86400) = 0 := by
    apply cround_zero
    rw [abs_div, abs_of_pos (show (0 : ℝ) < 86400 by norm_num), div_lt_iff₀ (by norm_num)]
    linarith
  have h900 : (15 * 60 : ℝ) = 900 := by norm_num
  have hN : ⌈|tSec - f.toeSec| / 60⌉₊ ≤ 720 := by
    rw [Nat.ceil_le, div_le_iff₀ (by norm_num)]; push_cast; linarith
  unfold gloEcef
  simp only [hr, h900, zero_mul, sub_zero]
  by_cases heq : f.toeSec = tSec
  · rw [if_pos heq]
    rw [← heq]
    simp [gloX0_spec]
  · rw [if_neg heq]
    obtain ⟨hc1, hc2⟩ := ceil_steps (x := |tSec - f.toeSec|) _ rfl
    generalize ⌈|tSec - f.toeSec| / 60⌉₊ = n at *
    by_cases hgt : tSec > f.toeSec
    · have habs : |tSec - f.toeSec| = tSec - f.toeSec := abs_of_pos (by linarith)
      rw [habs] at hc1 hc2
      simp only [if_pos hgt, H_STEP]
      rw [gloLoop_fwd _ _ _ n fuel _ _ hfuel (fun k hk => by linarith [hc1 k hk]) (by linarith)]
      simp [hst, gloX0_spec]
    · have hlt : tSec < f.toeSec := lt_of_le_of_ne (not_lt.1 hgt) (Ne.symm heq)
      have habs : |tSec - f.toeSec| = f.toeSec - tSec := by rw [abs_of_neg (by linarith)]; ring
      rw [habs] at hc1 hc2
      simp only [if_neg hgt, H_STEP]
      rw [gloLoop_bwd _ _ n fuel _ _ 0 hfuel (by omega) (fun k hk => by linarith [hc1 k hk]) (by linarith)]
      simp only [Res.bind_ok]
      rw [if_neg (by omega)]
      simp [hst, gloX0_spec]

/-- C27: the integration ends less than one step behind `t`, and exactly at `t` when the difference is
a multiple of 60 s. -/
theorem C27_end_time (dt : ℝ) :
    0 ≤ 60 * (⌈|dt| / 60⌉₊ : ℝ) - |dt| ∧ 60 * (⌈|dt| / 60⌉₊ : ℝ) - |dt| < 60 ∧
    (∀ n : ℤ, dt = 60 * n → 60 * (⌈|dt| / 60⌉₊ : ℝ) = |dt|) := by
  have h1 := Nat.le_ceil (|dt| / 60)
  have h2 := Nat.ceil_lt_add_one (show 0 ≤ |dt| / 60 by positivity)
  rw [div_le_iff₀ (by norm_num)] at h1
  refine ⟨by linarith, ?_, ?_⟩
  · have : |dt| / 60 * 60 = |dt| := by field_simp
    nlinarith
  · intro n hn
    have : |dt| / 60 = (n.natAbs : ℝ) := by
      rw [hn, abs_mul, abs_of_pos (show (0 : ℝ) < 60 by norm_num), Nat.cast_natAbs]
      push_cast; field_simp
    rw [this, Nat.ceil_natCast, ← this]; field_simp

/-- C27: whatever the epoch, the integration loop ends after at most 720 steps and the iteration-limit
status 10 is never returned. -/
theorem C27_terminates (f : NavFrame) (fuel : Nat) (tSec : ℝ) (s0 : Fin 6 → ℝ) (hfuel : 720 < fuel) :
    ∃ st y, gloEcef f fuel tSec s0 = .ok (st, y) ∧ st = if |tSec - f.toeSec| > 900 then -1 else 0 := by
  have h900 : (15 * 60 : ℝ) = 900 := by norm_num
  unfold gloEcef
  simp only [h900]
  by_cases heq : f.toeSec = tSec
  · rw [if_pos heq]; exact ⟨_, _, rfl, rfl⟩
  · rw [if_neg heq]
    have hnear := cround_near ((tSec - f.toeSec) / 86400)
    generalize hL : tSec - cround ((tSec - f.toeSec) / 86400) * 86400 = tLim at *
    have hlim : |tLim - f.toeSec| ≤ 43200 := by
      have e : tLim - f.toeSec = ((tSec - f.toeSec) / 86400 - cround ((tSec - f.toeSec) / 86400)) * 86400 := by
        rw [← hL]; field_simp; ring
      rw [e, abs_mul, abs_of_pos (show (0 : ℝ) < 86400 by norm_num)]
      linarith
    obtain ⟨l1, l2⟩ := abs_le.1 hlim
    by_cases hgt : tSec > f.toeSec
    · simp only [if_pos hgt, H_STEP]
      obtain ⟨n, hn, hn1, hn2⟩ : ∃ n : Nat, n ≤ 720 ∧ (∀ k : Nat, k < n → f.toeSec + 60 * k < tLim) ∧
          tLim ≤ f.toeSec + 60 * n := by
        by_cases hle : tLim ≤ f.toeSec
        · exact ⟨0, by omega, by intro k hk; omega, by simpa using hle⟩
        · push Not at hle
          obtain ⟨c1, c2⟩ := ceil_steps (x := tLim - f.toeSec) _ rfl
          refine ⟨_, ?_, fun k hk => by linarith [c1 k hk], by linarith⟩
          rw [Nat.ceil_le, div_le_iff₀ (by norm_num)]; push_cast; linarith
      rw [gloLoop_fwd _ _ _ n fuel _ _ (by omega) hn1 hn2]
      exact ⟨_, _, rfl, rfl⟩
    · simp only [if_neg hgt, H_STEP]
      obtain ⟨n, hn, hn1, hn2⟩ : ∃ n : Nat, n ≤ 720 ∧ (∀ k : Nat, k < n → tLim < f.toeSec - 60 * k) ∧
          f.toeSec - 60 * n ≤ tLim := by
        by_cases hle : f.toeSec ≤ tLim
        · exact ⟨0, by omega, by intro k hk; omega, by simpa using hle⟩
        · push Not at hle
          obtain ⟨c1, c2⟩ := ceil_steps (x := f.toeSec - tLim) _ rfl
          refine ⟨_, ?_, fun k hk => by linarith [c1 k hk], by linarith⟩
          rw [Nat.ceil_le, div_le_iff₀ (by norm_num)]; push_cast; linarith
      rw [gloLoop_bwd _ _ n fuel _ _ 0 (by omega) (by omega) hn1 hn2]
      simp only [Res.bind_ok]
      rw [if_neg (by omega)]
      exact ⟨_, _, rfl, rfl⟩

/-- Non-trivial case: 150 s after the time of ephemeris three steps are taken. -/
example (f : NavFrame) (s0 : Fin 6 → ℝ) (h : f.toe = ⟨58849, 900⟩) :
    gloEcef f 10 1050 s0 = .ok (0, (rk4 (gloFieldOf f) 60)^[3] (gloStart f)) := by
  have ht : f.toeSec = 900 := by simp [NavFrame.toeSec, h]
  have ha : |(1050 : ℝ) - 900| = 150 := by norm_num
  have hc : ⌈(150 / 60 : ℝ)⌉₊ = 3 := by
    rw [Nat.ceil_eq_iff (by norm_num)]; constructor <;> norm_num
  have := C27_integration f 10 1050 s0 (by rw [ht, ha]; norm_num) (by rw [ht, ha, hc]; norm_num)
  rw [this, ht, ha, hc]
  norm_num

/-! ## C28 -/

/-- C28: a request more than 15 minutes from the time of ephemeris is reported (-1) and leaves the
caller's clock untouched; every other request returns 0 and sets it. -/
theorem C28_window (f : NavFrame) (fuel : Nat) (t : Epoch) (o : StateClock) (hfuel : 720 < fuel)
    (hs : f.sys = .glonass) :
    ∃ r, stateNclock f fuel t o = .ok r ∧
      (|elapsed t f.toe| > 900 → r.status = -1 ∧ r.clock = o.clock) ∧
      (|elapsed t f.toe| ≤ 900 → r.status = 0 ∧ r.clock = f.at 0 0 + f.at 0 1 * elapsed t f.toe) := by
  obtain ⟨st, y, h1, h2⟩ := C27_terminates f fuel (ref2toe f t) o.state hfuel
  have hex := C22_toe_exact f t
  rw [hex] at h2
  unfold stateNclock
  rw [hs]
  simp only
  unfold gloStateNclock
  rw [h1]
  simp only [Res.bind_ok]
  by_cases hd : |elapsed t f.toe| > 900
  · rw [if_pos hd] at h2
    rw [if_pos (by rw [h2]; norm_num)]
    exact ⟨_, rfl, fun _ => ⟨h2, rfl⟩, fun h => absurd h (not_le.2 hd)⟩
  · rw [if_neg hd] at h2
    rw [if_neg (by rw [h2]; norm_num)]
    refine ⟨_, rfl, fun h => absurd h hd, fun h => ⟨rfl, ?_⟩⟩
    unfold gloClock
    rw [hex]
    have : cround (elapsed t f.toe / 86400) = 0 := by
      apply cround_zero
      rw [abs_div, abs_of_pos (show (0 : ℝ) < 86400 by norm_num), div_lt_iff₀ (by norm_num)]
      linarith
    simp only [this, zero_mul, sub_zero]
    rfl

/-- C28: outside the window the caller's state is overwritten all the same, with the state extrapolated
as in C27 (less than half a day away). -/
theorem C28_state_overwritten (f : NavFrame) (fuel : Nat) (t : Epoch) (o : StateClock) (hs : f.sys = .glonass)
    (hdt : 900 < |elapsed t f.toe|) (hdt2 : |elapsed t f.toe| < 43200) (hfuel : 720 < fuel) :
    stateNclock f fuel t o = .ok ⟨-1,
      (rk4 (gloFieldOf f) (if elapsed t f.toe > 0 then 60 else -60))^[⌈|elapsed t f.toe| / 60⌉₊] (gloStart f), o.clock⟩ := by
  have hex := C22_toe_exact f t
  have hN : ⌈|elapsed t f.toe| / 60⌉₊ ≤ 720 := by
    rw [Nat.ceil_le, div_le_iff₀ (by norm_num)]; push_cast; linarith
  have h := C27_integration f fuel (ref2toe f t) o.state (by rw [hex]; exact hdt2) (by rw [hex]; omega)
  rw [hex, if_pos hdt] at h
  unfold stateNclock
  rw [hs]
  simp only
  unfold gloStateNclock
  rw [h]
  have : (ref2toe f t > f.toeSec) ↔ (elapsed t f.toe > 0) := by rw [← hex]; constructor <;> intro h <;> linarith
  simp only [this]
  rfl

/-! ## C46 -/

/-- C46 holds for epochs a whole number of 60 s steps from the time of ephemeris: the number of steps
times their length is the elapsed time. -/
theorem C46_epoch_partial (f : NavFrame) (fuel : Nat) (n : ℤ) (s0 : Fin 6 → ℝ) (hn : n.natAbs < 720)
    (hfuel : 720 < fuel) :
    gloEcef f fuel (f.toeSec + 60 * n) s0 = .ok (if n.natAbs > 15 then -1 else 0,
      (rk4 (gloFieldOf f) (if n > 0 then 60 else -60))^[n.natAbs] (gloStart f)) := by
  have e : f.toeSec + 60 * (n : ℝ) - f.toeSec = 60 * n := by ring
  have ha : |60 * (n : ℝ)| = 60 * (n.natAbs : ℝ) := by
    rw [abs_mul, abs_of_pos (show (0 : ℝ) < 60 by norm_num), Nat.cast_natAbs]; push_cast; rfl
  have hc : ⌈60 * (n.natAbs : ℝ) / 60⌉₊ = n.natAbs := by
    rw [mul_div_cancel_left₀ _ (by norm_num)]; exact Nat.ceil_natCast _
  have hn' : (n.natAbs : ℝ) < 720 := by exact_mod_cast hn
  have h := C27_integration f fuel (f.toeSec + 60 * n) s0 (by rw [e, ha]; linarith) (by rw [e, ha, hc]; omega)
  rw [e, ha, hc] at h
  have h1 : (60 * (n.natAbs : ℝ) > 900) ↔ n.natAbs > 15 := by
    constructor
    · intro h; have : (15 : ℝ) < n.natAbs := by linarith
      exact_mod_cast this
    · intro h; have : (15 : ℝ) < n.natAbs := by exact_mod_cast h
      linarith
  have h2 : (f.toeSec + 60 * (n : ℝ) > f.toeSec) ↔ n > 0 := by
    constructor
    · intro h; have : (0 : ℝ) < n := by linarith
      exact_mod_cast this
    · intro h; have : (0 : ℝ) < n := by exact_mod_cast h
      linarith
  rw [h]
  simp only [h1, h2]

/-- C46 fails between the steps: all epochs within the same 60 s after the time of ephemeris get one
and the same state, although satellites move kilometres per second. -/
theorem C46_quantised (f : NavFrame) (fuel : Nat) (k : Nat) (t t' : ℝ) (s0 : Fin 6 → ℝ) (hk : k < 15) (hfuel : 720 < fuel)
    (h1 : f.toeSec + 60 * k < t) (h2 : t ≤ f.toeSec + 60 * (k + 1))
    (h1' : f.toeSec + 60 * k < t') (h2' : t' ≤ f.toeSec + 60 * (k + 1)) :
    gloEcef f fuel t s0 = gloEcef f fuel t' s0 := by
  have hk' : (k : ℝ) + 1 ≤ 15 := by
    have : k + 1 ≤ 15 := hk
    exact_mod_cast this
  have key : ∀ t, f.toeSec + 60 * k < t → t ≤ f.toeSec + 60 * (k + 1) →
      gloEcef f fuel t s0 = .ok (0, (rk4 (gloFieldOf f) 60)^[k + 1] (gloStart f)) := by
    intro t h1 h2
    have hk0 : (0 : ℝ) ≤ k := Nat.cast_nonneg k
    have habs : |t - f.toeSec| = t - f.toeSec := abs_of_pos (by linarith)
    have hc : ⌈(t - f.toeSec) / 60⌉₊ = k + 1 := by
      rw [Nat.ceil_eq_iff (by omega)]
      constructor
      · rw [lt_div_iff₀ (by norm_num)]; simp only [Nat.add_sub_cancel]; linarith
      · rw [div_le_iff₀ (by norm_num)]; push_cast; linarith
    have h := C27_integration f fuel t s0 (by rw [habs]; linarith) (by rw [habs, hc]; omega)
    rw [h, habs, hc, if_neg (by linarith), if_pos (by linarith)]
  rw [key t h1 h2, key t' h1' h2']

/-- C46 fails more than half a day away: the state returned is that of the record itself. -/
theorem C46_far_away_frozen (f : NavFrame) (fuel : Nat) (t : ℝ) (s0 : Fin 6 → ℝ) (hfuel : 0 < fuel)
    (h1 : f.toeSec + 43200 < t) (h2 : t < f.toeSec + 86400) :
    gloEcef f fuel t s0 = .ok (-1, gloStart f) := by
  have hr : cround ((t - f.toeSec) / 86400) = 1 := by
    unfold cround
    rw [if_pos (div_nonneg (by linarith) (by norm_num))]
    have : ⌊(t - f.toeSec) / 86400 + 1 / 2⌋ = 1 := by
      rw [Int.floor_eq_iff]
      constructor
      · have : (1 / 2 : ℝ) ≤ (t - f.toeSec) / 86400 := by rw [le_div_iff₀ (by norm_num)]; linarith
        push_cast; linarith
      · have : (t - f.toeSec) / 86400 < 1 := by rw [div_lt_iff₀ (by norm_num)]; linarith
        push_cast; linarith
    rw [this]; simp
  unfold gloEcef
  simp only [hr]
  rw [if_neg (by linarith), if_pos (show t > f.toeSec by linarith),
    if_pos (show |t - f.toeSec| > 15 * 60 by rw [abs_of_pos] <;> linarith)]
  have h60 : H_STEP = 60 := rfl
  rw [h60, gloLoop_fwd _ _ _ 0 fuel _ _ hfuel (by intro k hk; omega) (by push_cast; linarith)]
  rfl

/-! ## C29 -/

theorem cround_eq {x : ℝ} (n : ℤ) (h1 : (n : ℝ) - 1 / 2 ≤ x) (h2 : x < n + 1 / 2) (h0 : 0 ≤ x) : cround x = n := by
  unfold cround
  rw [if_pos h0]
  have : ⌊x + 1 / 2⌋ = n := by rw [Int.floor_eq_iff]; constructor <;> linarith
  rw [this]

theorem cround_mono {x y : ℝ} (h : x ≤ y) : cround x ≤ cround y := by
  unfold cround
  split
  · rename_i hx
    rw [if_pos (hx.trans h)]
    exact_mod_cast Int.floor_mono (by linarith)
  · rename_i hx
    push Not at hx
    have hnx : (0 : ℤ) ≤ ⌊-x + 1 / 2⌋ := Int.floor_nonneg.2 (by linarith)
    split
    · rename_i hy
      have hny : (0 : ℤ) ≤ ⌊y + 1 / 2⌋ := Int.floor_nonneg.2 (by linarith)
      have a : (0 : ℝ) ≤ (⌊-x + 1 / 2⌋ : ℝ) := by exact_mod_cast hnx
      have b : (0 : ℝ) ≤ (⌊y + 1 / 2⌋ : ℝ) := by exact_mod_cast hny
      linarith
    · have : (⌊-y + 1 / 2⌋ : ℤ) ≤ ⌊-x + 1 / 2⌋ := Int.floor_mono (by linarith)
      have : (⌊-y + 1 / 2⌋ : ℝ) ≤ ⌊-x + 1 / 2⌋ := by exact_mod_cast this
      linarith

/-- IS-GPS-200, 20.3.3.3.1.3: nominal values of the user range accuracy in meters. -/
noncomputable def specUra : ℕ → ℝ
  | 1 => 2.8
  | 3 => 5.7
  | 5 => 11.3
  | n => if n ≤ 6 then 2 ^ (1 + n / 2) else 2 ^ (n - 2)

theorem sqrt2_bounds : (1.414 : ℝ) < Real.sqrt 2 ∧ Real.sqrt 2 < 1.4143 := by
  constructor
  · rw [Real.lt_sqrt (by norm_num)]; norm_num
  · rw [Real.sqrt_lt' (by norm_num)]; norm_num

theorem pow_half (n : ℕ) : (2 : ℝ) ^ (1 + ((2 * n + 1 : ℕ) : ℝ) / 2) = 2 ^ (n + 1) * Real.sqrt 2 := by
  rw [Real.sqrt_eq_rpow, ← Real.rpow_natCast 2 (n + 1), ← Real.rpow_add (by norm_num)]
  congr 1; push_cast; ring

theorem pow_even (n : ℕ) : (2 : ℝ) ^ (1 + ((2 * n : ℕ) : ℝ) / 2) = 2 ^ (n + 1) := by
  rw [← Real.rpow_natCast 2 (n + 1)]
  congr 1; push_cast; ring

theorem pow_big (n : ℕ) : (2 : ℝ) ^ (((n + 2 : ℕ) : ℝ) - 2) = 2 ^ n := by
  rw [← Real.rpow_natCast 2 n]
  congr 1; push_cast; ring

/-- C29: the documented accuracy for every index with a documented value, and "no accuracy" (the
largest float, (2 - 2^-23) 2^127) for index 15. -/
theorem C29_values (f : NavFrame) (n : ℕ) (hn : f.d 23 = n) :
    (n < 15 → gpsUra f = specUra n) ∧ (15 ≤ n → gpsUra f = 340282346638528859811704183484516925440) := by
  obtain ⟨s1, s2⟩ := sqrt2_bounds
  constructor
  · intro h
    unfold gpsUra
    simp only [hn]
    have odd : ∀ (k : ℕ) (v : ℤ), 2 * k + 1 ≤ 6 → (v : ℝ) - 1 / 2 ≤ 2 ^ (k + 1) * 1.414 * 10 →
        (2 : ℝ) ^ (k + 1) * 1.4143 * 10 ≤ v + 1 / 2 → cround ((2 : ℝ) ^ (1 + ((2 * k + 1 : ℕ) : ℝ) / 2) * 10) / 10 = v / 10 := by
      intro k v _ h1 h2
      rw [pow_half]
      have hp : (0 : ℝ) < 2 ^ (k + 1) := by positivity
      rw [cround_eq v ?_ ?_ (by positivity)]
      · nlinarith
      · nlinarith
    have even : ∀ k : ℕ, cround ((2 : ℝ) ^ (1 + ((2 * k : ℕ) : ℝ) / 2) * 10) / 10 = 2 ^ (k + 1) := by
      intro k
      rw [pow_even]
      have : (2 : ℝ) ^ (k + 1) * 10 = ((2 ^ (k + 1) * 10 : ℤ) : ℝ) := by push_cast; rfl
      rw [this, cround_int]; push_cast; field_simp
    have big : ∀ k : ℕ, cround ((2 : ℝ) ^ (((k + 2 : ℕ) : ℝ) - 2) * 10) / 10 = 2 ^ k := by
      intro k
      rw [pow_big]
      have : (2 : ℝ) ^ k * 10 = ((2 ^ k * 10 : ℤ) : ℝ) := by push_cast; rfl
      rw [this, cround_int]; push_cast; field_simp
    by_cases h6 : n ≤ 6
    · rw [if_pos (by exact_mod_cast h6)]
      rcases Nat.even_or_odd' n with ⟨k, rfl | rfl⟩
      · rw [even]
        have : k ≤ 3 := by omega
        interval_cases k <;> norm_num [specUra]
      · have : k ≤ 2 := by omega
        interval_cases k
        · rw [odd 0 28] <;> norm_num [specUra]
        · rw [odd 1 57] <;> norm_num [specUra]
        · rw [odd 2 113] <;> norm_num [specUra]
    · rw [if_neg (by exact_mod_cast h6), if_pos (by exact_mod_cast h)]
      obtain ⟨k, rfl⟩ : ∃ k, n = k + 2 := ⟨n - 2, by omega⟩
      rw [big]
      have : k < 13 := by omega
      have : 4 < k := by omega
      interval_cases k <;> norm_num [specUra]
  · intro h
    unfold gpsUra
    simp only [hn]
    have : (15 : ℝ) ≤ n := by exact_mod_cast h
    rw [if_neg (by linarith), if_neg (by linarith)]
    unfold FLT_MAX
    norm_num

/-- C29: a larger index never gives a smaller accuracy value, for any two contents of the record. -/
theorem C29_monotone (f g : NavFrame) (h : f.d 23 ≤ g.d 23) : gpsUra f ≤ gpsUra g := by
  have hb : ∀ x : ℝ, x < 15 → cround ((2 : ℝ) ^ (x - 2) * 10) / 10 ≤ FLT_MAX := by
    intro x hx
    have h1 : (2 : ℝ) ^ (x - 2) ≤ 2 ^ (13 : ℝ) := Real.rpow_le_rpow_of_exponent_le (by norm_num) (by linarith)
    have h2 : (2 : ℝ) ^ (13 : ℝ) = ((8192 : ℤ) : ℝ) := by
      rw [show (13 : ℝ) = ((13 : ℕ) : ℝ) by norm_num, Real.rpow_natCast]; norm_num
    rw [h2] at h1
    have h3 := cround_mono (show (2 : ℝ) ^ (x - 2) * 10 ≤ ((81920 : ℤ) : ℝ) by push_cast at h1 ⊢; linarith)
    rw [cround_int] at h3
    have : (8192 : ℝ) ≤ FLT_MAX := by unfold FLT_MAX; norm_num
    push_cast at h3
    linarith
  have ha : ∀ x : ℝ, x ≤ 6 → cround ((2 : ℝ) ^ (1 + x / 2) * 10) / 10 ≤ 16 := by
    intro x hx
    have h1 : (2 : ℝ) ^ (1 + x / 2) ≤ 2 ^ (4 : ℝ) := Real.rpow_le_rpow_of_exponent_le (by norm_num) (by linarith)
    have h2 : (2 : ℝ) ^ (4 : ℝ) = ((16 : ℤ) : ℝ) := by
      rw [show (4 : ℝ) = ((4 : ℕ) : ℝ) by norm_num, Real.rpow_natCast]; norm_num
    rw [h2] at h1
    have h3 := cround_mono (show (2 : ℝ) ^ (1 + x / 2) * 10 ≤ ((160 : ℤ) : ℝ) by push_cast at h1 ⊢; linarith)
    rw [cround_int] at h3
    push_cast at h3
    linarith
  have hc : ∀ x : ℝ, 6 < x → 16 ≤ cround ((2 : ℝ) ^ (x - 2) * 10) / 10 := by
    intro x hx
    have h1 : (2 : ℝ) ^ (4 : ℝ) ≤ 2 ^ (x - 2) := Real.rpow_le_rpow_of_exponent_le (by norm_num) (by linarith)
    have h2 : (2 : ℝ) ^ (4 : ℝ) = ((16 : ℤ) : ℝ) := by
      rw [show (4 : ℝ) = ((4 : ℕ) : ℝ) by norm_num, Real.rpow_natCast]; norm_num
    rw [h2] at h1
    have h3 := cround_mono (show ((160 : ℤ) : ℝ) ≤ (2 : ℝ) ^ (x - 2) * 10 by push_cast at h1 ⊢; linarith)
    rw [cround_int] at h3
    push_cast at h3
    linarith
  have h8192 : (16 : ℝ) ≤ FLT_MAX := by unfold FLT_MAX; norm_num
  unfold gpsUra
  simp only
  by_cases a1 : f.d 23 ≤ 6
  · rw [if_pos a1]
    by_cases b1 : g.d 23 ≤ 6
    · rw [if_pos b1]
      have h1 : (2 : ℝ) ^ (1 + f.d 23 / 2) ≤ 2 ^ (1 + g.d 23 / 2) :=
        Real.rpow_le_rpow_of_exponent_le (by norm_num) (by linarith)
      have := cround_mono (show (2 : ℝ) ^ (1 + f.d 23 / 2) * 10 ≤ 2 ^ (1 + g.d 23 / 2) * 10 by linarith)
      linarith
    · rw [if_neg b1]
      push Not at b1
      by_cases b2 : g.d 23 < 15
      · rw [if_pos b2]; exact (ha _ a1).trans (hc _ b1)
      · rw [if_neg b2]; exact (ha _ a1).trans h8192
  · rw [if_neg a1]
    push Not at a1
    rw [if_neg (show ¬ g.d 23 ≤ 6 by linarith)]
    by_cases a2 : f.d 23 < 15
    · rw [if_pos a2]
      by_cases b2 : g.d 23 < 15
      · rw [if_pos b2]
        have h1 : (2 : ℝ) ^ (f.d 23 - 2) ≤ 2 ^ (g.d 23 - 2) :=
          Real.rpow_le_rpow_of_exponent_le (by norm_num) (by linarith)
        have := cround_mono (show (2 : ℝ) ^ (f.d 23 - 2) * 10 ≤ 2 ^ (g.d 23 - 2) * 10 by linarith)
        linarith
      · rw [if_neg b2]; exact hb _ a2
    · rw [if_neg a2, if_neg (by linarith)]

/-- C29: strictly increasing on the indices 0 .. 15. -/
theorem C29_strict (f g : NavFrame) (m n : ℕ) (hm : f.d 23 = m) (hn : g.d 23 = n) (h : m < n) (h15 : n ≤ 15) :
    gpsUra f < gpsUra g := by
  have hstep : ∀ k, k < 14 → specUra k < specUra (k + 1) := by
    intro k hk; interval_cases k <;> norm_num [specUra]
  have hmono : ∀ a b, a < b → b < 15 → specUra a < specUra b := by
    intro a b hab hb
    induction b with
    | zero => omega
    | succ b ih =>
      rcases Nat.lt_or_ge a b with h | h
      · exact (ih h (by omega)).trans (hstep b (by omega))
      · have : a = b := by omega
        subst this; exact hstep a (by omega)
  rw [(C29_values f m hm).1 (by omega)]
  rcases Nat.lt_or_ge n 15 with h1 | h1
  · rw [(C29_values g n hn).1 h1]; exact hmono m n h h1
  · rw [(C29_values g n hn).2 h1]
    have : specUra m ≤ specUra 14 := by
      rcases Nat.lt_or_ge m 14 with h | h
      · exact (hmono m 14 h (by omega)).le
      · have : m = 14 := by omega
        rw [this]
    refine this.trans_lt ?_
    norm_num [specUra]

end Ggnss
