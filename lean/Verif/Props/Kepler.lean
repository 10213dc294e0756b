import Verif.Spec.Orbit
import Verif.Props.NavSearch
import Mathlib.Tactic.Linarith
import Mathlib.Tactic.LinearCombination
import Mathlib.Tactic.Ring
import Mathlib.Tactic.FieldSimp
import Mathlib.Tactic.Positivity
import Mathlib.Tactic.NormNum
import Mathlib.Tactic.FinCases
import Mathlib.Tactic.IntervalCases
import Mathlib.Tactic.GCongr
import Mathlib.Analysis.Real.Pi.Bounds
import Mathlib.Analysis.SpecialFunctions.Trigonometric.Bounds
/-!
# C22 - C26: reference times, Kepler orbits, clock correction
-/
namespace Ggnss

/-! ## C22 -/

/-- C22: the seconds used by the orbit evaluation are exact, whatever the days of `t` and of the
reference. -/
theorem C22_toe_exact (f : NavFrame) (t : Epoch) : ref2toe f t - f.toeSec = elapsed t f.toe := by
  unfold ref2toe elapsed Epoch.secs NavFrame.toeSec DateTime.total
  simp only
  split
  · push_cast; ring
  · rename_i h
    have h0 : t.mjd = f.toe.mjd := by omega
    rw [h0]; push_cast; ring

theorem C22_toc_exact (f : NavFrame) (t : Epoch) : ref2toc f t - f.tocSec = elapsed t f.toc := by
  unfold ref2toc elapsed Epoch.secs NavFrame.tocSec DateTime.total
  simp only
  split
  · push_cast; ring
  · rename_i h
    have h0 : t.mjd = f.toc.mjd := by omega
    rw [h0]; push_cast; ring

/-- C22: the reference seconds derived from a record are seconds of day, for every non-negative second
of week. -/
theorem C22_ref_in_day (wk sow : Int) (h : 0 ≤ sow) :
    0 ≤ (DateTime.ofGpsWeek wk sow).sec ∧ (DateTime.ofGpsWeek wk sow).sec < 86400 := by
  unfold DateTime.ofGpsWeek
  exact ⟨Int.tmod_nonneg _ h, Int.tmod_lt_of_pos _ (by norm_num)⟩

/-- C22: the state and clock of a frame only depend on the time elapsed since the references: two
frames of the same contents whose references and query lie on other days give the same result. -/
theorem C22_day_independent (f g : NavFrame) (fuel : Nat) (t u : Epoch) (o : StateClock)
    (hs : g.sys = f.sys) (hd : g.data = f.data) (hsec : g.toe.sec = f.toe.sec)
    (hE : elapsed u g.toe = elapsed t f.toe) (hC : elapsed u g.toc = elapsed t f.toc) :
    stateNclock g fuel u o = stateNclock f fuel t o := by
  have hd' : ∀ i, g.d i = f.d i := fun i => by unfold NavFrame.d; rw [hd]
  have e1 : ref2toe g u - g.toeSec = ref2toe f t - f.toeSec := by rw [C22_toe_exact, C22_toe_exact, hE]
  have e2 : ref2toc g u - g.tocSec = ref2toc f t - f.tocSec := by rw [C22_toc_exact, C22_toc_exact, hC]
  have hm : ∀ k x, meanAnomaly k g x = meanAnomaly k f x := fun k x => by unfold meanAnomaly; simp only [hd']
  have hp : ∀ k x y, keplerPos k g x y = keplerPos k f x y := fun k x y => by unfold keplerPos; simp only [hd']
  have hk : ∀ k, keplerStateNclock k g u o = keplerStateNclock k f t o := by
    intro k
    unfold keplerStateNclock kepler2state svClock
    simp only [hd', e1, e2, hm, hp]
  have e3 : g.toeSec = f.toeSec := by unfold NavFrame.toeSec; rw [hsec]
  have e4 : ref2toe g u = ref2toe f t := by linarith
  have hg : gloStateNclock g fuel u o = gloStateNclock f fuel t o := by
    unfold gloStateNclock gloEcef gloClock gloX0 gloAcc
    simp only [hd', e3, e4]
  unfold stateNclock
  rw [hs]
  simp only [hk, hg]

/-! ## C24 -/

theorem at_eq (f : NavFrame) (j k : Nat) : f.at j k = f.d (specIndex j k) := rfl

theorem meanAnomaly_spec (k : KeplerConst) (f : NavFrame) (dt : ℝ) :
    meanAnomaly k f dt = (elements f).meanAnomaly k.mi dt := by
  unfold meanAnomaly Elements.meanAnomaly elements
  simp only [at_eq, specIndex]
  norm_num
  left
  congr 2
  ring

/-- The loop ends with the last two iterates close to each other, or at 1001 iterations. -/
theorem keplerLoop_inv (e M : ℝ) : ∀ (n i : Nat) (E Ek : ℝ), 1001 - i = n → i ≤ 1001 →
    (E = Real.sin Ek * e + M ∨ (Ek = 0 ∧ E = M)) →
    (keplerLoop e M i E Ek).2 ≤ 1001 ∧
    ((keplerLoop e M i E Ek).2 < 1001 → ∃ Ek', |(keplerLoop e M i E Ek).1 - Ek'| ≤ KEPLER_LIMIT ∧
      ((keplerLoop e M i E Ek).1 = Real.sin Ek' * e + M ∨ (Ek' = 0 ∧ (keplerLoop e M i E Ek).1 = M))) := by
  intro n
  induction n with
  | zero =>
    intro i E Ek hn hi h
    rw [keplerLoop]
    have : i = 1001 := by omega
    subst this
    simp
  | succ n ih =>
    intro i E Ek hn hi h
    rw [keplerLoop]
    split
    · exact ih (i + 1) _ _ (by omega) (by omega) (Or.inl rfl)
    · rename_i hc
      refine ⟨hi, fun hlt => ⟨Ek, ?_, h⟩⟩
      simp only [not_and_or, not_lt] at hc
      rcases hc with hc | hc
      · exact hc
      · simp at hlt; omega

theorem sin_lip (a b : ℝ) : |Real.sin a - Real.sin b| ≤ |a - b| := by
  rw [Real.sin_sub_sin, abs_mul, abs_mul]
  have h1 : |Real.sin ((a - b) / 2)| ≤ |(a - b) / 2| := Real.abs_sin_le_abs
  have h2 : |Real.cos ((a + b) / 2)| ≤ 1 := Real.abs_cos_le_one _
  have h3 : |(a - b) / 2| = |a - b| / 2 := by rw [abs_div]; norm_num
  rw [h3] at h1
  have h4 : |(2 : ℝ)| = 2 := by norm_num
  rw [h4]
  nlinarith [abs_nonneg (Real.sin ((a - b) / 2)), abs_nonneg (a - b), abs_nonneg (Real.cos ((a + b) / 2))]

theorem kepler_residual {e M E : ℝ} {i : Nat} (h : keplerLoop e M 0 M 0 = (E, i)) (hi : i < 1001) :
    SolvesKepler e M E (|e| * 1e-14) := by
  obtain ⟨_, h2⟩ := keplerLoop_inv e M 1001 0 M 0 rfl (by norm_num) (Or.inr ⟨rfl, rfl⟩)
  rw [h] at h2
  obtain ⟨Ek, h3, h4⟩ := h2 hi
  simp only at h3 h4
  have hl : KEPLER_LIMIT = 1e-14 := rfl
  rw [hl] at h3
  unfold SolvesKepler
  rcases h4 with h4 | ⟨h4, h5⟩
  · have : E - e * Real.sin E - M = e * (Real.sin Ek - Real.sin E) := by rw [h4]; ring_nf
    rw [this, abs_mul]
    refine mul_le_mul_of_nonneg_left ?_ (abs_nonneg _)
    calc _ ≤ |Ek - E| := sin_lip _ _
      _ = |E - Ek| := abs_sub_comm _ _
      _ ≤ _ := h3
  · subst h4; subst h5
    have : E - e * Real.sin E - E = e * (-Real.sin E) := by ring
    rw [this, abs_mul, abs_neg]
    refine mul_le_mul_of_nonneg_left ?_ (abs_nonneg _)
    calc _ ≤ |E| := Real.abs_sin_le_abs
      _ ≤ _ := by simpa using h3

/-- Convergence of the fixed point iteration. -/
theorem keplerLoop_conv (e M : ℝ) (he : 0 ≤ e) : ∀ (n i : Nat) (E Ek : ℝ), 1001 - i = n → i ≤ 1001 →
    (i = 0 ∨ (E = Real.sin Ek * e + M ∧ |E - Ek| ≤ e ^ i)) → (i = 0 → E = M) →
    ∀ m, i ≤ m → e ^ m ≤ KEPLER_LIMIT → 0 < m → (keplerLoop e M i E Ek).2 ≤ m := by
  intro n
  induction n with
  | zero =>
    intro i E Ek hn hi h h0 m hm hle hpos
    rw [keplerLoop]
    have : i = 1001 := by omega
    subst this
    simp [hm]
  | succ n ih =>
    intro i E Ek hn hi h h0 m hm hle hpos
    rw [keplerLoop]
    split
    · rename_i hc
      have hlt : i < m := by
        rcases h with h | ⟨_, h⟩
        · omega
        · rcases Nat.lt_or_ge i m with h1 | h1
          · exact h1
          · have : i = m := le_antisymm hm h1
            subst this
            linarith [hc.1]
      refine ih (i + 1) _ _ (by omega) (by omega) (Or.inr ⟨rfl, ?_⟩) (by omega) m hlt hle hpos
      rcases h with h | ⟨h, h1⟩
      · subst h
        have hE := h0 rfl
        rw [hE]
        have : Real.sin M * e + M - M = e * Real.sin M := by ring
        rw [this, abs_mul, abs_of_nonneg he]
        have := Real.abs_sin_le_one M
        simp only [zero_add, pow_one]
        calc e * |Real.sin M| ≤ e * 1 := mul_le_mul_of_nonneg_left this he
          _ = e := mul_one e
      · have : Real.sin E * e + M - E = e * (Real.sin E - Real.sin Ek) := by
          linear_combination (-1 : ℝ) * h
        rw [this, abs_mul, abs_of_nonneg he, pow_succ]
        have h2 := sin_lip E Ek
        have h3 : e * |Real.sin E - Real.sin Ek| ≤ e * e ^ i := mul_le_mul_of_nonneg_left (h2.trans h1) he
        linarith
    · exact hm

/-- C24: on success the eccentric anomaly reported solves Kepler's equation, for the mean anomaly of
the record at `t`, up to |e|·1e-14; on failure the status is 1 and the caller's variables are
untouched. -/
theorem C24_kepler_solved (k : KeplerConst) (f : NavFrame) (tSec : ℝ) (o : KeplerOut) :
    ((kepler2state k f tSec o).status = 0 →
      SolvesKepler (elements f).e ((elements f).meanAnomaly k.mi (tSec - f.toeSec)) (kepler2state k f tSec o).Ek
        (|(elements f).e| * 1e-14)) ∧
    ((kepler2state k f tSec o).status ≠ 0 →
      (kepler2state k f tSec o).status = 1 ∧ (kepler2state k f tSec o).state = o.state ∧
      (kepler2state k f tSec o).Ek = o.Ek) := by
  unfold kepler2state
  simp only [← meanAnomaly_spec]
  have he : (elements f).e = f.d 8 := rfl
  rw [he]
  split
  · exact ⟨fun h => by simp at h, fun _ => ⟨rfl, rfl, rfl⟩⟩
  · rename_i h
    refine ⟨fun _ => ?_, fun h => by simp at h⟩
    exact kepler_residual (i := (keplerLoop (f.d 8) (meanAnomaly k f (tSec - f.toeSec)) 0
      (meanAnomaly k f (tSec - f.toeSec)) 0).2) rfl (by omega)

/-- C24: the iteration never takes more than 1001 steps. -/
theorem C24_bounded (e M : ℝ) : (keplerLoop e M 0 M 0).2 ≤ 1001 :=
  (keplerLoop_inv e M 1001 0 M 0 rfl (by norm_num) (Or.inr ⟨rfl, rfl⟩)).1

/-- C24: eccentricities up to 0.95 always succeed, in fewer than 700 steps. -/
theorem C24_converges (k : KeplerConst) (f : NavFrame) (tSec : ℝ) (o : KeplerOut)
    (h0 : 0 ≤ (elements f).e) (h1 : (elements f).e ≤ 0.95) : (kepler2state k f tSec o).status = 0 := by
  have he : (elements f).e = f.d 8 := rfl
  rw [he] at h0 h1
  have hpow : f.d 8 ^ 700 ≤ KEPLER_LIMIT := by
    calc f.d 8 ^ 700 ≤ (0.95 : ℝ) ^ 700 := pow_le_pow_left₀ h0 h1 _
      _ = ((0.95 : ℝ) ^ 70) ^ 10 := by rw [← pow_mul]
      _ ≤ (1 / 32 : ℝ) ^ 10 := pow_le_pow_left₀ (by positivity) (by norm_num) _
      _ ≤ _ := by unfold KEPLER_LIMIT; norm_num
  have := keplerLoop_conv (f.d 8) (meanAnomaly k f (tSec - f.toeSec)) h0 1001 0 _ 0 rfl (by norm_num) (Or.inl rfl)
    (fun _ => rfl) 700 (by norm_num) hpow (by norm_num)
  unfold kepler2state
  simp only
  rw [if_neg (by omega)]

/-- C24: for 0 ≤ e < 1 the reported anomaly is within e·1e-14/(1-e) of every exact solution. -/
theorem C24_near_exact (e M E E' : ℝ) (h0 : 0 ≤ e) (h1 : e < 1) (hE : SolvesKepler e M E (|e| * 1e-14))
    (hE' : SolvesKepler e M E' 0) : |E - E'| ≤ e * 1e-14 / (1 - e) := by
  unfold SolvesKepler at hE hE'
  rw [abs_of_nonneg h0] at hE
  have h2 : E' - e * Real.sin E' - M = 0 := abs_nonpos_iff.1 hE'
  have h3 := sin_lip E E'
  have h4 : |E - E'| ≤ e * 1e-14 + e * |E - E'| := by
    have : E - E' = (E - e * Real.sin E - M) - (E' - e * Real.sin E' - M) + e * (Real.sin E - Real.sin E') := by ring
    calc |E - E'| = |(E - e * Real.sin E - M) - (E' - e * Real.sin E' - M) + e * (Real.sin E - Real.sin E')| := by
          rw [← this]
      _ ≤ |(E - e * Real.sin E - M)| + |e * (Real.sin E - Real.sin E')| := by rw [h2, sub_zero]; exact abs_add_le _ _
      _ ≤ _ := by rw [abs_mul, abs_of_nonneg h0]; exact add_le_add hE (mul_le_mul_of_nonneg_left h3 h0)
  rw [le_div_iff₀ (by linarith)]
  nlinarith

/-! ## C25 -/

theorem rot_norm (a b x y : ℝ) :
    let p := (rotZ a).mulVec ((rotX b).mulVec ![x, y, 0])
    p 0 ^ 2 + p 1 ^ 2 + p 2 ^ 2 = x ^ 2 + y ^ 2 := by
  simp only [rotZ, rotX, Matrix.mulVec, dotProduct, Fin.sum_univ_three, Matrix.of_apply, Matrix.cons_val', Matrix.cons_val_zero,
    Matrix.cons_val_one, Matrix.cons_val_two, Matrix.head_cons, Matrix.tail_cons]
  have h1 := Real.sin_sq_add_cos_sq a
  have h2 := Real.sin_sq_add_cos_sq b
  have e1 : Real.cos a ^ 2 = 1 - Real.sin a ^ 2 := by linarith
  have e2 : Real.cos b ^ 2 = 1 - Real.sin b ^ 2 := by linarith
  ring_nf
  simp only [e1, e2]
  ring

theorem trueAnomaly_arg (e E : ℝ) (h0 : 0 ≤ e) (h1 : e < 1) :
    IsTrueAnomaly e E (Complex.arg ⟨(Real.cos E - e) / (1 - e * Real.cos E),
      (Real.sqrt (1 - e * e) * Real.sin E) / (1 - e * Real.cos E)⟩) := by
  have hc : Real.cos E ≤ 1 := Real.cos_le_one E
  have hD : 0 < 1 - e * Real.cos E := by nlinarith
  set z : ℂ := ⟨(Real.cos E - e) / (1 - e * Real.cos E), (Real.sqrt (1 - e * e) * Real.sin E) / (1 - e * Real.cos E)⟩ with hz
  have hsq : Real.sqrt (1 - e * e) ^ 2 = 1 - e * e := Real.sq_sqrt (by nlinarith)
  have hn : ‖z‖ = 1 := by
    have hs : Complex.normSq z = 1 := by
      rw [Complex.normSq_apply, hz]
      simp only
      have h2 := Real.sin_sq_add_cos_sq E
      rw [div_mul_div_comm, div_mul_div_comm, ← add_div, div_eq_one_iff_eq (by positivity)]
      have : Real.sqrt (1 - e * e) * Real.sin E * (Real.sqrt (1 - e * e) * Real.sin E) =
        Real.sqrt (1 - e * e) ^ 2 * Real.sin E ^ 2 := by ring
      rw [this, hsq]
      have h3 : Real.sin E ^ 2 = 1 - Real.cos E ^ 2 := by linarith
      rw [h3]; ring
    have : ‖z‖ ^ 2 = 1 := by rw [← Complex.normSq_eq_norm_sq]; exact hs
    nlinarith [norm_nonneg z, sq_nonneg (‖z‖ - 1)]
  have hz0 : z ≠ 0 := by intro h; rw [h] at hn; simp at hn
  constructor
  · rw [Complex.cos_arg hz0, hn]; simp [hz]
  · rw [Complex.sin_arg, hn]; simp [hz, sq]

/-- C25: on success the position is the one of the interface document for the eccentric anomaly that
was computed: radius and argument of latitude in the orbital plane, turned by inclination and node. -/
theorem C25_position (k : KeplerConst) (f : NavFrame) (tSec : ℝ) (o : KeplerOut)
    (h0 : 0 ≤ (elements f).e) (h1 : (elements f).e < 1) (hok : (kepler2state k f tSec o).status = 0) :
    ∃ v, IsTrueAnomaly (elements f).e (kepler2state k f tSec o).Ek v ∧
      (kepler2state k f tSec o).state =
        (elements f).position k.omegae (tSec - f.toeSec) (kepler2state k f tSec o).Ek v := by
  unfold kepler2state at hok ⊢
  simp only at hok ⊢
  split at hok
  · simp at hok
  · rename_i h
    rw [if_neg h]
    generalize (keplerLoop (f.d 8) (meanAnomaly k f (tSec - f.toeSec)) 0 (meanAnomaly k f (tSec - f.toeSec)) 0).1 = E
    refine ⟨_, trueAnomaly_arg _ E h0 h1, ?_⟩
    unfold keplerPos Elements.position
    have e8 : (elements f).e = f.d 8 := rfl
    simp only [e8]
    generalize Complex.arg ⟨(Real.cos E - f.d 8) / (1 - f.d 8 * Real.cos E),
      (Real.sqrt (1 - f.d 8 * f.d 8) * Real.sin E) / (1 - f.d 8 * Real.cos E)⟩ = v
    have hr : (elements f).radius E v = f.d 10 * f.d 10 * (1 - f.d 8 * Real.cos E) +
        (f.d 4 * Real.sin (2 * (v + f.d 17)) + f.d 16 * Real.cos (2 * (v + f.d 17))) := by
      simp only [Elements.radius, elements, at_eq, specIndex]; norm_num; ring
    have hu : (elements f).argLat v = v + f.d 17 + (f.d 9 * Real.sin (2 * (v + f.d 17)) + f.d 7 * Real.cos (2 * (v + f.d 17))) := by
      simp only [Elements.argLat, elements, at_eq, specIndex]; norm_num; ring
    have hi : (elements f).incl (tSec - f.toeSec) v = f.d 15 + (f.d 14 * Real.sin (2 * (v + f.d 17)) + f.d 12 * Real.cos (2 * (v + f.d 17))) +
        f.d 19 * (tSec - f.toeSec) := by
      simp only [Elements.incl, elements, at_eq, specIndex]; norm_num; ring
    have hn : (elements f).node k.omegae (tSec - f.toeSec) = f.d 13 + (f.d 18 - k.omegae) * (tSec - f.toeSec) - k.omegae * f.d 11 := rfl
    rw [hr, hu, hi, hn]
    ext j
    fin_cases j <;>
      simp [rotZ, rotX, Matrix.mulVec, dotProduct, Fin.sum_univ_three] <;> ring

/-- C25: the position lies at the corrected orbit radius. -/
theorem C25_radius (k : KeplerConst) (f : NavFrame) (tSec : ℝ) (o : KeplerOut)
    (h0 : 0 ≤ (elements f).e) (h1 : (elements f).e < 1) (hok : (kepler2state k f tSec o).status = 0) :
    ∃ v, IsTrueAnomaly (elements f).e (kepler2state k f tSec o).Ek v ∧
      Real.sqrt ((kepler2state k f tSec o).state 0 ^ 2 + (kepler2state k f tSec o).state 1 ^ 2 +
        (kepler2state k f tSec o).state 2 ^ 2) = |(elements f).radius (kepler2state k f tSec o).Ek v| := by
  obtain ⟨v, hv, hp⟩ := C25_position k f tSec o h0 h1 hok
  refine ⟨v, hv, ?_⟩
  rw [hp]
  unfold Elements.position
  rw [rot_norm]
  have := Real.sin_sq_add_cos_sq ((elements f).argLat v)
  rw [← Real.sqrt_sq_eq_abs]
  congr 1
  rw [mul_pow, mul_pow, ← mul_add, add_comm, this, mul_one]

/-- C24/C25 through the public function: when `stateNclock` of a GPS, Galileo or BeiDou frame succeeds,
the first three elements of the state are the position, at the time elapsed since the time of
ephemeris, for an eccentric anomaly that solves Kepler's equation; the others are untouched. -/
theorem C25_stateNclock (k : KeplerConst) (f : NavFrame) (t : Epoch) (o : StateClock)
    (h0 : 0 ≤ (elements f).e) (h1 : (elements f).e < 1) (hok : (keplerStateNclock k f t o).status = 0) :
    ∃ E v, SolvesKepler (elements f).e ((elements f).meanAnomaly k.mi (elapsed t f.toe)) E
        (|(elements f).e| * 1e-14) ∧ IsTrueAnomaly (elements f).e E v ∧
      (keplerStateNclock k f t o).state =
        ![(elements f).position k.omegae (elapsed t f.toe) E v 0, (elements f).position k.omegae (elapsed t f.toe) E v 1,
          (elements f).position k.omegae (elapsed t f.toe) E v 2, o.state 3, o.state 4, o.state 5] := by
  unfold keplerStateNclock at hok ⊢
  simp only at hok ⊢
  generalize hr : kepler2state k f (ref2toe f t) ⟨0, ![o.state 0, o.state 1, o.state 2], 0⟩ = r at hok ⊢
  split at hok
  · exact absurd hok (by assumption)
  · rename_i hs
    rw [if_neg hs]
    have hs' : r.status = 0 := by simpa using hs
    rw [← C22_toe_exact]
    obtain ⟨v, hv, hp⟩ := C25_position k f (ref2toe f t) ⟨0, ![o.state 0, o.state 1, o.state 2], 0⟩ h0 h1
      (by rw [hr]; exact hs')
    have hk := (C24_kepler_solved k f (ref2toe f t) ⟨0, ![o.state 0, o.state 1, o.state 2], 0⟩).1
      (by rw [hr]; exact hs')
    rw [hr] at hv hp hk
    exact ⟨r.Ek, v, hk, hv, by rw [hp]; rfl⟩

/-- Every handled Kepler system is evaluated with its own constants. -/
theorem C25_systems (f : NavFrame) (fuel : Nat) (t : Epoch) (o : StateClock) :
    (f.sys = .gps → stateNclock f fuel t o =
      .ok (keplerStateNclock ⟨3.986005e14, 7.2921151467e-5, -4.442807633e-10⟩ f t o)) ∧
    (f.sys = .galileo → stateNclock f fuel t o =
      .ok (keplerStateNclock ⟨3.986004418e14, 7.2921151467e-5, -4.442807309e-10⟩ f t o)) ∧
    (f.sys = .beidou → stateNclock f fuel t o =
      .ok (keplerStateNclock ⟨3.986004418e14, 7.2921150e-5,
        -2 * Real.sqrt 3.986004418e14 / (299792458 * 299792458)⟩ f t o)) := by
  refine ⟨fun h => ?_, fun h => ?_, fun h => ?_⟩
  · simp only [stateNclock, h, gpsConst]
  · simp only [stateNclock, h, galConst]
  · simp only [stateNclock, h, bdsConst]; norm_num

/-! ## C26 -/

/-- C26 (exact): the clock correction is the polynomial in the time since the time of clock plus the
relativistic term of an anomaly that solves Kepler's equation for the mean anomaly evaluated `t - toc`
(not `t - toe`) after the time of ephemeris; a caller that supplies the anomaly gets exactly that one
used. -/
theorem C26_clock_formula (k : KeplerConst) (f : NavFrame) (tSec : ℝ) (c0 : ℝ) :
    (∀ E, svClock k f tSec (some E) c0 = (0, (elements f).clock k.fClock (tSec - f.tocSec) E)) ∧
    ((svClock k f tSec none c0).1 = 0 → ∃ E,
      SolvesKepler (elements f).e ((elements f).meanAnomaly k.mi (tSec - f.tocSec)) E (|(elements f).e| * 1e-14) ∧
      (svClock k f tSec none c0).2 = (elements f).clock k.fClock (tSec - f.tocSec) E) ∧
    ((svClock k f tSec none c0).1 ≠ 0 → svClock k f tSec none c0 = (1, c0)) := by
  have hf : ∀ E dt, f.d 0 + f.d 1 * dt + f.d 2 * dt * dt + k.fClock * (f.d 8 * f.d 10 * Real.sin E) =
      (elements f).clock k.fClock dt E := by
    intro E dt
    simp only [Elements.clock, elements, at_eq, specIndex]
    norm_num
    ring
  refine ⟨fun E => ?_, ?_, ?_⟩
  · simp only [svClock, hf]
  · unfold svClock
    simp only [hf]
    split
    · intro h; simp at h
    · rename_i h
      intro _
      refine ⟨_, ?_, rfl⟩
      rw [← meanAnomaly_spec]
      exact kepler_residual (i := (keplerLoop (f.d 8) (meanAnomaly k f (tSec - f.tocSec)) 0
        (meanAnomaly k f (tSec - f.tocSec)) 0).2) rfl (by omega)
  · unfold svClock
    simp only
    split <;> simp

/-- C26 for records whose time of clock is the time of ephemeris: through the public function, the
clock is the broadcast polynomial plus the relativistic term of the eccentric anomaly at `t`. -/
theorem C26_clock_partial (k : KeplerConst) (f : NavFrame) (t : Epoch) (o : StateClock)
    (href : f.toc.total = f.toe.total) (hok : (keplerStateNclock k f t o).status = 0) :
    ∃ E, SolvesKepler (elements f).e ((elements f).meanAnomaly k.mi (elapsed t f.toe)) E (|(elements f).e| * 1e-14) ∧
      (keplerStateNclock k f t o).clock = (elements f).clock k.fClock (elapsed t f.toc) E := by
  unfold keplerStateNclock at hok ⊢
  simp only at hok ⊢
  generalize hr : kepler2state k f (ref2toe f t) ⟨0, ![o.state 0, o.state 1, o.state 2], 0⟩ = r at hok ⊢
  split at hok
  · exact absurd hok (by assumption)
  · rename_i hs
    rw [if_neg hs]
    obtain ⟨E, h1, h2⟩ := (C26_clock_formula k f (ref2toc f t) o.clock).2.1 hok
    rw [C22_toc_exact] at h1 h2
    refine ⟨E, ?_, h2⟩
    have : elapsed t f.toe = elapsed t f.toc := by unfold elapsed; rw [href]
    rw [this]; exact h1

/-- A GPS frame whose time of ephemeris is two hours after its time of clock: √A = 5153.7, e = 0.01,
everything else zero. -/
def clockEx : NavFrame :=
  ⟨.gps, 1, ⟨58849, 0⟩, ⟨58849, 7200⟩, [0, 0, 0, 0, 0, 0, 0, 0, 1 / 100, 0, 51537 / 10] ++ List.replicate 20 0⟩

/-- C26 fails when the time of clock differs from the time of ephemeris: at the time of clock the
frame `clockEx` yields a clock correction of exactly zero, although no solution of Kepler's equation
at that time has a vanishing relativistic term. -/
theorem C26_toc_ne_toe_wrong (o : StateClock) :
    (keplerStateNclock gpsConst clockEx ⟨58849, 0⟩ o).status = 0 ∧
    (keplerStateNclock gpsConst clockEx ⟨58849, 0⟩ o).clock = 0 ∧
    ∀ E, SolvesKepler (elements clockEx).e ((elements clockEx).meanAnomaly gpsConst.mi
        (elapsed ⟨58849, 0⟩ clockEx.toe)) E 0 →
      (elements clockEx).clock gpsConst.fClock (elapsed ⟨58849, 0⟩ clockEx.toc) E ≠ 0 := by
  have de : clockEx.d 8 = 1 / 100 := by norm_num [clockEx, NavFrame.d]
  have d10 : clockEx.d 10 = 51537 / 10 := by norm_num [clockEx, NavFrame.d]
  have dz : ∀ i, i ≠ 8 → i ≠ 10 → clockEx.d i = 0 := by
    intro i h8 h10
    have : clockEx.data.getD i 0 = 0 := by
      by_cases hi : i < 31
      · have : ∀ i < 31, i ≠ 8 → i ≠ 10 → clockEx.data.getD i 0 = 0 := by
          intro i hi h8 h10
          simp only [clockEx]
          interval_cases i <;> simp_all
        exact this i hi h8 h10
      · rw [List.getD_eq_getElem?_getD, List.getElem?_eq_none (by simp [clockEx]; omega)]; rfl
    unfold NavFrame.d; rw [this]; simp
  have hel : (elements clockEx).e = 1 / 100 := de
  have hk := C24_converges gpsConst clockEx (ref2toe clockEx ⟨58849, 0⟩) ⟨0, ![o.state 0, o.state 1, o.state 2], 0⟩
    (by rw [hel]; norm_num) (by rw [hel]; norm_num)
  have hM : meanAnomaly gpsConst clockEx (ref2toc clockEx ⟨58849, 0⟩ - clockEx.tocSec) = 0 := by
    rw [C22_toc_exact]
    have : elapsed ⟨58849, 0⟩ clockEx.toc = 0 := by norm_num [elapsed, Epoch.secs, clockEx, DateTime.total]
    rw [this]; simp [meanAnomaly, dz]
  have hL : keplerLoop (clockEx.d 8) 0 0 0 0 = (0, 0) := by
    rw [keplerLoop, if_neg]; simp [KEPLER_LIMIT]; norm_num
  have hsv : svClock gpsConst clockEx (ref2toc clockEx ⟨58849, 0⟩) none o.clock = (0, 0) := by
    unfold svClock
    simp only [hM, hL]
    simp [dz]
  have hst : keplerStateNclock gpsConst clockEx ⟨58849, 0⟩ o =
      ⟨0, putPos o.state (kepler2state gpsConst clockEx (ref2toe clockEx ⟨58849, 0⟩)
        ⟨0, ![o.state 0, o.state 1, o.state 2], 0⟩).state, 0⟩ := by
    unfold keplerStateNclock
    simp only [hk, hsv]
    simp
  refine ⟨by rw [hst], by rw [hst], ?_⟩
  intro E hE hc
  have hela : elapsed ⟨58849, 0⟩ clockEx.toe = -7200 := by norm_num [elapsed, Epoch.secs, clockEx, DateTime.total]
  have hMA : (elements clockEx).meanAnomaly gpsConst.mi (-7200) =
      -(Real.sqrt (3.986005e14 / ((51537 / 10) ^ 2) ^ 3) * 7200) := by
    rw [← meanAnomaly_spec]
    simp only [meanAnomaly, dz 5 (by norm_num) (by norm_num), dz 6 (by norm_num) (by norm_num), d10, gpsConst]
    rw [show ((51537 / 10 : ℝ) * (51537 / 10) * (51537 / 10 * (51537 / 10)) * (51537 / 10 * (51537 / 10))) =
      ((51537 / 10) ^ 2) ^ 3 by ring]
    ring
  rw [hela, hMA, hel] at hE
  have hE0 : E - 1 / 100 * Real.sin E - -(Real.sqrt (3.986005e14 / ((51537 / 10) ^ 2) ^ 3) * 7200) = 0 :=
    abs_nonpos_iff.1 hE
  have hs : Real.sin E = 0 := by
    have hz : ∀ j k, specIndex j k ≠ 8 → specIndex j k ≠ 10 → clockEx.at j k = 0 := fun j k h h' => dz _ h h'
    have h8 : (elements clockEx).sqrtA = 51537 / 10 := d10
    have e0 : (elements clockEx).a0 = 0 := hz 0 0 (by decide) (by decide)
    have e1 : (elements clockEx).a1 = 0 := hz 0 1 (by decide) (by decide)
    have e2 : (elements clockEx).a2 = 0 := hz 0 2 (by decide) (by decide)
    unfold Elements.clock at hc
    rw [e0, e1, e2, hel, h8] at hc
    simp only [gpsConst] at hc
    have : (-4.442807633e-10 * (1 / 100) * (51537 / 10) : ℝ) * Real.sin E = 0 := by linarith
    rcases mul_eq_zero.1 this with h | h
    · norm_num at h
    · exact h
  rw [hs] at hE0
  obtain ⟨n, hn⟩ := Real.sin_eq_zero_iff.1 hs
  have hlo : 0 < Real.sqrt (3.986005e14 / ((51537 / 10) ^ 2) ^ 3) := Real.sqrt_pos.2 (by norm_num)
  have hhi : Real.sqrt (3.986005e14 / ((51537 / 10) ^ 2) ^ 3) < 1 / 2400 := by
    rw [Real.sqrt_lt' (by norm_num)]; norm_num
  have hpi := Real.pi_gt_three
  have hE1 : -3 < E := by linarith
  have hE2 : E < 0 := by linarith
  rw [← hn] at hE1 hE2
  have hn1 : (n : ℝ) < 0 := by
    by_contra hcon
    push Not at hcon
    nlinarith
  have hn2 : n ≤ -1 := by
    have : n < 0 := by exact_mod_cast hn1
    omega
  have hn3 : (n : ℝ) ≤ -1 := by exact_mod_cast hn2
  nlinarith

end Ggnss
