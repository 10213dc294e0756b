import Verif.Props.GloFp
import Verif.Props.OrbitFp
import Verif.Spec.GloFp
/-!
# C79: GLONASS states and clocks in double precision
-/
namespace Ggnss
namespace GloFp

/-! ### The start -/

theorem km_err (F : Fp) {f : NavFrame} {i : Nat} {A γ : ℝ} (p q : ℤ) (hA : |f.d i| ≤ A) (hp : -1021 ≤ p) (hq : -1021 ≤ q) (h1 : A / 1000 ≤ 2 ^ p)
    (h2 : A + 2 ^ (p - 54) * 1000 ≤ 2 ^ q) (h3 : 2 ^ (p - 54) * 1000 + 2 ^ (q - 54) ≤ γ) : |f.dKmF F i - f.d i| ≤ γ := by
  have e1 : |F.rnd (f.d i / 1000) - f.d i / 1000| ≤ 2 ^ (p - 54) := by
    apply F.err hp
    rw [abs_div, abs_of_pos (show (0 : ℝ) < 1000 by norm_num)]
    exact le_trans (div_le_div_of_nonneg_right hA (by norm_num)) h1
  unfold NavFrame.dKmF
  refine F.rndE (α := 2 ^ (p - 54) * 1000) (Y := A) q ?_ hA hq h2 h3
  rw [show F.rnd (f.d i / 1000) * 1000 - f.d i = (F.rnd (f.d i / 1000) - f.d i / 1000) * 1000 by ring, abs_mul, abs_of_pos (show (0 : ℝ) < 1000 by norm_num)]
  exact mul_le_mul_of_nonneg_right e1 (by norm_num)

theorem sane_start {f : NavFrame} (h : GloSane f) : StartOK (gloStart f) (gloAcc f) where
  pos := fun i hi => h.pos i (by omega)
  far := by
    have h1 := h.far
    have h2 := Real.sq_sqrt (show 0 ≤ gloStart f 0 ^ 2 + gloStart f 1 ^ 2 + gloStart f 2 ^ 2 by positivity)
    have h3 : (2.5e7 : ℝ) ^ 2 ≤ Real.sqrt (gloStart f 0 ^ 2 + gloStart f 1 ^ 2 + gloStart f 2 ^ 2) ^ 2 := by
      apply pow_le_pow_left₀ (by norm_num) h1
    rw [h2] at h3
    norm_num at h3 ⊢
    linarith
  vel := fun i hi => h.vel i (by omega)
  acc := by
    intro i
    fin_cases i
    · exact h.acc.1
    · exact h.acc.2.1
    · exact h.acc.2.2

theorem x0_close (F : Fp) {f : NavFrame} (h : GloSane f) : Close 1e-8 (gloX0F F f) (gloStart f) := by
  have P : ∀ {j}, |f.d j| ≤ 2.6e7 → |f.dKmF F j - f.d j| ≤ 1e-8 * 1 := fun hb =>
    km_err F 15 25 hb (by norm_num) (by norm_num) (by norm_num) (by norm_num) (by norm_num)
  have V : ∀ {j}, |f.d j| ≤ 4000 → |f.dKmF F j - f.d j| ≤ 1e-8 * (1 / 500) := fun hb =>
    km_err F 2 12 hb (by norm_num) (by norm_num) (by norm_num) (by norm_num) (by norm_num)
  intro i
  fin_cases i
  · exact P (h.pos 0 (by decide))
  · exact P (h.pos 1 (by decide))
  · exact P (h.pos 2 (by decide))
  · exact V (h.vel 3 (by decide))
  · exact V (h.vel 4 (by decide))
  · exact V (h.vel 5 (by decide))

theorem acc_close (F : Fp) {f : NavFrame} (h : GloSane f) (i : Fin 3) : |gloAccF F f i - gloAcc f i| ≤ 1e-18 := by
  have A : ∀ {j}, |f.d j| ≤ 1e-4 → |f.dKmF F j - f.d j| ≤ 1e-18 := fun hb =>
    km_err F (-23) (-13) hb (by norm_num) (by norm_num) (by norm_num) (by norm_num) (by norm_num)
  fin_cases i
  · exact A h.acc.1
  · exact A h.acc.2.1
  · exact A h.acc.2.2

/-! ### The loop -/

theorem loopF_fwd (F : Fp) (acc : Fin 3 → ℝ) (tLim : ℝ) (m : Nat) : ∀ (n : Nat) (fuel : Nat) (y : Fin 6 → ℝ) (z : ℤ),
    n < fuel → |z| + 60 * n ≤ 2 ^ 53 → (∀ k : Nat, k < n → (z : ℝ) + 60 * k < tLim) → tLim ≤ (z : ℝ) + 60 * n →
    gloLoopF F acc 60 tLim fuel y z m = .ok ((gloStepF F acc 60)^[n] y, (z : ℝ) + 60 * n, m) := by
  intro n
  induction n with
  | zero =>
    intro fuel y z hf _ _ hle
    obtain ⟨g, rfl⟩ : ∃ g, fuel = g + 1 := ⟨fuel - 1, by omega⟩
    rw [gloLoopF, if_pos (by norm_num), if_neg (by simpa using hle)]
    simp
  | succ n ih =>
    intro fuel y z hf hz hlt hle
    obtain ⟨g, rfl⟩ : ∃ g, fuel = g + 1 := ⟨fuel - 1, by omega⟩
    have hz' : |z + 60| + 60 * n ≤ 2 ^ 53 := by
      have := abs_add_le z 60
      rw [abs_of_pos (show (0 : ℤ) < 60 by norm_num)] at this
      push_cast at hz; linarith
    have e : F.rnd ((z : ℝ) + 60) = ((z + 60 : ℤ) : ℝ) := by
      rw [show ((z : ℝ) + 60) = ((z + 60 : ℤ) : ℝ) by push_cast; ring]
      exact F.exact (isDouble_int (by omega))
    rw [gloLoopF, if_pos (by norm_num), if_pos (by simpa using hlt 0 (by omega)), e]
    rw [ih g _ (z + 60) (by omega) hz' (fun k hk => ?_) (by push_cast at hle ⊢; linarith)]
    · simp only [Function.iterate_succ, Function.comp_apply]
      congr 3
      push_cast; ring
    · have := hlt (k + 1) (by omega)
      push_cast at this ⊢; linarith

theorem loopF_bwd (F : Fp) (acc : Fin 3 → ℝ) (tLim : ℝ) : ∀ (n : Nat) (fuel : Nat) (y : Fin 6 → ℝ) (z : ℤ) (m : Nat),
    n < fuel → m + n < 1500 → |z| + 60 * n ≤ 2 ^ 53 → (∀ k : Nat, k < n → tLim < (z : ℝ) - 60 * k) → (z : ℝ) - 60 * n ≤ tLim →
    gloLoopF F acc (-60) tLim fuel y z m = .ok ((gloStepF F acc (-60))^[n] y, (z : ℝ) - 60 * n, m + n) := by
  intro n
  induction n with
  | zero =>
    intro fuel y z m hf _ _ _ hle
    obtain ⟨g, rfl⟩ : ∃ g, fuel = g + 1 := ⟨fuel - 1, by omega⟩
    rw [gloLoopF, if_neg (by norm_num), if_neg (by simpa using hle)]
    simp
  | succ n ih =>
    intro fuel y z m hf hm hz hlt hle
    obtain ⟨g, rfl⟩ : ∃ g, fuel = g + 1 := ⟨fuel - 1, by omega⟩
    have hz' : |z - 60| + 60 * n ≤ 2 ^ 53 := by
      have := abs_sub z 60
      rw [abs_of_pos (show (0 : ℤ) < 60 by norm_num)] at this
      push_cast at hz; linarith
    have e : F.rnd ((z : ℝ) + -60) = ((z - 60 : ℤ) : ℝ) := by
      rw [show ((z : ℝ) + -60) = ((z - 60 : ℤ) : ℝ) by push_cast; ring]
      exact F.exact (isDouble_int (by omega))
    rw [gloLoopF, if_neg (by norm_num), if_pos (by simpa using hlt 0 (by omega)), if_pos (by omega), e]
    rw [ih g _ (z - 60) (m + 1) (by omega) (by omega) hz' (fun k hk => ?_) (by push_cast at hle ⊢; linarith)]
    · simp only [Function.iterate_succ, Function.comp_apply]
      congr 3
      · push_cast; ring
      · omega
    · have := hlt (k + 1) (by omega)
      push_cast at this ⊢; linarith

/-! ### The epoch -/

theorem quarter_days {t : Epoch} {r : DateTime} (h : QuarterHour t r) : |t.mjd - r.mjd| ≤ 1 := by
  have h1 := abs_le.1 h.near
  unfold elapsed Epoch.secs DateTime.total at h1
  have h2 : (0 : ℝ) ≤ r.sec := by exact_mod_cast h.ref_lo
  have h3 : (r.sec : ℝ) ≤ 86400 := by exact_mod_cast h.ref_hi
  have h4 := h.lo
  have h5 := h.hi
  push_cast at h1
  have a : ((t.mjd - r.mjd : ℤ) : ℝ) < 2 := by push_cast; linarith [h1.2]
  have b : (-2 : ℝ) < ((t.mjd - r.mjd : ℤ) : ℝ) := by push_cast; linarith [h1.1]
  have a' : t.mjd - r.mjd < 2 := by exact_mod_cast a
  have b' : -2 < t.mjd - r.mjd := by exact_mod_cast b
  rw [abs_le]; constructor <;> omega

/-- The seconds elapsed as the machine has them. -/
theorem ref2toeF_facts (F : Fp) (f : NavFrame) (t : Epoch) (h : QuarterHour t f.toe) :
    IsDouble (ref2toeF F f t) ∧ |ref2toeF F f t - ref2toe f t| ≤ 2e-11 ∧ |ref2toe f t| ≤ 172800 ∧
    (∀ z : ℤ, |z| ≤ 2 ^ 53 → ref2toe f t ≤ z → ref2toeF F f t ≤ z) ∧ (∀ z : ℤ, |z| ≤ 2 ^ 53 → (z : ℝ) ≤ ref2toe f t → (z : ℝ) ≤ ref2toeF F f t) ∧
    (t.mjd = f.toe.mjd → ref2toeF F f t = ref2toe f t) := by
  have hd := quarter_days h
  have h4 := h.lo
  have h5 := h.hi
  have hp : F.rnd (86400 * ((t.mjd - f.toe.mjd : ℤ) : ℝ)) = 86400 * ((t.mjd - f.toe.mjd : ℤ) : ℝ) := by
    have e : (86400 * ((t.mjd - f.toe.mjd : ℤ) : ℝ)) = ((86400 * (t.mjd - f.toe.mjd) : ℤ) : ℝ) := by push_cast; ring
    rw [e]
    apply F.exact
    apply isDouble_int
    have := abs_le.1 hd
    rw [abs_le]; constructor <;> omega
  unfold ref2toeF ref2toe
  dsimp only
  by_cases h0 : t.mjd - f.toe.mjd ≠ 0
  · rw [if_pos h0, if_pos h0, hp]
    have hb : |t.sec + 86400 * ((t.mjd - f.toe.mjd : ℤ) : ℝ)| ≤ 172800 := by
      have hd' : |((t.mjd - f.toe.mjd : ℤ) : ℝ)| ≤ 1 := by exact_mod_cast hd
      have := abs_le.1 hd'
      rw [abs_le]; constructor <;> linarith [this.1, this.2]
    refine ⟨F.double _, ?_, hb, fun z hz hle => F.rnd_le (isDouble_int hz) hle, fun z hz hle => F.le_rnd (isDouble_int hz) hle, fun e => absurd (by omega) h0⟩
    have := F.err (m := 18) (by norm_num) (hb.trans (by norm_num))
    exact this.trans (by norm_num)
  · rw [if_neg h0, if_neg h0]
    exact ⟨h.dbl, by simp; norm_num, by rw [abs_le]; constructor <;> linarith, fun z _ hle => hle, fun z _ hle => hle, fun _ => rfl⟩

/-- The machine takes the branches that the exact elapsed time takes. -/
theorem ref2toeF_edge (F : Fp) (f : NavFrame) (t : Epoch) (h : QuarterHour t f.toe) (k : ℤ) :
    (60 * (k : ℝ) < elapsed t f.toe → f.toeSec + 60 * k < ref2toeF F f t) ∧
    (elapsed t f.toe < 60 * (k : ℝ) → ref2toeF F f t < f.toeSec + 60 * k) := by
  obtain ⟨-, h2, -, -, -, h6⟩ := ref2toeF_facts F f t h
  have he := C22_toe_exact f t
  rcases h.edge with e | e
  · rw [h6 e]
    constructor <;> intro hk <;> linarith
  · have hk := e k
    have h2 := abs_le.1 h2
    constructor
    · intro hlt
      by_contra hcon
      push Not at hcon
      have := hk (by
        rw [abs_le]
        norm_num at h2 ⊢
        constructor <;> linarith [h2.1, h2.2])
      linarith
    · intro hlt
      by_contra hcon
      push Not at hcon
      have := hk (by
        rw [abs_le]
        norm_num at h2 ⊢
        constructor <;> linarith [h2.1, h2.2])
      linarith

theorem ref2toeF_le (F : Fp) (f : NavFrame) (t : Epoch) (h : QuarterHour t f.toe) (k : ℤ) (hk : |k| ≤ 1000) :
    (elapsed t f.toe ≤ 60 * (k : ℝ) → ref2toeF F f t ≤ f.toeSec + 60 * k) ∧
    (60 * (k : ℝ) ≤ elapsed t f.toe → f.toeSec + 60 * k ≤ ref2toeF F f t) := by
  obtain ⟨-, -, -, h4, h5, -⟩ := ref2toeF_facts F f t h
  have he := C22_toe_exact f t
  have e : f.toeSec + 60 * (k : ℝ) = ((f.toe.sec + 60 * k : ℤ) : ℝ) := by unfold NavFrame.toeSec; push_cast; ring
  have hb : |f.toe.sec + 60 * k| ≤ 2 ^ 53 := by
    have := abs_le.1 hk
    have := h.ref_lo
    have := h.ref_hi
    rw [abs_le]; constructor <;> omega
  constructor
  · intro hle
    rw [e]
    exact h4 _ hb (by rw [← e]; linarith)
  · intro hle
    rw [e]
    exact h5 _ hb (by rw [← e]; linarith)

/-- `glo_ecef` inside the window. -/
theorem ecefF_spec (F : Fp) (f : NavFrame) (fuel : Nat) (t : Epoch) (s0 : Fin 6 → ℝ) (h : QuarterHour t f.toe) (hf : 15 < fuel) :
    ⌈|elapsed t f.toe| / 60⌉₊ ≤ 15 ∧
    gloEcefF F f fuel (ref2toeF F f t) s0 =
      .ok (0, (gloStepF F (gloAccF F f) (if elapsed t f.toe > 0 then 60 else -60))^[⌈|elapsed t f.toe| / 60⌉₊] (gloX0F F f)) := by
  have hn15 : ⌈|elapsed t f.toe| / 60⌉₊ ≤ 15 := by
    rw [Nat.ceil_le, div_le_iff₀ (by norm_num)]
    have := h.near
    push_cast; linarith
  refine ⟨hn15, ?_⟩
  obtain ⟨hdbl, -, -, -, -, -⟩ := ref2toeF_facts F f t h
  have hE := ref2toeF_edge F f t h
  have hL := ref2toeF_le F f t h
  have near := abs_le.1 h.near
  have d900 : IsDouble 900 := isDouble_of (n := 900) (e := 0) (by norm_num) (by norm_num) (by norm_num)
  have dq : IsDouble (1 / 4) := isDouble_of (n := 1) (e := -2) (by norm_num) (by norm_num) (by norm_num)
  have hb : |ref2toeF F f t - f.toeSec| ≤ 900 := by
    have a := (hL 15 (by norm_num)).1 (by push_cast; linarith [near.2])
    have b := (hL (-15) (by norm_num)).2 (by push_cast; linarith [near.1])
    push_cast at a b
    rw [abs_le]; constructor <;> linarith
  have hb' := F.rnd_abs_le d900 hb
  have hr : cround (F.rnd (F.rnd (ref2toeF F f t - f.toeSec) / 86400)) = 0 := by
    apply cround_zero
    refine lt_of_le_of_lt (F.rnd_abs_le dq ?_) (by norm_num : (1 / 4 : ℝ) < 1 / 2)
    rw [abs_div, abs_of_pos (show (0 : ℝ) < 86400 by norm_num), div_le_iff₀ (by norm_num)]
    linarith
  have d0 : IsDouble 0 := ⟨0, 0, by norm_num, by norm_num, by simp⟩
  have h900 : (15 * 60 : ℝ) = 900 := by norm_num
  obtain ⟨hc1, hc2⟩ := ceil_steps (x := |elapsed t f.toe|) _ rfl
  unfold gloEcefF
  simp only [hr, h900, zero_mul, F.exact d0, sub_zero, F.exact hdbl]
  rw [if_neg (not_lt.2 hb')]
  have zi : (f.toeSec : ℝ) = (f.toe.sec : ℤ) := rfl
  have hz : |f.toe.sec| + 60 * ((⌈|elapsed t f.toe| / 60⌉₊ : ℕ) : ℤ) ≤ 2 ^ 53 := by
    have h1 := h.ref_lo
    have h2 := h.ref_hi
    have h3 : ((⌈|elapsed t f.toe| / 60⌉₊ : ℕ) : ℤ) ≤ 15 := by exact_mod_cast hn15
    rw [abs_of_nonneg h1]; omega
  generalize hn : ⌈|elapsed t f.toe| / 60⌉₊ = n at *
  rcases lt_trichotomy (elapsed t f.toe) 0 with hlt | heq | hgt
  · have a := (hE 0).2 (by simpa using hlt)
    simp only [Int.cast_zero, mul_zero, add_zero] at a
    rw [if_neg (ne_of_gt a), if_neg (not_lt.2 a.le), if_neg (not_lt.2 hlt.le)]
    rw [abs_of_neg hlt] at hc1 hc2
    have l := loopF_bwd F (gloAccF F f) (ref2toeF F f t) n fuel (gloX0F F f) f.toe.sec 0 (by omega) (by omega) hz
      (fun k hk => by
        have := (hE (-k)).2 (by push_cast; linarith [hc1 k hk])
        push_cast at this; rw [← zi]; linarith)
      (by
        have h3 : |(-(n : ℤ))| ≤ 1000 := by rw [abs_neg, abs_of_nonneg (by omega)]; omega
        have := (hL (-n) h3).2 (by push_cast; linarith)
        push_cast at this; rw [← zi]; linarith)
    rw [show -H_STEP = -60 by unfold H_STEP; norm_num, zi, l]
    simp only [Res.bind_ok]
    rw [if_neg (by omega)]
    rfl
  · have : n = 0 := by rw [← hn, heq]; simp
    subst this
    have a := (hL 0 (by norm_num)).1 (by simpa using heq.le)
    have b := (hL 0 (by norm_num)).2 (by simpa using heq.ge)
    simp only [Int.cast_zero, mul_zero, add_zero] at a b
    rw [if_pos (le_antisymm b a)]
    rfl
  · have a := (hE 0).1 (by simpa using hgt)
    simp only [Int.cast_zero, mul_zero, add_zero] at a
    rw [if_neg (ne_of_lt a), if_pos a, if_pos hgt]
    rw [abs_of_pos hgt] at hc1 hc2
    have l := loopF_fwd F (gloAccF F f) (ref2toeF F f t) 0 n fuel (gloX0F F f) f.toe.sec (by omega) hz
      (fun k hk => by
        have := (hE k).1 (by push_cast; linarith [hc1 k hk])
        push_cast at this; rw [← zi]; linarith)
      (by
        have h3 : |(n : ℤ)| ≤ 1000 := by rw [abs_of_nonneg (by omega)]; omega
        have := (hL n h3).1 (by push_cast; linarith)
        push_cast at this; rw [← zi]; linarith)
    rw [show H_STEP = 60 by unfold H_STEP; norm_num, zi, l]
    simp only [Res.bind_ok]
    rw [if_neg (by omega)]
    rfl

/-- The clock. -/
theorem clockF_spec (F : Fp) (f : NavFrame) (t : Epoch) (hs : GloSane f) (h : QuarterHour t f.toe) :
    |gloClockF F f (ref2toeF F f t) - (f.at 0 0 + f.at 0 1 * elapsed t f.toe)| ≤ 2e-18 := by
  obtain ⟨-, h2, -, -, -, -⟩ := ref2toeF_facts F f t h
  have he := C22_toe_exact f t
  have d0 : IsDouble 0 := ⟨0, 0, by norm_num, by norm_num, by simp⟩
  have dq : IsDouble (1 / 4) := isDouble_of (n := 1) (e := -2) (by norm_num) (by norm_num) (by norm_num)
  have hd : |F.rnd (ref2toeF F f t - f.toeSec) - elapsed t f.toe| ≤ 2.1e-11 := by
    refine F.rndE (α := 2e-11) (Y := 900) 10 ?_ h.near (by norm_num) (by norm_num) (by norm_num)
    rw [← he, sub_sub_sub_cancel_right]
    exact h2
  have hr : cround (F.rnd (F.rnd (ref2toeF F f t - f.toeSec) / 86400)) = 0 := by
    apply cround_zero
    refine lt_of_le_of_lt (F.rnd_abs_le dq ?_) (by norm_num : (1 / 4 : ℝ) < 1 / 2)
    rw [abs_div, abs_of_pos (show (0 : ℝ) < 86400 by norm_num), div_le_iff₀ (by norm_num)]
    have h3 := abs_sub_abs_le_abs_sub (F.rnd (ref2toeF F f t - f.toeSec)) (elapsed t f.toe)
    have h4 := h.near
    norm_num at hd ⊢
    linarith
  unfold gloClockF
  simp only [hr, zero_mul, F.exact d0, sub_zero]
  rw [F.exact (F.double (ref2toeF F f t - f.toeSec))]
  have b0 : |f.d 0| ≤ 1e-2 := hs.bias
  have b1 : |f.d 1| ≤ 1e-9 := hs.drift
  have e0 : |F.rnd (f.d 0) - f.d 0| ≤ 8.7e-19 := F.rndX (-6) b0 (by norm_num) (by norm_num) (by norm_num)
  have e1 : |F.rnd (f.d 1) - f.d 1| ≤ 1.1e-25 := F.rndX (-29) b1 (by norm_num) (by norm_num) (by norm_num)
  have p1 : |F.rnd (F.rnd (f.d 1) * F.rnd (ref2toeF F f t - f.toeSec)) - f.d 1 * elapsed t f.toe| ≤ 3e-20 :=
    F.mul (-20) e1 hd b1 h.near (by norm_num) (by norm_num) (by norm_num)
  have q1 : |f.d 1 * elapsed t f.toe| ≤ 9e-7 := (mulB b1 h.near).trans (by norm_num)
  exact F.add (-6) e0 p1 ((addB b0 q1).trans (by norm_num : (1e-2 : ℝ) + 9e-7 ≤ 0.011)) (by norm_num) (by norm_num) (by norm_num)

end GloFp

/-- C79: in double precision, for every record of a GLONASS satellite with numbers in their ranges and every epoch within 15
minutes of its time of ephemeris, `stateNclock` succeeds; position and velocity are those of the exact Runge-Kutta steps (C27)
to a hundredth of a millimetre and 2e-8 m/s, and the clock is the polynomial of the record to 2e-18 s. -/
theorem C79_accurate (F : Fp) (f : NavFrame) (fuel : Nat) (t : Epoch) (o : StateClock) (hsys : f.sys = .glonass) (hs : GloSane f)
    (h : QuarterHour t f.toe) (hf : 15 < fuel) :
    ∃ r, stateNclockF F f fuel t o = .ok r ∧ r.status = 0 ∧ AccurateGlo f t r.state r.clock := by
  obtain ⟨hn, hE⟩ := GloFp.ecefF_spec F f fuel t o.state h hf
  unfold stateNclockF
  rw [hsys]
  simp only
  unfold gloStateNclockF
  rw [hE]
  simp only [Res.bind_ok]
  rw [if_neg (by simp)]
  refine ⟨_, rfl, rfl, ?_⟩
  have hh : |(if elapsed t f.toe > 0 then (60 : ℝ) else -60)| = 60 := by split <;> norm_num
  obtain ⟨c, -⟩ := GloFp.steps_close F (GloFp.sane_start hs) (GloFp.x0_close F hs) hh (GloFp.acc_close F hs) _ hn
  have c := c.mono (GloFp.errN_le hn)
  have hst : gloStep (gloAcc f) = rk4 (gloFieldOf f) := by
    funext h y; exact step_spec f h y
  rw [hst] at c
  constructor
  · intro i hi
    exact (c.pos i (by omega)).trans (by norm_num)
  · intro i hi
    exact (c.vel i (by omega)).trans (by norm_num)
  · exact GloFp.clockF_spec F f t hs h

/-- C79, outside the window: in double precision, whenever the epoch is a second or more beyond the 15 minutes, `stateNclock` of a GLONASS record
does not succeed, and the caller's clock is left as it was. -/
theorem C79_outside (F : Fp) (f : NavFrame) (fuel : Nat) (t : Epoch) (o r : StateClock) (hsys : f.sys = .glonass)
    (hday : |t.mjd - f.toe.mjd| ≤ 10 ^ 10) (href : 0 ≤ f.toe.sec ∧ f.toe.sec ≤ 86400) (hfar : 901 ≤ |elapsed t f.toe|)
    (h : stateNclockF F f fuel t o = .ok r) : r.status ≠ 0 ∧ r.clock = o.clock := by
  have hp : F.rnd (86400 * ((t.mjd - f.toe.mjd : ℤ) : ℝ)) = 86400 * ((t.mjd - f.toe.mjd : ℤ) : ℝ) := by
    have e : (86400 * ((t.mjd - f.toe.mjd : ℤ) : ℝ)) = ((86400 * (t.mjd - f.toe.mjd) : ℤ) : ℝ) := by push_cast; ring
    rw [e]
    apply F.exact
    apply isDouble_int
    have := abs_le.1 hday
    rw [abs_le]; constructor <;> omega
  have hel : elapsed t f.toe = t.sec + 86400 * ((t.mjd - f.toe.mjd : ℤ) : ℝ) - f.toe.sec := by
    unfold elapsed Epoch.secs DateTime.total
    push_cast; ring
  have hz : (f.toeSec : ℝ) = ((f.toe.sec : ℤ) : ℝ) := rfl
  have key : 901 ≤ |ref2toeF F f t - f.toeSec| := by
    have up : elapsed t f.toe ≥ 901 → ref2toeF F f t - f.toeSec ≥ 901 := by
      intro hge
      have hx : ((f.toe.sec + 901 : ℤ) : ℝ) ≤ t.sec + 86400 * ((t.mjd - f.toe.mjd : ℤ) : ℝ) := by
        rw [hel] at hge; push_cast at hge ⊢; linarith
      have : ((f.toe.sec + 901 : ℤ) : ℝ) ≤ ref2toeF F f t := by
        unfold ref2toeF
        dsimp only
        by_cases h0 : t.mjd - f.toe.mjd ≠ 0
        · rw [if_pos h0, hp]
          exact F.le_rnd (isDouble_int (by rw [abs_le]; constructor <;> omega)) hx
        · rw [if_neg h0]
          push Not at h0
          rw [h0] at hx
          simpa using hx
      rw [hz]; push_cast at this; linarith
    have dn : elapsed t f.toe ≤ -901 → ref2toeF F f t - f.toeSec ≤ -901 := by
      intro hge
      have hx : t.sec + 86400 * ((t.mjd - f.toe.mjd : ℤ) : ℝ) ≤ ((f.toe.sec - 901 : ℤ) : ℝ) := by
        rw [hel] at hge; push_cast at hge ⊢; linarith
      have : ref2toeF F f t ≤ ((f.toe.sec - 901 : ℤ) : ℝ) := by
        unfold ref2toeF
        dsimp only
        by_cases h0 : t.mjd - f.toe.mjd ≠ 0
        · rw [if_pos h0, hp]
          exact F.rnd_le (isDouble_int (by rw [abs_le]; constructor <;> omega)) hx
        · rw [if_neg h0]
          push Not at h0
          rw [h0] at hx
          simpa using hx
      rw [hz]; push_cast at this; linarith
    rcases le_abs.1 hfar with h1 | h1
    · exact le_abs.2 (Or.inl (up h1))
    · exact le_abs.2 (Or.inr (by have := dn (by linarith); linarith))
  have d901 : IsDouble 901 := isDouble_of (n := 901) (e := 0) (by norm_num) (by norm_num) (by norm_num)
  have hst : 15 * 60 < |F.rnd (ref2toeF F f t - f.toeSec)| := by
    rcases le_abs.1 key with h1 | h1
    · have := F.le_rnd d901 h1
      exact lt_of_lt_of_le (by norm_num) (this.trans (le_abs_self _))
    · have := F.rnd_le d901.neg (show ref2toeF F f t - f.toeSec ≤ -901 by linarith)
      exact lt_of_lt_of_le (by norm_num) ((show (901 : ℝ) ≤ -F.rnd (ref2toeF F f t - f.toeSec) by linarith).trans (neg_le_abs _))
  unfold stateNclockF at h
  rw [hsys] at h
  simp only at h
  unfold gloStateNclockF at h
  obtain ⟨q, hq, h⟩ := Res.bind_eq_ok.1 h
  have hq1 : q.1 ≠ 0 := by
    unfold gloEcefF at hq
    simp only [if_pos hst] at hq
    split at hq
    · cases hq; simp
    · obtain ⟨w, _, hq⟩ := Res.bind_eq_ok.1 hq
      split at hq
      · cases hq; simp
      · cases hq; simp
  rw [if_pos hq1] at h
  cases h
  exact ⟨hq1, rfl⟩

/-- Hypotheses of `C79_outside` are met: a message of 12:00, asked at 13:00 of the same day. -/
example : 901 ≤ |elapsed ⟨58484, 46800⟩ (⟨58484, 43200⟩ : DateTime)| := by
  unfold elapsed Epoch.secs DateTime.total
  norm_num

end Ggnss
