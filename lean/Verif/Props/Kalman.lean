import Verif.Model.Kalman
import Verif.Spec.Kalman
import Mathlib.Tactic.NoncommRing
import Mathlib.Tactic.Linarith
import Mathlib.Tactic.FinCases
import Mathlib.Tactic.NormNum
import Mathlib.Tactic.Positivity
import Mathlib.Tactic.FieldSimp
import Mathlib.Tactic.Ring
import Mathlib.LinearAlgebra.Matrix.ToLinearEquiv
import Mathlib.LinearAlgebra.Matrix.Rank
import Mathlib.Analysis.SpecialFunctions.Sqrt
import Mathlib.Analysis.Calculus.Deriv.Pow
import Mathlib.Analysis.Calculus.Deriv.Add
/-!
# C44, C45, C59: the position filter
-/
namespace Ggnss
open Matrix

/-! ## Quadratic forms -/

section
variable {n m : ℕ}

theorem quad_eq (A : Matrix (Fin n) (Fin n) ℝ) (y : Fin n → ℝ) : quad A y = y ⬝ᵥ A *ᵥ y := by
  unfold quad dotProduct mulVec dotProduct
  refine Finset.sum_congr rfl fun i _ => ?_
  rw [Finset.mul_sum]
  exact Finset.sum_congr rfl fun j _ => by ring

theorem sym_iff (A : Matrix (Fin n) (Fin n) ℝ) : (∀ i j, A i j = A j i) ↔ Aᵀ = A :=
  ⟨fun h => by ext i j; exact h j i, fun h i j => by conv_lhs => rw [← h]
                                                     rfl⟩

theorem quad_add (A B : Matrix (Fin n) (Fin n) ℝ) (y) : quad (A + B) y = quad A y + quad B y := by
  simp only [quad_eq, add_mulVec, dotProduct_add]

theorem quad_sub (A B : Matrix (Fin n) (Fin n) ℝ) (y) : quad (A - B) y = quad A y - quad B y := by
  simp only [quad_eq, sub_mulVec, dotProduct_sub]

/-- Congruence. -/
theorem quad_conj (M : Matrix (Fin n) (Fin m) ℝ) (A : Matrix (Fin m) (Fin m) ℝ) (y : Fin n → ℝ) :
    quad (M * A * Mᵀ) y = quad A (Mᵀ *ᵥ y) := by
  rw [quad_eq, quad_eq, ← mulVec_mulVec, ← mulVec_mulVec, dotProduct_mulVec, ← mulVec_transpose]

theorem psd_conj (M : Matrix (Fin n) (Fin m) ℝ) {A : Matrix (Fin m) (Fin m) ℝ} (h : SymPsd A) : SymPsd (M * A * Mᵀ) := by
  obtain ⟨h1, h2⟩ := h
  rw [sym_iff] at h1
  refine ⟨(sym_iff _).2 ?_, fun y => by rw [quad_conj]; exact h2 _⟩
  simp only [transpose_mul, transpose_transpose, h1, Matrix.mul_assoc]

theorem psd_add {A B : Matrix (Fin n) (Fin n) ℝ} (h : SymPsd A) (h' : SymPsd B) : SymPsd (A + B) :=
  ⟨fun i j => by simp [h.1 i j, h'.1 i j], fun y => by rw [quad_add]; exact add_nonneg (h.2 y) (h'.2 y)⟩

theorem pd_add {A B : Matrix (Fin n) (Fin n) ℝ} (h : SymPd A) (h' : SymPsd B) : SymPd (A + B) :=
  ⟨fun i j => by simp [h.1 i j, h'.1 i j], fun y hy => by rw [quad_add]; exact add_pos_of_pos_of_nonneg (h.2 y hy) (h'.2 y)⟩

theorem SymPd.psd {A : Matrix (Fin n) (Fin n) ℝ} (h : SymPd A) : SymPsd A :=
  ⟨h.1, fun y => by
    by_cases hy : y = 0
    · subst hy; simp [quad]
    · exact le_of_lt (h.2 y hy)⟩

theorem quad_diag (d y : Fin n → ℝ) : quad (diagonal d) y = ∑ i, d i * y i ^ 2 := by
  rw [quad_eq]
  unfold dotProduct
  refine Finset.sum_congr rfl fun i _ => ?_
  rw [mulVec_diagonal]; ring

theorem psd_diag {d : Fin n → ℝ} (h : ∀ i, 0 ≤ d i) : SymPsd (diagonal d) := by
  refine ⟨(sym_iff _).2 (diagonal_transpose d), fun y => ?_⟩
  rw [quad_diag]
  exact Finset.sum_nonneg fun i _ => mul_nonneg (h i) (sq_nonneg _)

theorem pd_diag {d : Fin n → ℝ} (h : ∀ i, 0 < d i) : SymPd (diagonal d) := by
  refine ⟨(sym_iff _).2 (diagonal_transpose d), fun y hy => ?_⟩
  rw [quad_diag]
  obtain ⟨k, hk⟩ := Function.ne_iff.1 hy
  refine Finset.sum_pos' (fun i _ => mul_nonneg (h i).le (sq_nonneg _)) ⟨k, Finset.mem_univ _, mul_pos (h k) ?_⟩
  exact lt_of_le_of_ne (sq_nonneg _) (Ne.symm (pow_ne_zero 2 (by simpa using hk)))

theorem pd_det {A : Matrix (Fin n) (Fin n) ℝ} (h : SymPd A) : A.det ≠ 0 := by
  intro hd
  obtain ⟨v, hv, h0⟩ := exists_mulVec_eq_zero_iff.2 hd
  have := h.2 v hv
  rw [quad_eq, h0, dotProduct_zero] at this
  exact lt_irrefl _ this

theorem pd_inv {A : Matrix (Fin n) (Fin n) ℝ} (h : SymPd A) : SymPd A⁻¹ := by
  have hu : IsUnit A.det := isUnit_iff_ne_zero.2 (pd_det h)
  have hs := (sym_iff _).1 h.1
  have hsi : (A⁻¹)ᵀ = A⁻¹ := by rw [transpose_nonsing_inv, hs]
  refine ⟨(sym_iff _).2 hsi, fun y hy => ?_⟩
  have e : A⁻¹ = A⁻¹ * A * (A⁻¹)ᵀ := by rw [hsi, nonsing_inv_mul _ hu, Matrix.one_mul]
  rw [e, quad_conj, hsi]
  refine h.2 _ fun h0 => hy ?_
  have := congrArg (A *ᵥ ·) h0
  simpa [mulVec_mulVec, mul_nonsing_inv _ hu] using this

theorem psd_zero : SymPsd (0 : Matrix (Fin n) (Fin n) ℝ) := ⟨fun _ _ => rfl, fun y => by simp [quad]⟩

theorem pd_conj (M : Matrix (Fin n) (Fin n) ℝ) (hM : M.det ≠ 0) {A : Matrix (Fin n) (Fin n) ℝ} (h : SymPd A) :
    SymPd (M * A * Mᵀ) := by
  refine ⟨(psd_conj M h.psd).1, fun y hy => ?_⟩
  rw [quad_conj]
  refine h.2 _ fun h0 => hM ?_
  rw [← det_transpose]
  exact exists_mulVec_eq_zero_iff.1 ⟨y, hy, h0⟩

/-! ## The measurement update -/

variable {P : Matrix (Fin 5) (Fin 5) ℝ} {H : Matrix (Fin n) (Fin 5) ℝ} {R S : Matrix (Fin n) (Fin n) ℝ}

/-- `W S Wᵀ = W H P`. -/
theorem gain_sym (hP : Pᵀ = P) (hR : Rᵀ = R) (hS : S = H * P * Hᵀ + R) (hd : S.det ≠ 0) :
    (P * Hᵀ * S⁻¹) * S = P * Hᵀ ∧ (P * Hᵀ * S⁻¹) * S * (P * Hᵀ * S⁻¹)ᵀ = (P * Hᵀ * S⁻¹) * H * P := by
  have hu : IsUnit S.det := isUnit_iff_ne_zero.2 hd
  have hs : Sᵀ = S := by rw [hS]; simp only [transpose_add, transpose_mul, transpose_transpose, hP, hR, Matrix.mul_assoc]
  have h1 : (P * Hᵀ * S⁻¹) * S = P * Hᵀ := by rw [Matrix.mul_assoc, nonsing_inv_mul _ hu, Matrix.mul_one]
  refine ⟨h1, ?_⟩
  rw [h1]
  simp only [transpose_mul, transpose_transpose, transpose_nonsing_inv, hs, hP, Matrix.mul_assoc]

/-- Joseph's form. -/
theorem joseph (hP : Pᵀ = P) (hR : Rᵀ = R) (hS : S = H * P * Hᵀ + R) (hd : S.det ≠ 0) :
    P - (P * Hᵀ * S⁻¹) * S * (P * Hᵀ * S⁻¹)ᵀ =
      (1 - P * Hᵀ * S⁻¹ * H) * P * (1 - P * Hᵀ * S⁻¹ * H)ᵀ + (P * Hᵀ * S⁻¹) * R * (P * Hᵀ * S⁻¹)ᵀ := by
  obtain ⟨h1, h2⟩ := gain_sym hP hR hS hd
  generalize P * Hᵀ * S⁻¹ = W at h1 h2 ⊢
  have h3 : W * H * P * Hᵀ * Wᵀ + W * R * Wᵀ = W * S * Wᵀ := by rw [hS]; simp only [Matrix.mul_add, Matrix.add_mul, Matrix.mul_assoc]
  have h4 : P * Hᵀ * Wᵀ = W * S * Wᵀ := by rw [h1]
  calc P - W * S * Wᵀ = P - W * H * P - P * Hᵀ * Wᵀ + (W * H * P * Hᵀ * Wᵀ + W * R * Wᵀ) := by
        rw [h3, h4, h2]; abel
    _ = _ := by
        simp only [transpose_sub, transpose_one, transpose_mul, Matrix.mul_sub, Matrix.sub_mul, Matrix.one_mul, Matrix.mul_one,
          Matrix.mul_assoc]
        abel

/-- Information form. -/
theorem information (hP : Pᵀ = P) (hR : Rᵀ = R) (hS : S = H * P * Hᵀ + R) (hd : S.det ≠ 0) (hPd : P.det ≠ 0) (hRd : R.det ≠ 0) :
    (P⁻¹ + Hᵀ * R⁻¹ * H) * (P - (P * Hᵀ * S⁻¹) * S * (P * Hᵀ * S⁻¹)ᵀ) = 1 ∧
      (P⁻¹ + Hᵀ * R⁻¹ * H) * (P * Hᵀ * S⁻¹) = Hᵀ * R⁻¹ := by
  have uS : IsUnit S.det := isUnit_iff_ne_zero.2 hd
  have uP : IsUnit P.det := isUnit_iff_ne_zero.2 hPd
  have uR : IsUnit R.det := isUnit_iff_ne_zero.2 hRd
  have k2 : (P⁻¹ + Hᵀ * R⁻¹ * H) * (P * Hᵀ * S⁻¹) = Hᵀ * R⁻¹ := by
    have e1 : (P⁻¹ + Hᵀ * R⁻¹ * H) * (P * Hᵀ * S⁻¹) = (P⁻¹ * P) * Hᵀ * S⁻¹ + Hᵀ * R⁻¹ * (H * P * Hᵀ) * S⁻¹ := by
      simp only [Matrix.add_mul, Matrix.mul_assoc]
    have e2 : Hᵀ = Hᵀ * R⁻¹ * R := by rw [Matrix.mul_assoc, nonsing_inv_mul _ uR, Matrix.mul_one]
    rw [e1, nonsing_inv_mul _ uP, Matrix.one_mul]
    calc Hᵀ * S⁻¹ + Hᵀ * R⁻¹ * (H * P * Hᵀ) * S⁻¹ = Hᵀ * R⁻¹ * R * S⁻¹ + Hᵀ * R⁻¹ * (H * P * Hᵀ) * S⁻¹ := by rw [← e2]
      _ = Hᵀ * R⁻¹ * (S * S⁻¹) := by
          rw [hS, Matrix.add_mul, Matrix.mul_add]
          simp only [Matrix.mul_assoc]
          rw [add_comm]
      _ = Hᵀ * R⁻¹ := by rw [mul_nonsing_inv _ uS, Matrix.mul_one]
  refine ⟨?_, k2⟩
  obtain ⟨_, h2⟩ := gain_sym hP hR hS hd
  rw [h2, Matrix.mul_sub, Matrix.mul_assoc (P * Hᵀ * S⁻¹) H P, ← Matrix.mul_assoc _ (P * Hᵀ * S⁻¹), k2, Matrix.add_mul,
    nonsing_inv_mul _ uP]
  simp only [Matrix.mul_assoc]
  abel
end

/-! ## The filter -/

theorem kalF_eq (dt : ℝ) : kalF dt = moveMatrix dt := by
  ext i j; fin_cases i <;> fin_cases j <;> simp [kalF, moveMatrix]

theorem kalF_set (d dt : ℝ) : (fun i j => if i = 3 ∧ j = 4 then dt else kalF d i j : Matrix (Fin 5) (Fin 5) ℝ) = moveMatrix dt := by
  ext i j; fin_cases i <;> fin_cases j <;> simp [kalF, moveMatrix]

theorem move_mulVec (dt : ℝ) (x : Fin 5 → ℝ) : moveMatrix dt *ᵥ x = moved dt x := by
  funext i; fin_cases i <;> simp [moveMatrix, moved, mulVec, dotProduct, Fin.sum_univ_five]

theorem kalAddQ_eq (P : Matrix (Fin 5) (Fin 5) ℝ) : kalAddQ P = P + processNoise := by
  ext i j; fin_cases i <;> fin_cases j <;> simp [kalAddQ, processNoise]

theorem kalP0_eq : kalP0 = aPriori := by
  ext i j; fin_cases i <;> fin_cases j <;> simp [kalP0, aPriori, Fin.ext_iff] <;> norm_num

/-- Variances of the measurements. -/
def kalR {n : ℕ} : Option (Fin n → ℝ) → Fin n → ℝ
  | none => 0
  | some w => fun i => 100 + w i

theorem kalAddR_eq {n : ℕ} (w : Option (Fin n → ℝ)) (S : Matrix (Fin n) (Fin n) ℝ) : kalAddR w S = S + diagonal (kalR w) := by
  ext i j
  cases w with
  | none => simp [kalAddR, kalR]
  | some w =>
    by_cases h : i = j
    · subst h; simp [kalAddR, kalR]
    · simp [kalAddR, kalR, h]

theorem kalDist_range (sv : Fin 4 → ℝ) (x : Fin 5 → ℝ) : kalDist x sv + x 3 = modelRange sv x := by
  unfold kalDist modelRange; simp only [pow_two]

theorem kalDist_pos {sv : Fin 4 → ℝ} {x : Fin 5 → ℝ} (h : Apart sv x) : 0 < kalDist x sv := by
  unfold kalDist
  apply Real.sqrt_pos.2
  unfold Apart at h
  by_contra hle
  have h0 : (sv 0 - x 0) * (sv 0 - x 0) + (sv 1 - x 1) * (sv 1 - x 1) + (sv 2 - x 2) * (sv 2 - x 2) ≤ 0 := not_lt.1 hle
  have a := mul_self_nonneg (sv 0 - x 0)
  have b := mul_self_nonneg (sv 1 - x 1)
  have c := mul_self_nonneg (sv 2 - x 2)
  exact h ⟨sub_eq_zero.1 (mul_self_eq_zero.1 (by linarith)), sub_eq_zero.1 (mul_self_eq_zero.1 (by linarith)),
    sub_eq_zero.1 (mul_self_eq_zero.1 (by linarith))⟩

theorem kalDist_zero {sv : Fin 4 → ℝ} {x : Fin 5 → ℝ} (h : kalDist x sv ≠ 0) : Apart sv x := by
  rintro ⟨a, b, c⟩
  exact h (by simp [kalDist, a, b, c])

theorem noise_psd : SymPsd processNoise := by
  refine ⟨fun i j => by fin_cases i <;> fin_cases j <;> simp [processNoise], fun y => ?_⟩
  have : quad processNoise y = 0.0114 * y 3 ^ 2 + 2 * 0.0019 * y 3 * y 4 + 0.0039 * y 4 ^ 2 := by
    simp [quad, processNoise, Fin.sum_univ_five]; ring
  rw [this]
  nlinarith [sq_nonneg (y 3 + y 4), sq_nonneg (y 3), sq_nonneg (y 4)]

theorem aPriori_diag : aPriori = diagonal ![2500, 2500, 2500, 2500, 30] := by
  ext i j; fin_cases i <;> fin_cases j <;> simp [aPriori]

theorem aPriori_pd : SymPd aPriori := by
  rw [aPriori_diag]; apply pd_diag; intro i; fin_cases i <;> norm_num

theorem move_det (dt : ℝ) : (moveMatrix dt).det ≠ 0 := by
  intro h
  obtain ⟨v, hv, h0⟩ := exists_mulVec_eq_zero_iff.2 h
  rw [move_mulVec] at h0
  apply hv
  have e := fun i => congrFun h0 i
  have e0 := e 0; have e1 := e 1; have e2 := e 2; have e3 := e 3; have e4 := e 4
  simp [moved] at e0 e1 e2 e3 e4
  funext i
  fin_cases i
  · exact e0
  · exact e1
  · exact e2
  · simpa [e4] using e3
  · exact e4

theorem movedCov_psd {P : Matrix (Fin 5) (Fin 5) ℝ} (dt : ℝ) (h : SymPsd P) : SymPsd (movedCov dt P) := psd_add (psd_conj _ h) noise_psd

theorem movedCov_pd {P : Matrix (Fin 5) (Fin 5) ℝ} (dt : ℝ) (h : SymPd P) : SymPd (movedCov dt P) :=
  pd_add (pd_conj _ (move_det dt) h) noise_psd

/-- The covariance an update starts from. -/
noncomputable def priorCov (k : Kalman) : Matrix (Fin 5) (Fin 5) ℝ := if k.idx = 0 then aPriori else k.P

/-- The update, in terms of the specification's pieces. -/
theorem kalUpdate_eq {k : Kalman} {d : ℝ} (hF : k.F = kalF d) (u : KalInput) :
    let x := moved u.dt k.state
    let H := kalJacobian k.coef x u.sv
    let P := movedCov u.dt (priorCov k)
    let S := H * P * Hᵀ + diagonal (kalR u.w)
    let W := P * Hᵀ * S⁻¹
    kalUpdate k u = open Classical in if (∃ i, kalDist x (u.sv i) = 0) ∨ S.det = 0 then none
      else some ⟨x + W *ᵥ (fun i => kalMeasured k.coef u.obs u.sv i - modelRange (u.sv i) x), P - W * S * Wᵀ, moveMatrix u.dt, k.coef, k.idx + 1⟩ := by
  intro x H P S W
  unfold kalUpdate
  simp only [hF, kalF_set, move_mulVec, kalAddQ_eq, kalAddR_eq, kalP0_eq, kalPredict, kalDist_range]
  rfl

/-- What is known of a filter after some updates. -/
structure KalInv (k : Kalman) (c : ℝ) (n : ℕ) : Prop where
  coef : k.coef = c
  idx : k.idx = n
  F : ∃ d, k.F = kalF d

theorem kalUpdate_inv {k k' : Kalman} {c : ℝ} {n : ℕ} {u : KalInput} (hi : KalInv k c n) (h : kalUpdate k u = some k') : KalInv k' c (n + 1) := by
  obtain ⟨d, hF⟩ := hi.F
  have e := kalUpdate_eq hF u
  simp only at e
  rw [e] at h
  split at h
  · exact absurd h (by simp)
  · cases h
    exact ⟨hi.coef, by simp [hi.idx], ⟨u.dt, (kalF_eq _).symm⟩⟩

theorem kalRun_append (us : List KalInput) (u : KalInput) : ∀ k, kalRun k (us ++ [u]) = (kalRun k us).bind fun k => kalUpdate k u := by
  induction us with
  | nil =>
    intro k
    simp only [List.nil_append, kalRun, Option.bind_some]
    cases kalUpdate k u <;> rfl
  | cons a us ih =>
    intro k
    simp only [List.cons_append, kalRun]
    cases kalUpdate k a with
    | none => rfl
    | some k1 => simp only [Option.bind_some]; exact ih k1

/-- Induction over the history of a filter. -/
theorem kalRun_induct {x : Fin 5 → ℝ} {P0 : Matrix (Fin 5) (Fin 5) ℝ} {c : ℝ} {good : KalInput → Prop} {Q : Kalman → Prop}
    (step : ∀ k k' u, good u → (∃ n, KalInv k c n) → (k.idx = 0 ∨ Q k) → kalUpdate k u = some k' → Q k') :
    ∀ (us : List KalInput) (k : Kalman), (∀ u ∈ us, good u) → kalRun (kalNew x P0 c) us = some k →
      KalInv k c us.length ∧ (us ≠ [] → Q k) := by
  intro us
  induction us using List.reverseRecOn with
  | nil =>
    intro k _ h
    cases h
    exact ⟨⟨rfl, rfl, ⟨1, rfl⟩⟩, fun h => absurd rfl h⟩
  | append_singleton us u ih =>
    intro k' hg h
    rw [kalRun_append] at h
    cases hk : kalRun (kalNew x P0 c) us with
    | none => rw [hk] at h; exact absurd h (by simp)
    | some k =>
      rw [hk, Option.bind_some] at h
      obtain ⟨i1, i2⟩ := ih k (fun v hv => hg v (by simp [hv])) hk
      refine ⟨by simpa using kalUpdate_inv i1 h, fun _ => step k k' u (hg u (by simp)) ⟨_, i1⟩ ?_ h⟩
      by_cases he : us = []
      · left; rw [i1.idx, he]; rfl
      · right; exact i2 he

/-- Measurement variances are not negative. -/
def VarNonneg (u : KalInput) : Prop := ∀ w, u.w = some w → ∀ i, 0 ≤ 100 + w i
/-- Weights are given and measurement variances are positive. -/
def VarPos (u : KalInput) : Prop := ∃ w, u.w = some w ∧ ∀ i, 0 < 100 + w i

theorem VarPos.nonneg {u : KalInput} (h : VarPos u) : VarNonneg u := by
  obtain ⟨w, h1, h2⟩ := h
  intro w' h' i
  rw [h1] at h'; cases h'
  exact (h2 i).le

theorem VarNonneg.diag {u : KalInput} (h : VarNonneg u) : SymPsd (diagonal (kalR u.w)) := by
  apply psd_diag
  intro i
  cases hw : u.w with
  | none => simp [kalR]
  | some w => exact h w hw i

theorem VarPos.diag {u : KalInput} (h : VarPos u) : SymPd (diagonal (kalR u.w)) := by
  obtain ⟨w, h1, h2⟩ := h
  rw [h1]
  exact pd_diag h2

theorem step_psd {k k' : Kalman} {c : ℝ} {u : KalInput} (hv : VarNonneg u) (hi : ∃ n, KalInv k c n) (hq : k.idx = 0 ∨ SymPsd k.P)
    (h : kalUpdate k u = some k') : SymPsd k'.P := by
  obtain ⟨n, hi⟩ := hi
  obtain ⟨d, hF⟩ := hi.F
  have e := kalUpdate_eq hF u
  simp only at e
  rw [e] at h
  have hp : SymPsd (priorCov k) := by
    unfold priorCov
    split
    · exact aPriori_pd.psd
    · rcases hq with h0 | h0
      · contradiction
      · exact h0
  have hm := movedCov_psd u.dt hp
  split at h
  · exact absurd h (by simp)
  · rename_i hne
    cases h
    simp only
    push Not at hne
    rw [joseph ((sym_iff _).1 hm.1) ((sym_iff _).1 hv.diag.1) rfl hne.2]
    exact psd_add (psd_conj _ hm) (psd_conj _ hv.diag)

/-- **C44.** After any number (at least one) of updates, with any numbers of satellites and any
measurement variances that are not negative, the covariance is symmetric and positive semi-definite. -/
theorem C44_covariance {x : Fin 5 → ℝ} {P0 : Matrix (Fin 5) (Fin 5) ℝ} {c : ℝ} {us : List KalInput} {k : Kalman}
    (hv : ∀ u ∈ us, VarNonneg u) (hne : us ≠ []) (h : kalRun (kalNew x P0 c) us = some k) : SymPsd k.P :=
  (kalRun_induct (Q := fun k => SymPsd k.P) (fun _ _ _ hg hi hq h => step_psd hg hi hq h) us k hv h).2 hne

theorem priorCov_run {c : ℝ} {us : List KalInput} {k : Kalman}
    (hi : KalInv k c us.length) : priorCov k = if us = [] then aPriori else k.P := by
  unfold priorCov
  rw [hi.idx]
  by_cases h : us = []
  · simp [h]
  · simp [h]

theorem run_prior_psd {x : Fin 5 → ℝ} {P0 : Matrix (Fin 5) (Fin 5) ℝ} {c : ℝ} {us : List KalInput} {k : Kalman}
    (hv : ∀ u ∈ us, VarNonneg u) (h : kalRun (kalNew x P0 c) us = some k) :
    KalInv k c us.length ∧ SymPsd (priorCov k) := by
  obtain ⟨a, b⟩ := kalRun_induct (Q := fun k => SymPsd k.P) (fun _ _ _ hg hi hq h => step_psd hg hi hq h) us k hv h
  refine ⟨a, ?_⟩
  rw [priorCov_run a]
  split
  · exact aPriori_pd.psd
  · exact b ‹_›

/-- **C44.** A measurement never increases the covariance: it is at most the covariance predicted for
the epoch. -/
theorem C44_never_increases {x : Fin 5 → ℝ} {P0 : Matrix (Fin 5) (Fin 5) ℝ} {c : ℝ} {us : List KalInput} {k k' : Kalman} {u : KalInput}
    (hv : ∀ u ∈ us, VarNonneg u) (hu : VarNonneg u) (h : kalRun (kalNew x P0 c) us = some k) (h' : kalUpdate k u = some k') (y : Fin 5 → ℝ) :
    quad k'.P y ≤ quad (movedCov u.dt (if us = [] then aPriori else k.P)) y := by
  obtain ⟨hi, hp⟩ := run_prior_psd hv h
  rw [← priorCov_run hi]
  obtain ⟨d, hF⟩ := hi.F
  have e := kalUpdate_eq hF u
  simp only at e
  rw [e] at h'
  have hm := movedCov_psd u.dt hp
  split at h'
  · exact absurd h' (by simp)
  · cases h'
    simp only
    rw [quad_sub, quad_conj]
    have := (psd_add (psd_conj (kalJacobian k.coef (moved u.dt k.state) u.sv) hm) hu.diag).2
    linarith [this ((movedCov u.dt (priorCov k) * (kalJacobian k.coef (moved u.dt k.state) u.sv)ᵀ *
      (kalJacobian k.coef (moved u.dt k.state) u.sv * movedCov u.dt (priorCov k) * (kalJacobian k.coef (moved u.dt k.state) u.sv)ᵀ +
        diagonal (kalR u.w))⁻¹)ᵀ *ᵥ y)]

/-- **C44.** With positive measurement variances and satellites away from the receiver an update always
gives finite numbers. -/
theorem C44_defined {x : Fin 5 → ℝ} {P0 : Matrix (Fin 5) (Fin 5) ℝ} {c : ℝ} {us : List KalInput} {k : Kalman} {u : KalInput}
    (hv : ∀ u ∈ us, VarNonneg u) (h : kalRun (kalNew x P0 c) us = some k) (hu : VarPos u)
    (ha : ∀ i, Apart (u.sv i) (moved u.dt k.state)) : ∃ k', kalUpdate k u = some k' := by
  obtain ⟨hi, hp⟩ := run_prior_psd hv h
  obtain ⟨d, hF⟩ := hi.F
  have e := kalUpdate_eq hF u
  simp only at e
  rw [e, if_neg]
  · exact ⟨_, rfl⟩
  · push Not
    refine ⟨fun i => (kalDist_pos (ha i)).ne', ?_⟩
    rw [add_comm]
    exact pd_det (pd_add hu.diag (psd_conj _ (movedCov_psd u.dt hp)))

theorem step_pd {k k' : Kalman} {c : ℝ} {u : KalInput} (hv : VarPos u) (hi : ∃ n, KalInv k c n) (hq : k.idx = 0 ∨ SymPd k.P)
    (h : kalUpdate k u = some k') : SymPd k'.P := by
  have hi' := hi
  obtain ⟨n, hi⟩ := hi
  obtain ⟨d, hF⟩ := hi.F
  have e := kalUpdate_eq hF u
  simp only at e
  have hpsd := step_psd hv.nonneg hi' (hq.imp id SymPd.psd) h
  rw [e] at h
  have hp : SymPd (priorCov k) := by
    unfold priorCov
    split
    · exact aPriori_pd
    · rcases hq with h0 | h0
      · contradiction
      · exact h0
  have hm := movedCov_pd u.dt hp
  split at h
  · exact absurd h (by simp)
  · rename_i hne
    cases h
    push Not at hne
    obtain ⟨i1, -⟩ := information ((sym_iff _).1 hm.1) ((sym_iff _).1 hv.diag.1) (H := kalJacobian k.coef (moved u.dt k.state) u.sv) rfl hne.2
      (pd_det hm) (pd_det hv.diag)
    refine ⟨hpsd.1, fun y hy => lt_of_le_of_ne (hpsd.2 y) fun h0 => hy ?_⟩
    simp only at hpsd h0
    generalize hN : movedCov u.dt (priorCov k) - _ = N at i1 h0 hpsd
    have ha : SymPd ((movedCov u.dt (priorCov k))⁻¹ + (kalJacobian k.coef (moved u.dt k.state) u.sv)ᵀ * (diagonal (kalR u.w))⁻¹ *
        kalJacobian k.coef (moved u.dt k.state) u.sv) := by
      refine pd_add (pd_inv hm) ?_
      have := psd_conj (kalJacobian k.coef (moved u.dt k.state) u.sv)ᵀ (pd_inv hv.diag).psd
      rwa [transpose_transpose] at this
    have hN' : N = ((movedCov u.dt (priorCov k))⁻¹ + (kalJacobian k.coef (moved u.dt k.state) u.sv)ᵀ * (diagonal (kalR u.w))⁻¹ *
        kalJacobian k.coef (moved u.dt k.state) u.sv)⁻¹ := (inv_eq_right_inv i1).symm
    by_contra hy'
    have := (pd_inv ha).2 y hy'
    rw [← hN', ← h0] at this
    exact lt_irrefl _ this

/-- **C44.** With positive measurement variances the covariance even stays positive definite: the
standard deviations printed by `print_state` are square roots of positive numbers. -/
theorem C44_definite {x : Fin 5 → ℝ} {P0 : Matrix (Fin 5) (Fin 5) ℝ} {c : ℝ} {us : List KalInput} {k : Kalman}
    (hv : ∀ u ∈ us, VarPos u) (hne : us ≠ []) (h : kalRun (kalNew x P0 c) us = some k) : SymPd k.P ∧ ∀ i, 0 < k.P i i := by
  have hp := (kalRun_induct (Q := fun k => SymPd k.P) (fun _ _ _ hg hi hq h => step_pd hg hi hq h) us k hv h).2 hne
  refine ⟨hp, fun i => ?_⟩
  have := hp.2 (Pi.single i 1) (by simp)
  rwa [quad_eq, mulVec_single_one, single_one_dotProduct] at this

theorem col4_factor {n : ℕ} (H : Matrix (Fin n) (Fin 5) ℝ) (h4 : ∀ i, H i 4 = 0) :
    ∃ (H' : Matrix (Fin n) (Fin 4) ℝ) (E : Matrix (Fin 4) (Fin 5) ℝ), H = H' * E := by
  refine ⟨Matrix.of fun i j => H i j.castSucc, Matrix.of fun i j => if j = i.castSucc then 1 else 0, ?_⟩
  ext i j
  rw [Matrix.mul_apply, Fin.sum_univ_four]
  have := h4 i
  fin_cases j <;> simp [Fin.ext_iff]
  exact this

/-- **C44.** Without weights (the default argument) no measurement noise is added: with five or more
satellites the residual covariance is singular and the update cannot give finite numbers. -/
theorem C44_no_weights_singular (k : Kalman) (u : KalInput) (hw : u.w = none) (hn : 5 ≤ u.n) : kalUpdate k u = none := by
  unfold kalUpdate
  simp only
  rw [if_pos]
  right
  rw [hw]
  simp only [kalAddR]
  set Fm : Matrix (Fin 5) (Fin 5) ℝ := fun i j => if i = 3 ∧ j = 4 then u.dt else k.F i j
  set H := kalJacobian k.coef (Fm *ᵥ k.state) u.sv
  set P := kalAddQ (Fm * (if k.idx = 0 then kalP0 else k.P) * Fmᵀ)
  obtain ⟨H', E, hH⟩ := col4_factor H (fun i => by simp [H, kalJacobian])
  by_contra hd
  have hu : IsUnit (H * P * Hᵀ) := (isUnit_iff_isUnit_det _).2 (isUnit_iff_ne_zero.2 hd)
  have r1 := rank_of_isUnit _ hu
  have r2 : (H * P * Hᵀ).rank ≤ H'.rank := by
    have : H * P * Hᵀ = H' * (E * P * Hᵀ) := by
      have := congrArg (fun M => M * (P * Hᵀ)) hH
      simpa only [Matrix.mul_assoc] using this
    rw [this]
    exact rank_mul_le_left _ _
  have r3 := rank_le_width H'
  simp at r1
  omega

/-! ## C45 -/

theorem dist_deriv (a b c p : ℝ) (h : (a - p) ^ 2 + c ≠ 0) :
    HasDerivAt (fun t => √((a - t) ^ 2 + c) + b) (-(a - p) / √((a - p) ^ 2 + c)) p := by
  have h1 : HasDerivAt (fun t => (a - t) ^ 2 + c) (-(2 * (a - p))) p := by
    have := (((hasDerivAt_id p).const_sub a).pow 2).add_const c
    exact this.congr_deriv (by simp)
  refine ((h1.sqrt h).add_const b).congr_deriv ?_
  rw [← mul_neg, mul_div_mul_left _ _ (by norm_num)]

theorem range_deriv {sv : Fin 4 → ℝ} {x : Fin 5 → ℝ} (h : Apart sv x) (j : Fin 5) :
    HasDerivAt (fun t => modelRange sv (Function.update x j t))
      (if j = 0 then -(sv 0 - x 0) / kalDist x sv else if j = 1 then -(sv 1 - x 1) / kalDist x sv
        else if j = 2 then -(sv 2 - x 2) / kalDist x sv else if j = 3 then 1 else 0) (x j) := by
  have hd := kalDist_pos h
  have hne : (sv 0 - x 0) ^ 2 + (sv 1 - x 1) ^ 2 + (sv 2 - x 2) ^ 2 ≠ 0 := by
    intro h0
    apply hd.ne'
    unfold kalDist
    simp only [← pow_two]
    rw [h0, Real.sqrt_zero]
  have e : kalDist x sv = √((sv 0 - x 0) ^ 2 + (sv 1 - x 1) ^ 2 + (sv 2 - x 2) ^ 2) := by unfold kalDist; simp only [← pow_two]
  have cases : j = 0 ∨ j = 1 ∨ j = 2 ∨ j = 3 ∨ j = 4 := by revert j; decide
  rcases cases with rfl | rfl | rfl | rfl | rfl
  · have ef : (fun t => modelRange sv (Function.update x 0 t)) = fun t => √((sv 0 - t) ^ 2 + ((sv 1 - x 1) ^ 2 + (sv 2 - x 2) ^ 2)) + x 3 := by
      funext t; simp [modelRange, add_assoc]
    rw [ef, e, if_pos rfl, add_assoc]
    exact dist_deriv _ _ _ _ (by rwa [← add_assoc])
  · have ef : (fun t => modelRange sv (Function.update x 1 t)) = fun t => √((sv 1 - t) ^ 2 + ((sv 0 - x 0) ^ 2 + (sv 2 - x 2) ^ 2)) + x 3 := by
      funext t
      simp only [modelRange]
      rw [Function.update_self, Function.update_of_ne (by decide), Function.update_of_ne (by decide), Function.update_of_ne (by decide)]
      congr 2; ring
    have e2 : (sv 0 - x 0) ^ 2 + (sv 1 - x 1) ^ 2 + (sv 2 - x 2) ^ 2 = (sv 1 - x 1) ^ 2 + ((sv 0 - x 0) ^ 2 + (sv 2 - x 2) ^ 2) := by ring
    rw [ef, e, if_neg (by decide), if_pos rfl, e2]
    exact dist_deriv _ _ _ _ (by rwa [← e2])
  · have ef : (fun t => modelRange sv (Function.update x 2 t)) = fun t => √((sv 2 - t) ^ 2 + ((sv 0 - x 0) ^ 2 + (sv 1 - x 1) ^ 2)) + x 3 := by
      funext t
      simp only [modelRange]
      rw [Function.update_self, Function.update_of_ne (by decide), Function.update_of_ne (by decide), Function.update_of_ne (by decide)]
      congr 2; ring
    have e2 : (sv 0 - x 0) ^ 2 + (sv 1 - x 1) ^ 2 + (sv 2 - x 2) ^ 2 = (sv 2 - x 2) ^ 2 + ((sv 0 - x 0) ^ 2 + (sv 1 - x 1) ^ 2) := by ring
    rw [ef, e, if_neg (by decide), if_neg (by decide), if_pos rfl, e2]
    exact dist_deriv _ _ _ _ (by rwa [← e2])
  · have := (hasDerivAt_id (x 3)).const_add (√((sv 0 - x 0) ^ 2 + (sv 1 - x 1) ^ 2 + (sv 2 - x 2) ^ 2))
    rw [if_neg (by decide), if_neg (by decide), if_neg (by decide), if_pos rfl]
    simpa [modelRange] using this
  · have := hasDerivAt_const (x 4) (modelRange sv x)
    rw [if_neg (by decide), if_neg (by decide), if_neg (by decide), if_neg (by decide)]
    simpa [modelRange] using this

/-- **C45** (partial: `coef = 1`, the default).  The matrix of an update is made of the partial
derivatives of the modelled ranges, and the predicted pseudoranges are the modelled ranges. -/
theorem C45_design_partial {n : ℕ} (x : Fin 5 → ℝ) (sv : Fin n → Fin 4 → ℝ) (h : ∀ i, Apart (sv i) x) :
    IsDesign sv x (kalJacobian 1 x sv) ∧ ∀ i, kalPredict x sv i = modelRange (sv i) x := by
  refine ⟨fun i j => ?_, fun i => kalDist_range _ _⟩
  have := range_deriv (h i) j
  convert this using 1
  unfold kalJacobian
  simp

/-- **C45** is false with another coefficient: the clock column is `coef` where the derivative is 1, and
so are all others. -/
theorem C45_coef_wrong {n : ℕ} (c : ℝ) (hc : c ≠ 1) (hn : 0 < n) (x : Fin 5 → ℝ) (sv : Fin n → Fin 4 → ℝ) (h : ∀ i, Apart (sv i) x) :
    ¬ IsDesign sv x (kalJacobian c x sv) ∧ kalJacobian c x sv = c • kalJacobian 1 x sv := by
  constructor
  · intro hd
    have h1 := hd ⟨0, hn⟩ 3
    have h2 := range_deriv (h ⟨0, hn⟩) 3
    have := h1.unique h2
    simp [kalJacobian] at this
    exact hc this
  · ext i j
    rw [Matrix.smul_apply, smul_eq_mul]
    simp only [kalJacobian]
    split_ifs <;> ring

/-! ## C59 -/

theorem design_unique {n : ℕ} {sv : Fin n → Fin 4 → ℝ} {x : Fin 5 → ℝ} {H : Matrix (Fin n) (Fin 5) ℝ} (h : ∀ i, Apart (sv i) x)
    (hH : IsDesign sv x H) : H = kalJacobian 1 x sv := by
  ext i j
  exact (hH i j).unique ((C45_design_partial x sv h).1 i j)

theorem run_prior_pd {x : Fin 5 → ℝ} {P0 : Matrix (Fin 5) (Fin 5) ℝ} {c : ℝ} {us : List KalInput} {k : Kalman}
    (hv : ∀ u ∈ us, VarPos u) (h : kalRun (kalNew x P0 c) us = some k) :
    KalInv k c us.length ∧ SymPd (priorCov k) := by
  obtain ⟨a, b⟩ := kalRun_induct (Q := fun k => SymPd k.P) (fun _ _ _ hg hi hq h => step_pd hg hi hq h) us k hv h
  refine ⟨a, ?_⟩
  rw [priorCov_run a]
  split
  · exact aPriori_pd
  · exact b ‹_›

/-- Completing the square. -/
theorem lsq_min {n : ℕ} {P : Matrix (Fin 5) (Fin 5) ℝ} {H : Matrix (Fin n) (Fin 5) ℝ} {r : Fin n → ℝ} (hP : SymPd P) (hr : ∀ i, 0 < r i)
    (x₀ : Fin 5 → ℝ) (v : Fin n → ℝ) (x : Fin 5 → ℝ) :
    let S := H * P * Hᵀ + diagonal r
    let x₁ := x₀ + (P * Hᵀ * S⁻¹) *ᵥ v
    lsq P x₀ H v r x = lsq P x₀ H v r x₁ + quad (P⁻¹ + Hᵀ * (diagonal r)⁻¹ * H) (x - x₁) := by
  intro S x₁
  have hR := pd_diag hr
  have hS : S.det ≠ 0 := by
    have := pd_det (pd_add hR (psd_conj H hP.psd))
    rwa [add_comm] at this
  obtain ⟨-, k2⟩ := information ((sym_iff _).1 hP.1) ((sym_iff _).1 hR.1) (H := H) rfl hS (pd_det hP) (pd_det hR)
  have hA := (pd_add (pd_inv hP) (by
      have := psd_conj Hᵀ (pd_inv hR).psd
      rwa [transpose_transpose] at this)).1
  rw [sym_iff] at hA
  -- the sum of squares as a quadratic polynomial
  have hpoly : ∀ d : Fin 5 → ℝ, quad P⁻¹ d + ∑ i, (v i - ∑ j, H i j * d j) ^ 2 / r i =
      quad (P⁻¹ + Hᵀ * (diagonal r)⁻¹ * H) d - 2 * (d ⬝ᵥ (Hᵀ * (diagonal r)⁻¹) *ᵥ v) + ∑ i, v i ^ 2 / r i := by
    intro d
    have hinv : (diagonal r)⁻¹ = diagonal fun i => (r i)⁻¹ := by
      apply inv_eq_right_inv
      rw [diagonal_mul_diagonal, ← diagonal_one]
      congr 1
      funext i
      exact mul_inv_cancel₀ (hr i).ne'
    have q1 : quad (Hᵀ * (diagonal r)⁻¹ * H) d = ∑ i, (∑ j, H i j * d j) ^ 2 / r i := by
      have := quad_conj Hᵀ (diagonal r)⁻¹ d
      rw [transpose_transpose] at this
      rw [this, hinv, quad_diag]
      refine Finset.sum_congr rfl fun i _ => ?_
      have : (H *ᵥ d) i = ∑ j, H i j * d j := rfl
      rw [this, div_eq_mul_inv, mul_comm]
    have q2 : d ⬝ᵥ (Hᵀ * (diagonal r)⁻¹) *ᵥ v = ∑ i, (∑ j, H i j * d j) * v i / r i := by
      rw [← mulVec_mulVec, dotProduct_mulVec, vecMul_transpose, hinv]
      unfold dotProduct
      refine Finset.sum_congr rfl fun i _ => ?_
      have : (H *ᵥ d) i = ∑ j, H i j * d j := rfl
      rw [this, mulVec_diagonal]
      field_simp
    rw [quad_add, q1, q2, Finset.mul_sum]
    rw [add_sub_assoc, add_assoc, ← Finset.sum_sub_distrib, ← Finset.sum_add_distrib]
    congr 1
    refine Finset.sum_congr rfl fun i _ => ?_
    ring
  generalize hAd : P⁻¹ + Hᵀ * (diagonal r)⁻¹ * H = A at k2 hpoly hA ⊢
  have e1 : (Hᵀ * (diagonal r)⁻¹) *ᵥ v = A *ᵥ (x₁ - x₀) := by
    rw [← k2, ← mulVec_mulVec]
    simp only [x₁, add_sub_cancel_left]
    rfl
  unfold lsq
  have p1 := hpoly (x - x₀)
  have p2 := hpoly (x₁ - x₀)
  simp only [Pi.sub_apply] at p1 p2
  rw [p1, p2, e1]
  have hx : x - x₁ = (x - x₀) - (x₁ - x₀) := by abel
  rw [hx]
  generalize x - x₀ = d
  generalize x₁ - x₀ = d₁
  simp only [quad_eq, mulVec_sub, sub_dotProduct, dotProduct_sub]
  have hs : d₁ ⬝ᵥ A *ᵥ d = d ⬝ᵥ A *ᵥ d₁ := by
    rw [dotProduct_mulVec, ← mulVec_transpose, hA, dotProduct_comm]
  rw [hs]
  ring

/-- **C59.** The estimate after an update is the one and only minimum of the weighted sum of squares:
squared distance to the predicted state (position kept, clock drifted) with the predicted covariance,
plus squared residuals of the linearised pseudoranges (corrected for the satellite clock) over their
variances `100 + w`. -/
theorem C59_least_squares {x : Fin 5 → ℝ} {P0 : Matrix (Fin 5) (Fin 5) ℝ} {us : List KalInput} {k : Kalman} {u : KalInput}
    (hv : ∀ u ∈ us, VarPos u) (h : kalRun (kalNew x P0 1) us = some k) {w : Fin u.n → ℝ} (hw : u.w = some w) (hpos : ∀ i, 0 < 100 + w i)
    (ha : ∀ i, Apart (u.sv i) (moved u.dt k.state)) {H : Matrix (Fin u.n) (Fin 5) ℝ} (hH : IsDesign u.sv (moved u.dt k.state) H) :
    ∃ k', kalUpdate k u = some k' ∧ ∀ x', x' ≠ k'.state →
      lsq (movedCov u.dt (if us = [] then aPriori else k.P)) (moved u.dt k.state) H
          (fun i => (u.obs i + 299792458 * u.sv i 3) - modelRange (u.sv i) (moved u.dt k.state)) (fun i => 100 + w i) k'.state <
        lsq (movedCov u.dt (if us = [] then aPriori else k.P)) (moved u.dt k.state) H
          (fun i => (u.obs i + 299792458 * u.sv i 3) - modelRange (u.sv i) (moved u.dt k.state)) (fun i => 100 + w i) x' := by
  obtain ⟨k', hk'⟩ := C44_defined (fun u hu => (hv u hu).nonneg) h ⟨w, hw, hpos⟩ ha
  refine ⟨k', hk', fun x' hne => ?_⟩
  obtain ⟨hi, hp⟩ := run_prior_pd hv h
  rw [← priorCov_run hi]
  have hm := movedCov_pd u.dt hp
  obtain ⟨d, hF⟩ := hi.F
  have e := kalUpdate_eq hF u
  simp only at e
  rw [e] at hk'
  have hHe := design_unique ha hH
  split at hk'
  · exact absurd hk' (by simp)
  · cases hk'
    simp only at hne ⊢
    rw [hw, hi.coef, ← hHe] at hne ⊢
    have hmeas : (fun i => kalMeasured 1 u.obs u.sv i - modelRange (u.sv i) (moved u.dt k.state)) =
        fun i => (u.obs i + 299792458 * u.sv i 3) - modelRange (u.sv i) (moved u.dt k.state) := by
      funext i; unfold kalMeasured; ring
    rw [hmeas] at hne ⊢
    have := lsq_min (H := H) hm hpos (moved u.dt k.state)
      (fun i => (u.obs i + 299792458 * u.sv i 3) - modelRange (u.sv i) (moved u.dt k.state)) x'
    simp only at this
    simp only [kalR] at hne ⊢
    rw [this]
    have hA : SymPd ((movedCov u.dt (priorCov k))⁻¹ + Hᵀ * (diagonal fun i => 100 + w i)⁻¹ * H) := by
      refine pd_add (pd_inv hm) ?_
      have := psd_conj Hᵀ (pd_inv (pd_diag hpos)).psd
      rwa [transpose_transpose] at this
    linarith [hA.2 _ (sub_ne_zero.2 hne)]

/-- **C59.** The covariance after an update is the inverse of predicted information plus information of
the measurements. -/
theorem C59_information {x : Fin 5 → ℝ} {P0 : Matrix (Fin 5) (Fin 5) ℝ} {us : List KalInput} {k k' : Kalman} {u : KalInput}
    (hv : ∀ u ∈ us, VarPos u) (h : kalRun (kalNew x P0 1) us = some k) {w : Fin u.n → ℝ} (hw : u.w = some w) (hpos : ∀ i, 0 < 100 + w i)
    {H : Matrix (Fin u.n) (Fin 5) ℝ} (hH : IsDesign u.sv (moved u.dt k.state) H) (h' : kalUpdate k u = some k') :
    ((movedCov u.dt (if us = [] then aPriori else k.P))⁻¹ + Hᵀ * diagonal (fun i => (100 + w i)⁻¹) * H) * k'.P = 1 := by
  obtain ⟨hi, hp⟩ := run_prior_pd hv h
  rw [← priorCov_run hi]
  have hm := movedCov_pd u.dt hp
  obtain ⟨d, hF⟩ := hi.F
  have e := kalUpdate_eq hF u
  simp only at e
  rw [e] at h'
  split at h'
  · exact absurd h' (by simp)
  · rename_i hne
    push Not at hne
    cases h'
    simp only
    have ha : ∀ i, Apart (u.sv i) (moved u.dt k.state) := fun i => kalDist_zero (hne.1 i)
    rw [hw, hi.coef, ← design_unique ha hH] at hne ⊢
    have hr := pd_diag hpos
    have hinv : (diagonal fun i => 100 + w i)⁻¹ = diagonal fun i => (100 + w i)⁻¹ := by
      apply inv_eq_right_inv
      rw [diagonal_mul_diagonal, ← diagonal_one]
      congr 1
      funext i
      exact mul_inv_cancel₀ (hpos i).ne'
    rw [← hinv]
    exact (information ((sym_iff _).1 hm.1) ((sym_iff _).1 hr.1) (H := H) rfl hne.2 (pd_det hm) (pd_det hr)).1

/-- **C59.** Observations that agree with the prediction leave the estimate where it was predicted: same
position and drift, clock offset advanced by drift times `dt`. -/
theorem C59_consistent {x : Fin 5 → ℝ} {P0 : Matrix (Fin 5) (Fin 5) ℝ} {us : List KalInput} {k k' : Kalman} {u : KalInput} {c : ℝ}
    (h : kalRun (kalNew x P0 c) us = some k) (h' : kalUpdate k u = some k')
    (ho : ∀ i, u.obs i = modelRange (u.sv i) (moved u.dt k.state) - 299792458 * c * u.sv i 3) : k'.state = moved u.dt k.state := by
  have hi := (kalRun_induct (Q := fun _ => True) (good := fun _ => True) (fun _ _ _ _ _ _ _ => trivial) us k (fun _ _ => trivial) h).1
  obtain ⟨d, hF⟩ := hi.F
  have e := kalUpdate_eq hF u
  simp only at e
  rw [e] at h'
  split at h'
  · exact absurd h' (by simp)
  · cases h'
    simp only
    have : (fun i => kalMeasured k.coef u.obs u.sv i - modelRange (u.sv i) (moved u.dt k.state)) = 0 := by
      funext i
      unfold kalMeasured
      rw [ho i, hi.coef]
      simp only [Pi.zero_apply]
      ring
    rw [this, mulVec_zero, add_zero]

/-! ## A concrete case: a new filter, one satellite, unit weight -/

namespace KalEx
/-- Receiver at the origin, no clock offset. -/
def start : Kalman := kalNew 0 0 1
/-- One satellite 20000 km away on the first axis. -/
def input : KalInput := ⟨1, fun _ => 20000000, fun _ => ![20000000, 0, 0, 0], 30, some fun _ => 1⟩

theorem pos : VarPos input := ⟨_, rfl, fun _ => by norm_num⟩
theorem apart (i : Fin input.n) : Apart (input.sv i) (moved input.dt start.state) := by
  rintro ⟨h, -, -⟩
  simp [input, start, kalNew, moved] at h

theorem updates : ∃ k', kalUpdate start input = some k' :=
  C44_defined (us := []) (x := 0) (P0 := 0) (c := 1) (by simp) rfl pos apart

example : ∃ k, kalRun (kalNew 0 0 1) [input] = some k ∧ SymPd k.P := by
  obtain ⟨k, hk⟩ := updates
  have h : kalRun (kalNew 0 0 1) [input] = some k := by
    show (kalUpdate start input).bind _ = _
    rw [hk]; rfl
  exact ⟨k, h, (C44_definite (by simpa using pos) (by simp) h).1⟩

example : IsDesign input.sv (moved input.dt start.state) (kalJacobian 1 (moved input.dt start.state) input.sv) :=
  (C45_design_partial _ _ apart).1

/-- The observation agrees with the prediction, so the estimate stays. -/
example : ∃ k', kalUpdate start input = some k' ∧ k'.state = moved 30 0 := by
  obtain ⟨k, hk⟩ := updates
  refine ⟨k, hk, C59_consistent (us := []) (x := 0) (P0 := 0) (c := 1) rfl hk fun i => ?_⟩
  simp [input, modelRange, moved, kalNew]
end KalEx

end Ggnss
