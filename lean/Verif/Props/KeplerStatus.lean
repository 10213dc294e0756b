import Verif.Spec.KeplerIter
import Verif.Props.Kepler
import Verif.Props.OrbitFpExample
/-! # C24, C76: exactly when the iteration is given up -/
namespace Ggnss

theorem keplerLoop_count (e M : ℝ) : ∀ (m i : Nat), i + m = 1001 →
    (1000 ≤ (keplerLoop e M i (keplerIter e M i) (before (keplerIter e M) i)).2 ↔
      ∀ j, i ≤ j → j < 1000 → |keplerIter e M j - before (keplerIter e M) j| > KEPLER_LIMIT) := by
  intro m
  induction m with
  | zero =>
    intro i hi
    rw [keplerLoop, if_neg (by omega)]
    exact ⟨fun _ j h1 h2 => by omega, fun _ => by omega⟩
  | succ m ih =>
    intro i hi
    by_cases hc : |keplerIter e M i - before (keplerIter e M) i| > KEPLER_LIMIT
    · rw [keplerLoop, if_pos ⟨hc, by omega⟩]
      have := ih (i + 1) (by omega)
      rw [show keplerIter e M (i + 1) = Real.sin (keplerIter e M i) * e + M from rfl,
        show before (keplerIter e M) (i + 1) = keplerIter e M i from rfl] at this
      rw [this]
      constructor
      · intro h j h1 h2
        rcases Nat.eq_or_lt_of_le h1 with rfl | h1
        · exact hc
        · exact h j h1 h2
      · intro h j h1 h2; exact h j (by omega) h2
    · rw [keplerLoop, if_neg (fun h => hc h.1)]
      constructor
      · intro h j h1 h2
        simp only at h
        omega
      · intro h
        by_contra hlt
        simp only [not_le] at hlt
        exact hc (h i (Nat.le_refl _) hlt)

theorem keplerLoopF_count (F : Fp) (e M : ℝ) : ∀ (m i : Nat), i + m = 1001 →
    (1000 ≤ (keplerLoopF F e M i (keplerIterF F e M i) (before (keplerIterF F e M) i)).2 ↔
      ∀ j, i ≤ j → j < 1000 → |F.rnd (keplerIterF F e M j - before (keplerIterF F e M) j)| > F.rnd KEPLER_LIMIT) := by
  intro m
  induction m with
  | zero =>
    intro i hi
    rw [keplerLoopF, if_neg (by omega)]
    exact ⟨fun _ j h1 h2 => by omega, fun _ => by omega⟩
  | succ m ih =>
    intro i hi
    by_cases hc : |F.rnd (keplerIterF F e M i - before (keplerIterF F e M) i)| > F.rnd KEPLER_LIMIT
    · rw [keplerLoopF, if_pos ⟨hc, by omega⟩]
      have := ih (i + 1) (by omega)
      rw [show keplerIterF F e M (i + 1) = F.rnd (F.rnd (F.sin (keplerIterF F e M i) * e) + M) from rfl,
        show before (keplerIterF F e M) (i + 1) = keplerIterF F e M i from rfl] at this
      rw [this]
      constructor
      · intro h j h1 h2
        rcases Nat.eq_or_lt_of_le h1 with rfl | h1
        · exact hc
        · exact h j h1 h2
      · intro h j h1 h2; exact h j (by omega) h2
    · rw [keplerLoopF, if_neg (fun h => hc h.1)]
      constructor
      · intro h j h1 h2
        simp only at h
        omega
      · intro h
        by_contra hlt
        simp only [not_le] at hlt
        exact hc (h i (Nat.le_refl _) hlt)

/-- **C24** (exact).  The solver reports failure exactly when each of the first thousand values of the iteration is more than
1e-14 away from the one before. -/
theorem C24_status_iff (k : KeplerConst) (f : NavFrame) (tSec : ℝ) (o : KeplerOut) :
    (kepler2state k f tSec o).status = 1 ↔
      ∀ i < 1000, |keplerIter (elements f).e ((elements f).meanAnomaly k.mi (tSec - f.toeSec)) i -
        before (keplerIter (elements f).e ((elements f).meanAnomaly k.mi (tSec - f.toeSec))) i| > 1e-14 := by
  have h := keplerLoop_count (f.d 8) (meanAnomaly k f (tSec - f.toeSec)) 1001 0 rfl
  rw [show ∀ e M, keplerIter e M 0 = M from fun _ _ => rfl, show ∀ u, before u 0 = 0 from fun _ => rfl] at h
  simp only [Nat.zero_le, true_implies] at h
  rw [← meanAnomaly_spec]
  have hl : KEPLER_LIMIT = 1e-14 := rfl
  rw [hl] at h
  show _ ↔ ∀ i < 1000, |keplerIter (f.d 8) _ i - before (keplerIter (f.d 8) _) i| > 1e-14
  rw [← h]
  unfold kepler2state
  simp only
  split
  · rename_i hc; exact ⟨fun _ => hc, fun _ => rfl⟩
  · rename_i hc
    exact ⟨fun e => by simp at e, fun e => absurd e hc⟩

/-- **C76** (exact).  The same in double precision, for every record and time: position and clock correction are refused exactly
when the iteration has not settled within a thousand steps. -/
theorem C76_status_iff (F : Fp) (kF : KeplerConst) (f : NavFrame) (tSec c0 : ℝ) (o : KeplerOut) :
    ((kepler2stateF F kF f tSec o).status = 1 ↔
      ∀ i < 1000, |F.rnd (keplerIterF F (f.dF F 8) (meanAnomalyF F kF f (F.rnd (tSec - f.toeSec))) i -
        before (keplerIterF F (f.dF F 8) (meanAnomalyF F kF f (F.rnd (tSec - f.toeSec)))) i)| > F.rnd 1e-14) ∧
    ((kepler2stateF F kF f tSec o).status = 0 ∨ (kepler2stateF F kF f tSec o).status = 1) ∧
    ((svClockF F kF f tSec c0).1 = 1 ↔
      ∀ i < 1000, |F.rnd (keplerIterF F (f.dF F 8) (meanAnomalyF F kF f (F.rnd (tSec - f.tocSec))) i -
        before (keplerIterF F (f.dF F 8) (meanAnomalyF F kF f (F.rnd (tSec - f.tocSec)))) i)| > F.rnd 1e-14) ∧
    ((svClockF F kF f tSec c0).1 = 0 ∨ svClockF F kF f tSec c0 = (1, c0)) := by
  have hl : KEPLER_LIMIT = 1e-14 := rfl
  have h1 := keplerLoopF_count F (f.dF F 8) (meanAnomalyF F kF f (F.rnd (tSec - f.toeSec))) 1001 0 rfl
  have h2 := keplerLoopF_count F (f.dF F 8) (meanAnomalyF F kF f (F.rnd (tSec - f.tocSec))) 1001 0 rfl
  rw [show ∀ e M, keplerIterF F e M 0 = M from fun _ _ => rfl, show ∀ u, before u 0 = 0 from fun _ => rfl] at h1 h2
  simp only [Nat.zero_le, true_implies, hl] at h1 h2
  rw [← h1, ← h2]
  unfold kepler2stateF svClockF
  simp only
  refine ⟨?_, ?_, ?_, ?_⟩
  · split
    · rename_i hc; exact ⟨fun _ => hc, fun _ => rfl⟩
    · rename_i hc; exact ⟨fun e => by simp at e, fun e => absurd e hc⟩
  · split
    · exact Or.inr rfl
    · exact Or.inl rfl
  · split
    · rename_i hc; exact ⟨fun _ => hc, fun _ => rfl⟩
    · rename_i hc; exact ⟨fun e => by simp at e, fun e => absurd e hc⟩
  · split
    · exact Or.inr rfl
    · exact Or.inl rfl

/-- Both sides of `C76_status_iff` occur: `C76_no_convergence` gives a record of the first kind. -/
example (F : Fp) (kF : KeplerConst) (o : KeplerOut) : ∃ f : NavFrame, (kepler2stateF F kF f f.toeSec o).status = 1 := by
  obtain ⟨f, _, _, _, h⟩ := C76_no_convergence F
  exact ⟨f, h kF o⟩

end Ggnss
