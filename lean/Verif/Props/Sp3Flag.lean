import Verif.Spec.Sp3
import Mathlib.Data.List.Induction
/-! # C30: SP3 flags -/
namespace Ggnss

/-- What the operations do. -/
def FlagOp.run : FlagOp → Sp3Flag → Sp3Flag
  | .set e, f => f.set e
  | .clear e, f => f.clear e
  | .reset, f => f.reset

theorem isSet_eq (f : Sp3Flag) (e : Sp3Event) : f.isSet e = f.bits.getLsbD e.code := by
  unfold Sp3Flag.isSet
  rw [Bool.eq_iff_iff]
  simp only [ne_eq, decide_eq_true_eq]
  rw [← BitVec.toNat_inj]
  simp [BitVec.getLsbD, Nat.testBit]

theorem code_lt (e : Sp3Event) : e.code < 8 := by cases e <;> decide

theorem code_inj (e e' : Sp3Event) : e.code = e'.code ↔ e = e' := by
  cases e <;> cases e' <;> decide

theorem one_shift (k i : Nat) (hk : k < 8) (hi : i < 8) :
    ((1 : BitVec 8) <<< k).getLsbD i = decide (k = i) := by
  have : ∀ k < 8, ∀ i < 8, ((1 : BitVec 8) <<< k).getLsbD i = decide (k = i) := by decide
  exact this k hk i hi

/-- C30: setting one event sets it and changes no other. -/
theorem C30_set (f : Sp3Flag) (e e' : Sp3Event) : (f.set e).isSet e' = (decide (e = e') || f.isSet e') := by
  rw [isSet_eq, isSet_eq]
  simp only [Sp3Flag.set, BitVec.getLsbD_or, one_shift _ _ (code_lt e) (code_lt e'), code_inj]
  exact Bool.or_comm _ _

/-- C30: clearing one event clears it and changes no other. -/
theorem C30_clear (f : Sp3Flag) (e e' : Sp3Event) : (f.clear e).isSet e' = (!decide (e = e') && f.isSet e') := by
  rw [isSet_eq, isSet_eq]
  simp only [Sp3Flag.clear, BitVec.getLsbD_and, BitVec.getLsbD_not, one_shift _ _ (code_lt e) (code_lt e'), code_inj]
  simp [code_lt e', Bool.and_comm]

/-- C30: reset clears every event; a fresh flag has none. -/
theorem C30_reset (f : Sp3Flag) (e : Sp3Event) : f.reset.isSet e = false ∧ ({} : Sp3Flag).isSet e = false := by
  rw [isSet_eq, isSet_eq]; simp [Sp3Flag.reset]

/-- C30: after any history of operations on a fresh flag, an event is set exactly when it was set at
some time and neither cleared nor reset since. -/
theorem C30_history (ops : List FlagOp) (e : Sp3Event) :
    (ops.foldl (fun f o => o.run f) ({} : Sp3Flag)).isSet e = true ↔
      ∃ pre post, ops = pre ++ FlagOp.set e :: post ∧ ∀ o ∈ post, o ≠ .clear e ∧ o ≠ .reset := by
  induction ops using List.reverseRecOn with
  | nil => have := (C30_reset {} e).2; simpa using this
  | append_singleton ops o ih =>
    rw [List.foldl_append, List.foldl_cons, List.foldl_nil]
    generalize ops.foldl (fun f o => o.run f) ({} : Sp3Flag) = f at ih
    -- the last operation is `o`
    have key : (∃ pre post, ops ++ [o] = pre ++ FlagOp.set e :: post ∧ ∀ o ∈ post, o ≠ .clear e ∧ o ≠ .reset) ↔
        (o = .set e ∨ (o ≠ .clear e ∧ o ≠ .reset ∧
          ∃ pre post, ops = pre ++ FlagOp.set e :: post ∧ ∀ o ∈ post, o ≠ .clear e ∧ o ≠ .reset)) := by
      constructor
      · rintro ⟨pre, post, h1, h2⟩
        rcases List.eq_nil_or_concat post with rfl | ⟨post', x, rfl⟩
        · left
          have := List.append_inj' h1 rfl
          simpa using this.2
        · right
          rw [show pre ++ FlagOp.set e :: (post'.concat x) = (pre ++ FlagOp.set e :: post') ++ [x] by simp] at h1
          have := List.append_inj' h1 rfl
          have hx : o = x := by simpa using this.2
          subst hx
          refine ⟨(h2 o (by simp)).1, (h2 o (by simp)).2, pre, post', this.1, fun y hy => h2 y (by simp [hy])⟩
      · rintro (rfl | ⟨h1, h2, pre, post, rfl, h3⟩)
        · exact ⟨ops, [], rfl, by simp⟩
        · refine ⟨pre, post ++ [o], by simp, ?_⟩
          intro y hy
          simp at hy
          rcases hy with hy | rfl
          · exact h3 y hy
          · exact ⟨h1, h2⟩
    rw [key, ← ih]
    cases o with
    | set e' =>
      simp only [FlagOp.run, C30_set]
      by_cases h : e' = e <;> simp [h]
    | clear e' =>
      simp only [FlagOp.run, C30_clear]
      by_cases h : e' = e <;> simp [h]
    | reset => simp [FlagOp.run, (C30_reset f e).1]

/-- A history with set, clear, set again and a reset in it. -/
example : (([.set .maneuver, .reset, .set .clock_event, .clear .clock_event, .set .orbit_prediction] :
    List FlagOp).foldl (fun f o => o.run f) ({} : Sp3Flag)).isSet .orbit_prediction = true :=
  (C30_history _ _).2 ⟨[.set .maneuver, .reset, .set .clock_event, .clear .clock_event], [], rfl, by simp⟩

end Ggnss
