import Verif.Props.ReadFp
import Verif.Props.Sp3Example
/-! # C78: concrete observation and position lines meeting the hypotheses -/
namespace Ggnss
namespace ReadFpEx
open ObsEx Sp3Example

theorem t0' : '0'.toNat = 48 := rfl
theorem t1' : '1'.toNat = 49 := rfl
theorem t2' : '2'.toNat = 50 := rfl
theorem t3' : '3'.toNat = 51 := rfl
theorem t4' : '4'.toNat = 52 := rfl
theorem t5' : '5'.toNat = 53 := rfl
theorem t6' : '6'.toNat = 54 := rfl
theorem t7' : '7'.toNat = 55 := rfl
theorem t8' : '8'.toNat = 56 := rfl
theorem t9' : '9'.toNat = 57 := rfl

/-- A combination of the C2W and C1C values of G05. -/
example (F : Fp) (raw0 : RawRnxObs) (b : List Char) : ∃ st vs, st ≤ 0 ∧
    satEpochCollectF F raw0 (fillLine b lineG05) [[(2, -3 / 2), (0, 5 / 2)], [(1, 1)]] [0, 0, 7] 0 = .ok (st, (5 : Nat), vs ++ [7], 0) ∧
      List.Forall₂ AccurateValue [[(some gC2.num.value, -3 / 2), (some gC1.num.value, 5 / 2)], [(some gL1.num.value, 1)]] vs := by
  refine C78_observations_partial F (prn := 5) (by decide) (natCheck_sound (k := 0) (ds := c!"05") (by decide)) (by decide) (by decide) (by decide)
    (.cons (.cons ⟨g2, rfl⟩ (.cons ⟨g0, rfl⟩ .nil)) (.cons (.cons ⟨g1, rfl⟩ .nil) .nil)) ?_ [0, 0, 7] (by simp) b raw0
  have v1 : (1 : Rat) ≤ gC1.num.value := by
    norm_num [gC1, Numeral.value, Numeral.digVal, Numeral.fracDigits, Numeral.expVal, signVal, t0', t1', t2', t3', t4', t5', t6', t7', t8', t9']
  have v2 : (1 : Rat) ≤ gC2.num.value := by
    norm_num [gC2, Numeral.value, Numeral.digVal, Numeral.fracDigits, Numeral.expVal, signVal, t0', t1', t2', t3', t4', t5', t6', t7', t8', t9']
  have v3 : (1 : Rat) ≤ gL1.num.value := by
    norm_num [gL1, Numeral.value, Numeral.digVal, Numeral.fracDigits, Numeral.expVal, signVal, t0', t1', t2', t3', t4', t5', t6', t7', t8', t9']
  have key : ∀ v : Rat, 1 ≤ v → AwayFromMarker v := by
    intro v hv
    unfold AwayFromMarker
    rw [le_abs]; left
    norm_num [missingMark]; linarith
  intro xs hxs p hp x hx
  simp only [List.mem_cons, List.not_mem_nil, or_false] at hxs
  rcases hxs with rfl | rfl <;> simp only [List.mem_cons, List.not_mem_nil, or_false] at hp
  · rcases hp with rfl | rfl <;> (simp at hx; subst hx)
    exacts [key _ v2, key _ v1]
  · subst hp; simp at hx; subst hx; exact key _ v3

theorem p1_resolved : p1.Resolved := by
  constructor
  · intro n hn
    right
    simp only [p1, List.mem_cons, List.not_mem_nil, or_false] at hn
    rcases hn with rfl | rfl | rfl <;>
      norm_num [Numeral.value, Numeral.digVal, Numeral.fracDigits, Numeral.expVal, signVal, t0', t1', t2', t3', t4', t5', t6', t7', t8', t9']
  · right
    norm_num [p1, Numeral.value, Numeral.digVal, Numeral.fracDigits, Numeral.expVal, signVal, t0', t1', t2', t3', t4', t5', t6', t7', t8', t9']

example (F : Fp) (r0 : Sp3RecF) : ∃ r, getNextPositionF F (p1.line ++ NUL :: noise) r0 0 = .ok ⟨0, r, 0⟩ ∧ p1.SaysInF r ∧
    r.flag.isSet .maneuver = true := by
  obtain ⟨r, h1, h2, h3⟩ := C78_sp3_position_partial F p1_wf p1_resolved noise r0 (errno := 0) (by decide) (by decide)
  exact ⟨r, h1, h2, (h3 .maneuver (by decide)).2 rfl⟩

end ReadFpEx
end Ggnss
