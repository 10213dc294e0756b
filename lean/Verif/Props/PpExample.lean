import Verif.Props.Pp
import Verif.Props.NavExample
/-!
# A navigation file that meets the hypotheses of C63
-/
namespace Ggnss
namespace NavExample
open NavItem

/-- The unhealthy and the healthy GLONASS record. -/
theorem two_ok : NavFileOK dateOf [gloBad, glo] := by
  constructor
  · intro r hr _
    simp at hr
    rcases hr with rfl | rfl
    exacts [gloBad_wfv, glo_wfv]
  · intro r hr
    simp at hr
    rcases hr with rfl | rfl
    exacts [gloBad_wfv.toWF.record.toIsBlock, glo_wfv.toWF.record.toIsBlock]

theorem glo_toe_unique (r : NavItem) (hs : r.sys = .glonass) {a b : Int} (ha : r.toeIs a) (hb : r.toeIs b) : a = b := by
  unfold toeIs at ha hb
  rw [hs] at ha hb
  obtain ⟨x, ⟨hx, _⟩, rfl⟩ := ha
  obtain ⟨y, ⟨hy, _⟩, rfl⟩ := hb
  have : (x : Rat) = y := hx.symm.trans hy
  have : x = y := by exact_mod_cast this
  rw [this]

theorem two_chrono : Chronological [gloBad, glo] := by
  constructor
  · simp [gloBad, glo]
  · intro r hr hs toe ht
    have hu : toe = 5084554500 := by
      simp at hr
      rcases hr with rfl | rfl
      · exact glo_toe_unique gloBad rfl ht (glo_toe gloBad rfl rfl rfl)
      · exact glo_toe_unique glo rfl ht (glo_toe glo rfl rfl rfl)
    subst hu
    simp at hr
    rcases hr with rfl | rfl <;> decide

/-- Five requests: the satellite, the same again (answered from the vector), after the end of the interval, an
unknown satellite, the first one again. -/
def requests : List (SatSys × Int × Int) :=
  [(.glonass, 1, tq), (.glonass, 1, tq + 1000), (.glonass, 1, tq + 7200000), (.gps, 7, tq), (.glonass, 1, tq)]

/-- The hypotheses of `C63_every_history` and `C63_exactly_when` are met. -/
example (junk : Nat → List Char) : ∃ out cache,
    getValidMsgs dateOf junk 10 0 frame requests [] ⟨fileText [gloBad, glo], 0, false, false⟩ 0 =
      .ok (out, cache, ⟨fileText [gloBad, glo], 0, false, false⟩, 0) ∧
    List.Forall₂ (fun q (o : Int × Option NavFrame) => (o.1 = 0 ∨ o.1 = -1) ∧ (o.1 = 0 ↔ HasValid [gloBad, glo] q.1 q.2.1 q.2.2)) requests out :=
  C63_exactly_when junk 10 0 frame rfl (by simp [Stream.rest]) rfl two_ok two_chrono (by simp) requests
    (by intro q hq; simp [requests] at hq; rcases hq with rfl | rfl | rfl | rfl | rfl <;> simp [Handled])

/-- The first request is answered with a message, the fourth is not. -/
example : HasValid [gloBad, glo] .glonass 1 tq ∧ ¬ HasValid [gloBad, glo] .gps 7 tq := by
  refine ⟨⟨glo, by simp, ⟨rfl, rfl⟩, glo_valid⟩, ?_⟩
  rintro ⟨r, hr, ⟨h, _⟩, _⟩
  simp at hr
  rcases hr with rfl | rfl <;> cases h

end NavExample
end Ggnss
