import Verif.Props.NavBadExample
import Verif.Props.AntexSat
/-!
# C75: a search that arrives at a line of no satellite system

(Theorems added after mutation testing.)
-/
namespace Ggnss

/-- One step of a search at a char that is no letter of a satellite system. -/
theorem findLoop_stray (dateOf : List Char → Res DateTime) (junk : Nat → List Char)
    (accept : NavFrame → Res (Option Int)) (sys : SatSys) (fuel : Nat) (f : NavFrame) (s : Stream) {c : Char} {tail : List Char}
    (hg : s.good = true) (hr : s.rest = c :: tail) (hc : ∀ y, c ≠ satsysToChar y) (hff : c ≠ '\xff') :
    findLoop dateOf junk accept sys (fuel + 1) f s 0 = .ok ⟨1, f, s, 0⟩ := by
  have hpk : peakSatsys s = (1, .mixed, s) := by
    unfold peakSatsys
    rw [Stream.peek_cons hg hr]
    have hp : peekedEof (some c) = false := by simp [peekedEof]; exact hff
    simp only [hp, Bool.false_eq_true, if_false, Option.getD_some]
    have hno := charToSatsys_none hc
    cases he : charToSatsys c with
    | ok y => exact absurd he (hno y)
    | _ => rfl
  rw [findLoop]
  simp only [hpk]
  rfl

/-- C75: behind records that do not match, a line that begins with no letter of a satellite system (a blank one, a comment) ends
`find_next` with status 1: it is not taken for the end of the file, and the stream stands, good, on that line. -/
theorem C75_search_stray (dateOf : List Char → Res DateTime) (junk : Nat → List Char) (fuel : Nat)
    (sys : SatSys) (prn : Int) (f : NavFrame) (s : Stream) (pre : List NavItem) (c : Char) (tail : List Char)
    (hg : s.good = true) (hrest : s.rest = fileText pre ++ c :: tail) (hl : f.data.length = 31)
    (hpre : ∀ p ∈ pre, (p.sys ≠ sys ∧ IsBlock p.sys p.lines) ∨ (p.sys = sys ∧ p.WF dateOf ∧ prn ≠ -1 ∧ p.prn ≠ prn))
    (hc : ∀ y, c ≠ satsysToChar y) (hff : c ≠ '\xff') (hfuel : pre.length < fuel) :
    ∃ f' s', findNext dateOf junk fuel sys prn f s 0 = .ok (some s.pos, ⟨1, f', s', 0⟩) ∧ s'.rest = c :: tail ∧ s'.good = true := by
  obtain ⟨m, rfl⟩ : ∃ m, fuel = pre.length + (m + 1) := ⟨fuel - pre.length - 1, by omega⟩
  obtain ⟨g, hgl, hloop⟩ := findLoop_pass dateOf junk (acceptPrn prn) sys (c :: tail) (m + 1) pre f s
    (fun p hp => by
      rcases hpre p hp with h | ⟨h1, h2, h3, h4⟩
      · exact Or.inl h
      · refine Or.inr ⟨h1, h2, fun f hf => ?_⟩
        unfold acceptPrn
        rw [if_neg]
        rw [hf.prn]
        rintro (h | h)
        · exact h3 h
        · exact h4 h.symm) hg hrest hl
  have hr' : (s.adv (fileText pre).length).rest = c :: tail := Stream.adv_rest_append hrest
  have h1 := findLoop_stray dateOf junk (acceptPrn prn) sys m g (s.adv (fileText pre).length) (by simpa using hg) hr' hc hff
  refine ⟨g, s.adv (fileText pre).length, ?_, hr', by simpa using hg⟩
  unfold findNext
  simp only [tellg_good hg]
  rw [hloop, h1]
  rfl

/-- C75: the same for `find_next_valid`. -/
theorem C75_search_valid_stray (dateOf : List Char → Res DateTime) (junk : Nat → List Char) (fuel : Nat) (t : Int)
    (sys : SatSys) (prn : Int) (f : NavFrame) (s : Stream) (pre : List NavItem) (c : Char) (tail : List Char)
    (hg : s.good = true) (hrest : s.rest = fileText pre ++ c :: tail) (hl : f.data.length = 31)
    (hpre : ∀ p ∈ pre, PassedValid dateOf t sys prn p)
    (hc : ∀ y, c ≠ satsysToChar y) (hff : c ≠ '\xff') (hfuel : pre.length < fuel) :
    ∃ f' s', findNextValid dateOf junk fuel t sys prn f s 0 = .ok (some s.pos, ⟨1, f', s', 0⟩) ∧ s'.rest = c :: tail ∧ s'.good = true := by
  obtain ⟨m, rfl⟩ : ∃ m, fuel = pre.length + (m + 1) := ⟨fuel - pre.length - 1, by omega⟩
  obtain ⟨g, hgl, hloop⟩ := findLoop_pass dateOf junk (acceptValid t sys prn) sys (c :: tail) (m + 1) pre f s
    (fun p hp => (hpre p hp).passed) hg hrest hl
  have hr' : (s.adv (fileText pre).length).rest = c :: tail := Stream.adv_rest_append hrest
  have h1 := findLoop_stray dateOf junk (acceptValid t sys prn) sys m g (s.adv (fileText pre).length) (by simpa using hg) hr' hc hff
  refine ⟨g, s.adv (fileText pre).length, ?_, hr', by simpa using hg⟩
  unfold findNextValid
  simp only [tellg_good hg]
  rw [hloop, h1]
  rfl

namespace NavBadEx
open NavItem NavExample
/-- The hypotheses are met: a blank line behind a GPS record. -/
example (junk : Nat → List Char) (tail : List Char) : ∃ f' s', findNext dateOf junk 2 .glonass 17 frame
    ⟨fileText [gps] ++ '\n' :: tail, 0, false, false⟩ 0 = .ok (some 0, ⟨1, f', s', 0⟩) := by
  obtain ⟨f', s', h, -⟩ := C75_search_stray dateOf junk 2 .glonass 17 frame
    ⟨fileText [gps] ++ '\n' :: tail, 0, false, false⟩ [gps] '\n' tail rfl rfl rfl
    (fun p hp => by simp at hp; subst hp; exact Or.inl ⟨by decide, gps_block⟩) (by intro y; cases y <;> decide) (by decide) (by decide)
  exact ⟨f', s', h⟩
end NavBadEx

end Ggnss
