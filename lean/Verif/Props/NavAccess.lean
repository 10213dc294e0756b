import Verif.Props.NavExample
import Verif.Model.Orbit
/-!
# C74: issue of data and signal-in-space accuracy of a Galileo message
-/
namespace Ggnss
open NavItem

/-- **C74**.  Reading a well formed Galileo record gives a message whose issue of data is the first number of broadcast orbit 1 and whose
signal-in-space accuracy is the first number of broadcast orbit 6 of that record (the latter before it is rounded to a `float`). -/
theorem C74_galileo (dateOf : List Char → Res DateTime) (junk : List Char) (f : NavFrame) (s : Stream)
    (r : NavItem) (tail : List Char) (hr : r.WF dateOf) (hsys : r.sys = .galileo) (hg : s.good = true)
    (hrest : s.rest = r.text ++ tail) (hlen : f.data.length = 31) {iod : Int} (hi : r.IntAt 1 0 iod) :
    ∃ f', readNextRecord dateOf junk f s 0 = .ok ⟨0, f', s.adv r.text.length, 0⟩ ∧ galIodNav f' = .ok iod ∧ galSisa f' = (((r.num 6 0).value : ℚ) : ℝ) := by
  obtain ⟨f', h1, h2, _⟩ := C17_record dateOf junk f s r tail hr hg hrest hlen
  refine ⟨f', h1, dataAt_val h2 (by rw [hsys]; decide) (by rw [hsys]; decide) rfl hi, ?_⟩
  have := h2.data 6 (by rw [hsys]; decide) 0 (by rw [hsys]; decide)
  have e : specIndex 6 0 = 23 := rfl
  rw [e] at this
  unfold galSisa NavFrame.d
  rw [List.getD_eq_getElem?_getD, this]
  simp [NavItem.val, specUnit, hsys]

namespace NavExample

/-- " 1.200000000000D+01" -/
def twelve : Numeral := ⟨1, none, c!"1", some c!"200000000000", some (some false, c!"01")⟩

def e0 : List Char :=
  c!"E05 2020 01 01 00 15 00-4.101768136024D-05 0.000000000000D+00 0.000000000000D+00"
def e1 : List Char :=
  c!"     1.200000000000D+01 0.000000000000D+00 0.000000000000D+00 0.000000000000D+00"
def ez : List Char :=
  c!"     0.000000000000D+00 0.000000000000D+00 0.000000000000D+00 0.000000000000D+00"
def e6 : List Char :=
  c!"     1.000000000000D+00 0.000000000000D+00 0.000000000000D+00 0.000000000000D+00"

def galNum : Nat → Nat → Numeral
  | 0, 0 => bias
  | 1, 0 => twelve
  | 6, 0 => one
  | _, _ => zero

/-- A Galileo record with issue of data 12 and accuracy 1 m. -/
def gal : NavItem := ⟨.galileo, 5, toc, galNum, [e0, e1, ez, ez, ez, ez, e6, ez]⟩

theorem value_twelve : twelve.value = 12 := by
  norm_num [twelve, Numeral.value, Numeral.digVal, Numeral.fracDigits, Numeral.expVal, signVal, Nat.ofDigitChars, d0, d1, d2, d5, d6]

set_option maxRecDepth 20000 in
theorem gal_fields : ∀ j < 8, ∀ k < specCount .galileo j,
    fieldCheck (gal.lines.getD j []) ((if j = 0 then 23 else 4) + 19 * k) (galNum j k) = true := by decide +kernel

set_option maxRecDepth 20000 in
theorem gal_wf : gal.WF dateOf := by
  refine ⟨⟨⟨by decide, rfl, ?_, ?_⟩, ?_, ?_⟩, fun _ _ => rfl, by decide, ⟨_, 0, 0, ⟨?_, by decide, by decide⟩, ⟨?_, by decide, by decide⟩, rfl⟩⟩
  · intro l hl
    simp [gal] at hl
    rcases hl with rfl | rfl | rfl | rfl | rfl
    all_goals exact lineOK_of _ (by decide)
  · intro l hl; simp [gal] at hl; subst hl; rfl
  · intro l hl; simp [gal] at hl; subst hl
    exact ⟨0, c!"05", e0.drop 3, by decide, by decide, by decide, by decide, by decide, by decide, by decide⟩
  · intro j l hl k hk
    obtain ⟨hj, hl'⟩ := List.getElem?_eq_some_iff.1 hl
    have := gal_fields j hj k hk
    rw [List.getD_eq_getElem?_getD, hl] at this
    exact fieldCheck_sound this
  · simp [NavItem.val, specUnit, gal, galNum, value_zero]
  · simp [NavItem.val, specUnit, gal, galNum, value_zero]

/-- The hypotheses of `C74_galileo` are met. -/
example : ∃ f', readNextRecord dateOf [] frame ⟨gal.text, 0, false, false⟩ 0 =
    .ok ⟨0, f', (⟨gal.text, 0, false, false⟩ : Stream).adv gal.text.length, 0⟩ ∧ galIodNav f' = .ok 12 ∧ galSisa f' = 1 := by
  obtain ⟨f', h1, h2, h3⟩ := C74_galileo dateOf [] frame ⟨gal.text, 0, false, false⟩ gal [] gal_wf rfl rfl (by simp [Stream.rest]) rfl (iod := 12)
    ⟨by simp [NavItem.val, specUnit, gal, galNum, value_twelve], by decide, by decide⟩
  refine ⟨f', h1, h2, ?_⟩
  rw [h3]
  simp [gal, galNum, value_one]

end NavExample
end Ggnss
