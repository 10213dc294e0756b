import Verif.Props.BernSound
import Verif.Props.BernExample
/-! # Concrete lines meeting the hypotheses of C98 -/
namespace Ggnss
namespace BernSoundEx
open BernExample (gap blank_dec)

/-- A reader of dates that looks at the year only, and not behind the terminator. -/
def year (t : List Char) : Res DateTime := .ok ⟨365 * (digitsVal ((t.takeWhile (· ≠ NUL)).take 4) : Int), 0⟩

theorem year_text : ReadsText year := by
  intro a b ha
  unfold year
  have h : ∀ c : List Char, (a ++ NUL :: c).takeWhile (· ≠ NUL) = a := by
    intro c
    rw [List.takeWhile_append_of_pos (by intro x hx; simp only [ne_eq, decide_not, Bool.not_eq_eq_eq_not, Bool.not_true, decide_eq_false_iff_not]; rintro rfl; exact ha hx)]
    simp
  rw [h b, h []]

/-- Not a micro-wave record, and noise in every column the lookup would read. -/
def noise : List Char := c!"???  SLR %%%%%%%%%%%%%%%%%%%%%%%%%%%%%%%%%%%%%%%%" ++ List.replicate 150 '#'
/-- Satellite 701 from 2009 on: text sticks to the numbers, and the PRN is missing. -/
def messy : List Char := c!"n/a  MW    GLONASS-M        +701A  ----  2009 12 10 00 00 00                      " ++ gap 111 ++ c!"-7;G1"

set_option maxRecDepth 20000 in
theorem lines_ok : ∀ l ∈ [noise, messy], RecordLine l := by
  intro l hl
  simp only [List.mem_cons, List.not_mem_nil, or_false] at hl
  rcases hl with rfl | rfl <;> exact ⟨by decide, by decide, by decide⟩

set_option maxRecDepth 20000 in
theorem messy_in_force : InForceLine year messy 701 ⟨365 * 2012, 0⟩ where
  mw := ⟨rfl, rfl⟩
  number := ⟨701, ⟨c!"", c!"+", c!"701", c!"A  ----  2009 12 10 00 00 00                      " ++ gap 111 ++ c!"-7;G1", by decide, by decide, by decide, by decide, by decide, by decide⟩, by decide, by decide, by decide⟩
  start := ⟨⟨365 * 2009, 0⟩, by decide, by decide⟩
  stop := Or.inl (blank_dec (by decide))

set_option maxRecDepth 20000 in
theorem no_prn (v : Int) : ¬ IntBegins messy v := strtol_not_begins (by decide) v

set_option maxRecDepth 20000 in
theorem channel : IntBegins (messy.drop 193) (-7) := ⟨c!"", c!"-", c!"7", c!";G1", by decide, by decide, by decide, by decide, by decide, by decide, by decide⟩

set_option maxRecDepth 20000 in
/-- The answer of these lines: channel -7, and 0 for the PRN that is not there. -/
example (fr0 pr0 : Int) : BernAnswerOf year [noise, messy] 1000 701 ⟨365 * 2012, 0⟩ fr0 pr0 0 (-7) 0 := by
  refine .found 1 messy (-7) 0 (by decide) rfl messy_in_force ?_ (Or.inr ⟨no_prn, rfl⟩) (Or.inl ⟨-7, channel, by decide⟩) (fun ⟨v, hv, _⟩ => no_prn v hv) ?_
  · intro j hj q hq
    obtain rfl : j = 0 := by omega
    obtain rfl : noise = q := by simpa using hq
    have h5 : noise[5]? ≠ some 'M' := by decide
    exact ⟨fun h => h5 h.mw.1, fun h => h5 h.1⟩
  · rintro ⟨v, hv, hb⟩
    rw [← channel.unique hv] at hb
    omega

end BernSoundEx
end Ggnss
