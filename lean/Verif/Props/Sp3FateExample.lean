import Verif.Props.Sp3Fate
import Verif.Props.Sp3SoundExample
import Verif.Props.NavHeadSoundExample
import Verif.Props.Sp3HeadExample
/-! # Concrete files meeting the hypotheses of C109: each fate occurs -/
namespace Ggnss
namespace Sp3FateEx
open Sp3SoundEx

def body : List (List Char) := [c!"VG01 what ever", l1, []]

theorem body_lines : EpochLines body := by
  refine ⟨?_, by decide, by decide⟩
  intro l hl
  simp only [body, List.mem_cons, List.not_mem_nil, or_false] at hl
  rcases hl with rfl | rfl | rfl <;> exact ⟨by decide, by decide, by decide⟩

theorem h_plain : ¬ OddNumber (h.drop 20) := not_odd (by decide)

theorem body_plain : ∀ l ∈ body, isPLine l = true → PlainPos l := by
  intro l hl hp
  simp only [body, List.mem_cons, List.not_mem_nil, or_false] at hl
  rcases hl with rfl | rfl | rfl
  · exact absurd hp (by decide)
  · intro m hm
    obtain rfl | rfl | rfl | rfl : m = 0 ∨ m = 1 ∨ m = 2 ∨ m = 3 := by omega
    all_goals exact not_odd (by decide)
  · exact absurd hp (by decide)

theorem room : List.Forall₂ PosGives (body.filter isPLine) [⟨.gps, 7, [15000500, -12000650, 5000000, 7], ⟨0b011100⟩⟩] := .cons pos .nil

/-- The file ends without a line EOF: the call never comes back. -/
example (t0 : MicroTime) (L : Sp3Lib) (hL : ∀ t, L.Takes t ∨ ∃ e, L.date t = .throw e) (hv : L.Takes ⟨2020, 1, 1, 0, 0, 5000000⟩) (junk : List Char) (hj : junk.length = 128) (fuel : Nat) (hf : 3 < fuel) :
    sp3NextEpoch L junk fuel t0 [{}, {}] 0 ⟨h ++ '\n' :: linesText body, 0, false, false⟩ 0 = .diverge :=
  (C109_fate hL h_ok (by decide) body_lines hj hf t0 [{}, {}] 0 (s := ⟨h ++ '\n' :: linesText body, 0, false, false⟩) (by decide) rfl .nothing (by simp [Stream.rest])
    h_plain body_plain).2.2.1.2 (.unclosed _ _ head ⟨by decide, by decide⟩ hv room (by decide) rfl)

/-- No room for the record: undefined. -/
example (t0 : MicroTime) (L : Sp3Lib) (hL : ∀ t, L.Takes t ∨ ∃ e, L.date t = .throw e) (hv : L.Takes ⟨2020, 1, 1, 0, 0, 5000000⟩) (junk : List Char) (hj : junk.length = 128) (fuel : Nat) (hf : 3 < fuel) (tail : List Char) :
    sp3NextEpoch L junk fuel t0 [] 0 ⟨h ++ '\n' :: (linesText body ++ '*' :: tail), 0, false, false⟩ 0 = .ub :=
  (C109_fate hL h_ok (by decide) body_lines hj hf t0 [] 0 (s := ⟨h ++ '\n' :: (linesText body ++ '*' :: tail), 0, false, false⟩) (by decide) rfl (.star tail) (by simp [Stream.rest])
    h_plain body_plain).2.1.2 (.overflow _ [] 1 l1 _ head ⟨by decide, by decide⟩ hv rfl (by decide) pos (by simp [body, isPLine]) rfl)

/-- Room and a closing line EOF: the call returns. -/
example (t0 : MicroTime) (L : Sp3Lib) (hL : ∀ t, L.Takes t ∨ ∃ e, L.date t = .throw e) (hv : L.Takes ⟨2020, 1, 1, 0, 0, 5000000⟩) (junk : List Char) (hj : junk.length = 128) (fuel : Nat) (hf : 3 < fuel) :
    ∃ o, sp3NextEpoch L junk fuel t0 [{}] 0 ⟨h ++ '\n' :: (linesText body ++ (c!"EOF" ++ [])), 0, false, false⟩ 0 = .ok o :=
  (C109_fate hL h_ok (by decide) body_lines hj hf t0 [{}] 0 (s := ⟨h ++ '\n' :: (linesText body ++ (c!"EOF" ++ [])), 0, false, false⟩) (by decide) rfl
    (.eof c!"EOF" [] ⟨by decide, by decide, by decide⟩ rfl (Or.inl rfl)) (by simp [Stream.rest])
    h_plain body_plain).1.2 (.closed _ _ head ⟨by decide, by decide⟩ hv room (by decide) rfl)

/-- 10^13 seconds: in microseconds beyond a `long`. -/
def far : List Char := c!"*  2020 01+1  0  00 1e13 seconds"

def farNum : Numeral := ⟨0, none, c!"1", none, some (none, c!"13")⟩
theorem far_value : farNum.value = 10000000000000 := by
  norm_num [farNum, Numeral.value, Numeral.expVal, Numeral.digVal, Numeral.fracDigits, signVal, Nat.ofDigitChars, show '3'.toNat = 51 from rfl, show '1'.toNat = 49 from rfl, show '0'.toNat = 48 from rfl]

theorem far_head : HeadGives far ⟨2020, 1, 1, 0, 0, 10000000000000000000⟩ where
  start := by decide
  year := ⟨2020, long (ws := []) (sg := []) (ds := c!"2020") (rest := far.drop 7) (by decide) (by decide) (by decide) (by decide) (by decide) (by decide) (by decide) (by decide), by decide, by decide⟩
  month := ⟨1, long (ws := []) (sg := []) (ds := c!"01") (rest := far.drop 10) (by decide) (by decide) (by decide) (by decide) (by decide) (by decide) (by decide) (by decide), by decide⟩
  day := ⟨1, long (ws := []) (sg := []) (ds := c!"1") (rest := far.drop 12) (by decide) (by decide) (by decide) (by decide) (by decide) (by decide) (by decide) (by decide), by decide⟩
  hour := ⟨0, long (ws := []) (sg := []) (ds := c!"0") (rest := far.drop 15) (by decide) (by decide) (by decide) (by decide) (by decide) (by decide) (by decide) (by decide), by decide⟩
  minute := ⟨0, long (ws := []) (sg := []) (ds := c!"00") (rest := far.drop 19) (by decide) (by decide) (by decide) (by decide) (by decide) (by decide) (by decide) (by decide), by decide⟩
  seconds := ⟨10000000000000, by
    rw [← far_value]
    exact num (ws := []) (rest := c!" seconds") (by decide) (by decide) ⟨by decide, by decide, by decide, by rintro s ds ⟨⟩; decide⟩ ⟨' ', by decide⟩ (by decide) (by decide) (by rintro s ds ⟨⟩; decide),
    by norm_num, by norm_num⟩

example (t0 : MicroTime) (L : Sp3Lib) (hL : ∀ t, L.Takes t ∨ ∃ e, L.date t = .throw e) (hv : L.Takes ⟨2020, 1, 1, 0, 0, 5000000⟩) (junk : List Char) (hj : junk.length = 128) (fuel : Nat) (hf : 3 < fuel) (tail : List Char) :
    sp3NextEpoch L junk fuel t0 [{}] 0 ⟨far ++ '\n' :: (linesText body ++ '*' :: tail), 0, false, false⟩ 0 = .ub :=
  (C109_fate hL ⟨by decide, by decide, by decide⟩ (by decide) body_lines hj hf t0 [{}] 0 (s := ⟨far ++ '\n' :: (linesText body ++ '*' :: tail), 0, false, false⟩) (by decide) rfl
    (.star tail) (by simp [Stream.rest]) (not_odd (by decide)) body_plain).2.1.2 (.seconds _ far_head (by unfold InLong; decide))

/-- A calendar that does not know the date of the header: the process ends. -/
example (t0 : MicroTime) (L : Sp3Lib) (hL : ∀ t, L.Takes t ∨ ∃ e, L.date t = .throw e) (hv : L.date ⟨2020, 1, 1, 0, 0, 5000000⟩ = .throw .out_of_range) (junk : List Char)
    (hj : junk.length = 128) (fuel : Nat) (hf : 3 < fuel) (tail : List Char) :
    sp3NextEpoch L junk fuel t0 [{}] 0 ⟨h ++ '\n' :: (linesText body ++ '*' :: tail), 0, false, false⟩ 0 = .terminate :=
  (C109_fate hL h_ok (by decide) body_lines hj hf t0 [{}] 0 (s := ⟨h ++ '\n' :: (linesText body ++ '*' :: tail), 0, false, false⟩) (by decide) rfl (.star tail)
    (by simp [Stream.rest]) h_plain body_plain).2.2.2.1.2 (.date _ head ⟨by decide, by decide⟩ (by rintro ⟨d, hd⟩; rw [hv] at hd; cases hd))

/-- The calendar of the example library meets the hypothesis. -/
example : ∀ t, Sp3HeadEx.exactLib.Takes t ∨ ∃ e, Sp3HeadEx.exactLib.date t = .throw e := fun t => Or.inl ⟨_, rfl⟩

end Sp3FateEx
end Ggnss
