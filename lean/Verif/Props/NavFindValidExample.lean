import Verif.Props.NavFindValid
import Verif.Props.NavFindExample
/-! # A concrete file meeting the hypotheses of C113 -/
namespace Ggnss
namespace NavFindValidEx
open NavFateEx NavFindEx

/-- The calendar of the example: every date is second 100000 of the week. -/
def day : DateTime := ⟨59022, 13600⟩

/-- The moment of the message of GLONASS 7, in milliseconds. -/
def noon : Int := 1000 * (86400 * 59021 + 100000)

def zeroNum : Numeral := ⟨1, none, c!"0", some c!"000000000000", some (some false, c!"00")⟩

theorem zero_value : zeroNum.value = 0 := by
  norm_num [zeroNum, Numeral.value, Numeral.expVal, Numeral.digVal, Numeral.fracDigits, signVal, Nat.ofDigitChars, show '0'.toNat = 48 from rfl]

theorem healthy : HealthNumber .glonass near 0 := by
  refine Or.inl ⟨rfl, o1, rfl, ?_⟩
  obtain ⟨_, hn, rest, hr, hs⟩ := numCheck_sound (show numCheck (o1.map d2e) 61 zeroNum = true by decide)
  rw [← zero_value]
  unfold numText
  rw [List.map_drop, hr]
  exact numberIn_text hn hs

theorem truncs : truncRat 100000 = 100000 := by unfold truncRat; norm_num

theorem window : MsgInForce .glonass near day (noon - 900000) (noon + 900000) := by
  have := MsgInForce.glonass (sys := .glonass) (ls := near) (d := day) 100000 rfl ⟨near0, rfl, near_second⟩
  rw [truncs] at this
  exact this

theorem onTime {t : Int} (h : noon - 900000 ≤ t) : ¬ TooLateAt day t := by
  unfold TooLateAt
  have : 1000 * day.total = noon := by decide
  omega

/-- In force from a quarter of an hour before to a quarter of an hour after its second of week. -/
theorem inForce {t : Int} (h1 : noon - 900000 ≤ t) (h2 : t < noon + 900000) : VerdictOf (fun _ => .ok day) .glonass near t .inForce :=
  .inForce near0 day 0 _ _ rfl rfl (onTime h1) (by simp [HasRules]) healthy ⟨by norm_num, by norm_num⟩ window h1 h2

/-- Over. -/
theorem over {t : Int} (h : noon + 900000 ≤ t) : VerdictOf (fun _ => .ok day) .glonass near t .pass :=
  .outside near0 day 0 _ _ rfl rfl (onTime (by omega)) (by simp [HasRules]) healthy ⟨by norm_num, by norm_num⟩ window (Or.inr h)

/-- More than four hours ahead. -/
theorem ahead {t : Int} (h : t < noon - 14400000) : VerdictOf (fun _ => .ok day) .glonass near t .late := by
  refine .late near0 day rfl rfl ?_
  unfold TooLateAt
  have : 1000 * day.total = noon := by decide
  omega

/-- Looking for GLONASS 7 in `file`: found in the first record. -/
theorem found {t : Int} (h1 : noon - 900000 ≤ t) (h2 : t < noon + 900000) : ValidFate (fun _ => .ok day) .glonass 7 t file 0 .found :=
  .found rfl (near_good ⟨_, rfl⟩) (inForce h1 h2)

/-- After that time the search goes on and ends at the damaged second record. -/
theorem stopped {t : Int} (h : noon + 900000 ≤ t) : ValidFate (fun _ => .ok day) .glonass 7 t file 1 (.refused 6 2) :=
  .useless rfl (near_good ⟨_, rfl⟩) (over h) (.refused 6 2 rfl (word_bad ⟨_, rfl⟩))

theorem early {t : Int} (h : t < noon - 14400000) : ValidFate (fun _ => .ok day) .glonass 7 t file 0 .late :=
  .late rfl (near_good ⟨_, rfl⟩) (ahead h)

example (junk : Nat → List Char) (f : NavFrame) (hlen : f.data.length = 31) {t : Int} (h : noon + 900000 ≤ t) :
    ∃ f', findNextValid (fun _ => .ok day) junk 4 t .glonass 7 f ⟨linesText (blockLines file), 0, false, false⟩ 0 =
      .ok (some 0, ⟨6, f', ⟨linesText (blockLines file), (linesText (near ++ NavSoundEx.ls.take 2)).length, false, false⟩, 0⟩) := by
  obtain ⟨f', b, h1, h2⟩ := C113_search (dateOf := fun _ => .ok day) (fun _ => Or.inl ⟨_, rfl⟩) junk (fuel := 4) (s := ⟨linesText (blockLines file), 0, false, false⟩) (by decide) blocks content
    hlen rfl rfl (NavFindValidEx.stopped h)
  cases h1
  exact ⟨f', by rw [h2]; simp [blockLines, file]⟩

end NavFindValidEx
end Ggnss
