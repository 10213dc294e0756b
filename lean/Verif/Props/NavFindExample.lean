import Verif.Props.NavFind
import Verif.Props.NavFateExample
/-! # A concrete file meeting the hypotheses of C112 -/
namespace Ggnss
namespace NavFindEx
open NavFateEx

/-- GLONASS 7, all numbers readable. -/
def near0 : List Char := c!"R+7A2020 06 25 00 15 00 1.500000000000E-01 0.000000000000E+00 1.000000000000E+05"
def near : List (List Char) := [near0, o1, o1, o1]

/-- A GLONASS record that can be read, one with a word for a number, and one without a time of ephemeris. -/
def file : List NavBlock := [(.glonass, near), (.glonass, NavSoundEx.ls), (.glonass, far)]

set_option maxRecDepth 20000 in
theorem near_block : IsBlock .glonass near where
  notMixed := by decide
  count := rfl
  fits := by
    intro l hl
    simp only [near, List.mem_cons, List.not_mem_nil, or_false] at hl
    rcases hl with rfl | rfl | rfl | rfl <;> exact ⟨by decide, by decide, by decide⟩
  letter := by intro l hl; cases hl; rfl

theorem near_reaches : ReachesColumns .glonass near := by
  have key : ∀ j < 4, ∀ k < specCount .glonass j, navCol j k ≤ (near[j]?.getD []).length := by decide
  intro j l hl k hk
  have := key j (by have := (List.getElem?_eq_some_iff.1 hl).1; simpa [near] using this) k hk
  rwa [hl] at this

theorem near_plain : PlainRecord .glonass near := by
  have key : ∀ j < 4, ∀ k < specCount .glonass j, oddCheck (numText (near[j]?.getD []) (navCol j k)) = false := by decide
  intro j l hl k hk
  have := key j (by have := (List.getElem?_eq_some_iff.1 hl).1; simpa [near] using this) k hk
  rw [hl] at this
  exact not_odd this

theorem near_prn : PrnOf near0 7 := ⟨7, ⟨[], ['+'], ['7'], near0.drop 3, by decide, by decide, by decide, by decide, by decide, by decide, by decide⟩, by decide, by decide, by decide⟩

def nearNum : Numeral := ⟨1, none, c!"1", some c!"000000000000", some (some false, c!"05")⟩

theorem near_value : nearNum.value = 100000 := by
  norm_num [nearNum, Numeral.value, Numeral.expVal, Numeral.digVal, Numeral.fracDigits, signVal, Nat.ofDigitChars, show '5'.toNat = 53 from rfl, show '1'.toNat = 49 from rfl,
    show '0'.toNat = 48 from rfl]

theorem near_second : NumberIn (numText near0 61) 100000 := by
  obtain ⟨_, hn, rest, hr, hs⟩ := numCheck_sound (show numCheck (near0.map d2e) 61 nearNum = true by decide)
  rw [← near_value]
  unfold numText
  rw [List.map_drop, hr]
  exact numberIn_text hn hs

theorem near_numbers : ReadableBefore .glonass near near.length := by
  intro j hj q hq k hk
  have hj : j < 4 := hj
  obtain rfl | hj : j = 0 ∨ 0 < j := by omega
  · cases hq
    have hk : k < 3 := by simpa [specCount] using hk
    obtain rfl | rfl | rfl : k = 0 ∨ k = 1 ∨ k = 2 := by omega
    · exact NavSoundEx.plain (n := ⟨1, none, c!"1", some c!"500000000000", some (some true, c!"01")⟩) (by decide)
    · exact NavSoundEx.plain (n := ⟨1, none, c!"0", some c!"000000000000", some (some false, c!"00")⟩) (by decide)
    · exact ⟨_, near_second⟩
  · refine far_numbers j q ?_ k hk
    obtain rfl | rfl | rfl : j = 1 ∨ j = 2 ∨ j = 3 := by omega
    all_goals exact hq

theorem near_toe : ¬ ToeBeyond .glonass near := by
  rintro (⟨h | h | h, _⟩ | ⟨_, l, v, hl, hv, hb⟩)
  · cases h
  · cases h
  · cases h
  · cases hl
    have : v = 100000 := hv.unique (near_plain 0 near0 rfl 2 (by decide)) near_second
    subst this
    rcases hb with h | h <;> norm_num at h

theorem near_good {valid : List Char → Prop} (hd : valid (near0.drop 3)) : BlockIs .glonass near valid (.good 7) :=
  .good near0 7 rfl hd near_prn (by decide) near_numbers near_toe

theorem word_bad {valid : List Char → Prop} (hd : valid (NavSoundEx.l0.drop 3)) : BlockIs .glonass NavSoundEx.ls valid (.bad 6 2) := by
  refine .number NavSoundEx.l0 7 1 1 NavSoundEx.l1 rfl hd NavSoundEx.prn (by decide) rfl (by decide) NavSoundEx.word ?_
  intro i hi q hq m hm
  obtain rfl : i = 0 := by omega
  cases hq
  have h3 : m < 3 := by simpa [specCount] using hm
  obtain rfl | rfl | rfl : m = 0 ∨ m = 1 ∨ m = 2 := by omega
  · exact ⟨_, NavSoundEx.bias⟩
  · exact NavSoundEx.plain (n := ⟨1, none, c!"0", some c!"000000000000", some (some false, c!"00")⟩) (by decide)
  · exact NavSoundEx.plain (n := ⟨1, none, c!"3", some c!"456000000000", some (some false, c!"05")⟩) (by decide)

theorem blocks : ∀ b ∈ file, IsBlock b.1 b.2 := by
  intro b hb
  simp only [file, List.mem_cons, List.not_mem_nil, or_false] at hb
  rcases hb with rfl | rfl | rfl
  · exact near_block
  · exact NavSoundEx.isBlock
  · exact far_block

theorem content : ∀ b ∈ file, b.1 = .glonass → ReachesColumns .glonass b.2 ∧ PlainRecord .glonass b.2 := by
  intro b hb _
  simp only [file, List.mem_cons, List.not_mem_nil, or_false] at hb
  rcases hb with rfl | rfl | rfl
  · exact ⟨near_reaches, near_plain⟩
  · exact ⟨NavSoundEx.reaches, ls_plain⟩
  · exact ⟨far_reaches, far_plain⟩

/-- GLONASS 7 is found in the first record. -/
theorem found {valid : List Char → Prop} (hd : ∀ t, valid t) : SearchFate valid .glonass 7 file 0 .found := .found 7 rfl (near_good (hd _)) (Or.inr rfl)

/-- The search for GLONASS 8 ends at the damaged record of GLONASS 7. -/
theorem stopped {valid : List Char → Prop} (hd : ∀ t, valid t) : SearchFate valid .glonass 8 file 1 (.refused 6 2) :=
  .pass 7 rfl (near_good (hd _)) (by decide) (by decide) (.refused 6 2 rfl (word_bad (hd _)))

/-- A search for GPS 8 ends at the end of the file: records of other systems may look as they like. -/
theorem notThere {valid : List Char → Prop} : SearchFate valid .gps 8 file 3 .ended :=
  .other (by decide) (.other (by decide) (.other (by decide) .ended))

example (date : DateTime) (junk : Nat → List Char) (f : NavFrame) (hlen : f.data.length = 31) :
    ∃ f', findNext (fun _ => .ok date) junk 4 .glonass 8 f ⟨linesText (blockLines file), 0, false, false⟩ 0 =
      .ok (some 0, ⟨6, f', ⟨linesText (blockLines file), (linesText (near ++ NavSoundEx.ls.take 2)).length, false, false⟩, 0⟩) := by
  obtain ⟨f', b, h1, h2⟩ := C112_search (dateOf := fun _ => .ok date) (fun _ => Or.inl ⟨_, rfl⟩) junk (fuel := 4) (s := ⟨linesText (blockLines file), 0, false, false⟩) (by decide) blocks content
    hlen rfl rfl (stopped (fun _ => ⟨_, rfl⟩))
  cases h1
  exact ⟨f', by rw [h2]; simp [blockLines, file]⟩

end NavFindEx
end Ggnss
