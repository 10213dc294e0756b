import Verif.Props.Sp3Sound
import Verif.Props.Sp3Example
/-! # Concrete lines meeting the hypotheses of C100 -/
namespace Ggnss
namespace Sp3SoundEx

/-- A header in a bad state, but each column begins with a number. -/
def h : List Char := c!"*  2020 01+1  0  00 .5e1 seconds"
/-- A readable position line in a bad state: text sticks to the numbers, and the clock has no decimal point. -/
def l1 : List Char := c!"PG+7  15000.5km    -12000.65    5e3           7clock                      EP  M "
/-- A position line whose second coordinate is a word. -/
def l2 : List Char := c!"PR24      0.000000  unknown       0.000000 999999.999999"
def ls : List (List Char) := [c!"VG01 what ever", l1, [], l2, c!"PX"]

set_option maxRecDepth 20000 in
theorem h_ok : LineOK h := Sp3Example.lineOK_dec _ (by decide)

/-- The lines up to the defect; those after it are not looked at. -/
theorem lines : EpochLines (ls.take 4) := by
  refine ⟨?_, by decide, by decide⟩
  intro l hl
  simp only [ls, List.take_succ_cons, List.take_zero, List.mem_cons, List.not_mem_nil, or_false] at hl
  rcases hl with rfl | rfl | rfl | rfl <;> exact ⟨by decide, by decide, by decide⟩

theorem long {t ws sg ds rest : List Char} {v : Int} (h1 : t = ws ++ (sg ++ (ds ++ rest))) (h2 : ∀ c ∈ ws, isSpace c = true) (h3 : sg = [] ∨ sg = ['+'] ∨ sg = ['-'])
    (h4 : ds ≠ []) (h5 : ∀ c ∈ ds, c.isDigit = true) (h6 : ∀ c, rest.head? = some c → c.isDigit = false)
    (h7 : v = if sg = ['-'] then -(Nat.ofDigitChars 10 ds 0 : Int) else (Nat.ofDigitChars 10 ds 0 : Int))
    (h8 : v ≤ 9223372036854775807 ∧ -9223372036854775808 ≤ v) : LongBegins t v := ⟨⟨ws, sg, ds, rest, h1, h2, h3, h4, h5, h6, h7⟩, h8⟩

theorem y : LongBegins (h.drop 3) 2020 := long (ws := []) (sg := []) (ds := c!"2020") (rest := c!" 01+1  0  00 .5e1 seconds") (by decide) (by decide) (by decide) (by decide) (by decide) (by decide) (by decide) (by decide)
theorem mo : LongBegins (h.drop 8) 1 := long (ws := []) (sg := []) (ds := c!"01") (rest := c!"+1  0  00 .5e1 seconds") (by decide) (by decide) (by decide) (by decide) (by decide) (by decide) (by decide) (by decide)
theorem d : LongBegins (h.drop 11) 1 := long (ws := []) (sg := []) (ds := c!"1") (rest := c!"  0  00 .5e1 seconds") (by decide) (by decide) (by decide) (by decide) (by decide) (by decide) (by decide) (by decide)
theorem hr : LongBegins (h.drop 14) 0 := long (ws := []) (sg := []) (ds := c!"0") (rest := c!"  00 .5e1 seconds") (by decide) (by decide) (by decide) (by decide) (by decide) (by decide) (by decide) (by decide)
theorem mi : LongBegins (h.drop 17) 0 := long (ws := []) (sg := []) (ds := c!"00") (rest := c!" .5e1 seconds") (by decide) (by decide) (by decide) (by decide) (by decide) (by decide) (by decide) (by decide)

def secNum : Numeral := ⟨0, none, c!"", some c!"5", some (none, c!"1")⟩
theorem sec_shape : secNum.Shape := ⟨by decide, by decide, by decide, by rintro s ds ⟨⟩; decide⟩
theorem sec_value : secNum.value = 5 := by
  norm_num [secNum, Numeral.value, Numeral.expVal, Numeral.digVal, Numeral.fracDigits, signVal, Nat.ofDigitChars, show '5'.toNat = 53 from rfl, show '1'.toNat = 49 from rfl, show '0'.toNat = 48 from rfl]
theorem sec : NumberIn (h.drop 20) 5 := by
  rw [← sec_value]
  exact Or.inr ⟨⟨[], secNum, 'e', c!" seconds", by decide, by decide, sec_shape, Or.inl rfl, rfl, by decide, by simp [secNum], by simp [secNum]⟩,
    fits_of_shape sec_shape (by decide) (by decide) (by rintro s ds ⟨⟩; decide)⟩

theorem head : HeadGives h ⟨2020, 1, 1, 0, 0, 5000000⟩ where
  start := by decide
  year := ⟨2020, y, by decide, by decide⟩
  month := ⟨1, mo, by decide⟩
  day := ⟨1, d, by decide⟩
  hour := ⟨0, hr, by decide⟩
  minute := ⟨0, mi, by decide⟩
  seconds := ⟨5, sec, by norm_num, by norm_num⟩

def xNum : Numeral := ⟨0, none, c!"15000", some c!"5", none⟩
def yNum : Numeral := ⟨0, some true, c!"12000", some c!"65", none⟩
def zNum : Numeral := ⟨0, none, c!"5", none, some (none, c!"3")⟩
def cNum : Numeral := ⟨0, none, c!"7", none, none⟩

theorem num {t ws : List Char} {n : Numeral} {rest : List Char} (h1 : t = ws ++ (signText n.sign ++ (n.ip ++ (n.fracText ++ (expTextWith 'e' n ++ rest)))))
    (h2 : ∀ c ∈ ws, isSpace c = true) (h3 : n.Shape) (h4 : ∃ c, rest.head? = some c ∧ c.isDigit = false ∧ c ≠ '.' ∧ c ≠ 'e' ∧ c ≠ 'E')
    (h5 : n.ip.length ≤ 100) (h6 : n.fracDigits.length ≤ 100) (h7 : ∀ s ds, n.exp = some (s, ds) → ds.length ≤ 2) : NumberIn t n.value := by
  obtain ⟨c, g1, g2, g3, g4, g5⟩ := h4
  refine Or.inr ⟨⟨ws, n, 'e', rest, h1, h2, h3, Or.inl rfl, rfl, ?_, ?_, ?_⟩, fits_of_shape h3 h5 h6 h7⟩
  · intro x hx; rw [g1] at hx; cases hx; exact g2
  · intro _ _ hx; rw [g1] at hx; cases hx; exact g3 rfl
  · rintro _ x s d more rfl hx
    simp only [List.head?_cons, Option.some.injEq] at g1
    subst g1
    rcases hx with rfl | rfl
    · exact absurd rfl g4
    · exact absurd rfl g5

theorem values : xNum.value = 30001 / 2 ∧ yNum.value = - 1200065 / 100 ∧ zNum.value = 5000 ∧ cNum.value = 7 := by
  refine ⟨?_, ?_, ?_, ?_⟩ <;>
    norm_num [xNum, yNum, zNum, cNum, Numeral.value, Numeral.expVal, Numeral.digVal, Numeral.fracDigits, signVal, Nat.ofDigitChars, show '5'.toNat = 53 from rfl,
      show '1'.toNat = 49 from rfl, show '0'.toNat = 48 from rfl, show '6'.toNat = 54 from rfl, show '2'.toNat = 50 from rfl, show '3'.toNat = 51 from rfl,
      show '7'.toNat = 55 from rfl]

theorem pos : PosGives l1 ⟨.gps, 7, [15000500, -12000650, 5000000, 7], ⟨0b011100⟩⟩ where
  system := by decide
  number := ⟨7, long (ws := []) (sg := ['+']) (ds := ['7']) (rest := l1.drop 4) (by decide) (by decide) (by decide) (by decide) (by decide) (by decide) (by decide) (by decide), by decide⟩
  values := by
    obtain ⟨v1, v2, v3, v4⟩ := values
    refine ⟨xNum.value, yNum.value, zNum.value, cNum.value, ?_, ?_, ?_, ?_, by rw [v1, v2, v3, v4]; norm_num⟩
    · exact num (ws := c!"  ") (rest := l1.drop 13) (by decide) (by decide) ⟨by decide, by decide, by decide, by rintro s ds ⟨⟩⟩ ⟨'k', by decide⟩ (by decide) (by decide) (by rintro s ds ⟨⟩)
    · exact num (ws := c!" ") (rest := l1.drop 28) (by decide) (by decide) ⟨by decide, by decide, by decide, by rintro s ds ⟨⟩⟩ ⟨' ', by decide⟩ (by decide) (by decide) (by rintro s ds ⟨⟩)
    · exact num (ws := []) (rest := l1.drop 35) (by decide) (by decide) ⟨by decide, by decide, by decide, by rintro s ds ⟨⟩; decide⟩ ⟨' ', by decide⟩ (by decide) (by decide) (by rintro s ds ⟨⟩; decide)
    · exact num (ws := []) (rest := l1.drop 47) (by decide) (by decide) ⟨by decide, by decide, by decide, by rintro s ds ⟨⟩⟩ ⟨'c', by decide⟩ (by decide) (by decide) (by rintro s ds ⟨⟩)
  flags := by
    intro _ e he
    cases e
    · simp only [LineSignals]
      exact ⟨fun h => absurd h (by decide), fun h => by norm_num at h⟩
    · simp only [LineSignals]
      exact ⟨fun h => absurd h (by decide), fun h => by norm_num at h⟩
    · exact ⟨fun _ => by show l1[74]? = some 'E'; decide, fun _ => by decide⟩
    · exact ⟨fun _ => by show l1[75]? = some 'P'; decide, fun _ => by decide⟩
    · exact ⟨fun _ => by show l1[78]? = some 'M'; decide, fun _ => by decide⟩
    · exact absurd rfl he

theorem word : NoNumberIn (l2.drop (4 + 14 * 1)) := Or.inr (fun v hv => absurd hv (strtod_not_begins (by decide) v))

/-- What reading this epoch comes to: status 26 at its fourth line, the first record in place, the number of satellites as it was, five lines consumed. -/
example (t0 : Sp3Epoch) (sr : Int) : EpochOutcome h (ls.take 4) 0 t0 [{}, {}] sr 26 ⟨2020, 1, 1, 0, 0, 5000000⟩
    [⟨.gps, 7, [15000500, -12000650, 5000000, 7], ⟨0b011100⟩⟩, {}] sr 5 := by
  have hf : PosFails l2 (5 + (1 : Nat)) := by
    refine .column .glonass 24 1 (by decide) (long (ws := []) (sg := []) (ds := c!"24") (rest := l2.drop 4) (by decide) (by decide) (by decide) (by decide) (by decide) (by decide) (by decide) (by decide))
      (by decide) ?_ word
    intro m hm
    obtain rfl : m = 0 := by omega
    exact ⟨_, num (n := ⟨0, none, c!"0", some c!"000000", none⟩) (ws := c!"      ") (rest := l2.drop 18) (by decide) (by decide) ⟨by decide, by decide, by decide, by rintro s ds ⟨⟩⟩
      ⟨' ', by decide⟩ (by decide) (by decide) (by rintro s ds ⟨⟩)⟩
  exact .record _ [_] 3 l2 6 head rfl (by decide) hf (.cons pos .nil) (by decide)

end Sp3SoundEx
end Ggnss
