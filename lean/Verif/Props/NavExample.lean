import Verif.Props.NavAny
import Mathlib.Tactic.NormNum
/-!
# Concrete records that meet the hypotheses of C16 - C21

A GLONASS record (PRN 1, 1 January 2020 00:15:00, second of week 260100, healthy), an unhealthy copy, and a GPS record of another satellite in front of it.
-/
namespace Ggnss
namespace NavExample

open NavItem

/-- Executable check of `FieldAt`, used only for the examples. -/
def fieldCheck (l : List Char) (off : Nat) (n : Numeral) : Bool :=
  decide (off ≤ l.length) && decide (allDigits n.ip) && decide (allDigits n.fracDigits) &&
  (!n.ip.isEmpty) &&
  (match n.exp with | none => true | some (_, ds) => decide (allDigits ds) && !ds.isEmpty) &&
  decide (((l.drop off).map d2e).take n.text.length = n.text) &&
  (match ((l.drop off).map d2e).drop n.text.length with
    | [] => true
    | c :: _ => (!c.isDigit) && c != '.' && c != 'e' && c != 'E' && c != 'x' && c != 'X') &&
  decide (n.ip.length ≤ 100) && decide (n.fracDigits.length ≤ 100) &&
  (match n.exp with | none => true | some (_, ds) => decide (ds.length ≤ 2))

theorem fieldCheck_sound {l : List Char} {off : Nat} {n : Numeral} (h : fieldCheck l off n = true) :
    FieldAt l off n := by
  unfold fieldCheck at h
  simp only [Bool.and_eq_true, decide_eq_true_eq] at h
  obtain ⟨⟨⟨⟨⟨⟨⟨⟨⟨h1, h2⟩, h3⟩, h4⟩, h5⟩, h6⟩, h7⟩, h8⟩, h9⟩, h10⟩ := h
  refine ⟨h1, numeral_wf_of h2 h3 (Or.inl (by simpa using h4)) (by
    intro s ds he
    rw [he] at h5
    simpa using h5) h8 h9 (by
    intro s ds he
    rw [he] at h10
    simpa using h10), ((l.drop off).map d2e).drop n.text.length, ?_, ?_⟩
  · conv_lhs => rw [← List.take_append_drop n.text.length ((l.drop off).map d2e), h6]
  · intro c hc
    revert h7 hc
    cases ((l.drop off).map d2e).drop n.text.length with
    | nil => simp
    | cons x xs =>
      simp only [List.head?_cons, Option.some.injEq]
      rintro h7 rfl
      simpa [and_assoc] using h7

/-- " 0.000000000000D+00" -/
def zero : Numeral := ⟨1, none, c!"0", some c!"000000000000", some (some false, c!"00")⟩
/-- " 2.601000000000D+05" -/
def sow : Numeral := ⟨1, none, c!"2", some c!"601000000000", some (some false, c!"05")⟩
/-- "-4.101768136024D-05" -/
def bias : Numeral := ⟨0, some true, c!"4", some c!"101768136024", some (some true, c!"05")⟩
/-- " 1.500000000000D+04" -/
def km : Numeral := ⟨1, none, c!"1", some c!"500000000000", some (some false, c!"04")⟩
/-- " 1.000000000000D+00" -/
def one : Numeral := ⟨1, none, c!"1", some c!"000000000000", some (some false, c!"00")⟩

def l0 : List Char :=
  c!"R01 2020 01 01 00 15 00-4.101768136024D-05 0.000000000000D+00 2.601000000000D+05"
def l1 : List Char :=
  c!"     1.500000000000D+04 1.500000000000D+04 0.000000000000D+00 0.000000000000D+00"
def l1bad : List Char :=
  c!"     1.500000000000D+04 1.500000000000D+04 0.000000000000D+00 1.000000000000D+00"

def gloNum (health : Numeral) : Nat → Nat → Numeral
  | 0, 0 => bias
  | 0, 2 => sow
  | 1, 3 => health
  | j + 1, 0 => if j ≤ 2 then km else zero
  | j + 1, 1 => if j ≤ 2 then km else zero
  | _, _ => zero

def toc : DateTime := ⟨58849, 900⟩

/-- A healthy GLONASS record. -/
def glo : NavItem := ⟨.glonass, 1, toc, gloNum zero, [l0, l1, l1, l1]⟩
/-- The same record with health word 1. -/
def gloBad : NavItem := ⟨.glonass, 1, toc, gloNum one, [l0, l1bad, l1, l1]⟩

def g0 : List Char :=
  c!"G07 2020 01 01 00 15 00-4.101768136024D-05 0.000000000000D+00 2.601000000000D+05"
/-- A GPS block of another satellite. -/
def gps : NavItem := ⟨.gps, 7, toc, fun _ _ => zero, [g0, l1, l1, l1, l1, l1, l1, l1]⟩

/-- The date parser of the example: it knows one date. -/
def dateOf : List Char → Res DateTime := fun _ => .ok toc

theorem lineOK_of (l : List Char) (h : decide ('\n' ∉ l) && decide (NUL ∉ l) && decide (l.length ≤ 127) = true) :
    LineOK l := by
  simpa [and_assoc, LineOK] using h

set_option maxRecDepth 20000 in
theorem l0_ok : LineOK l0 := lineOK_of _ (by decide)
set_option maxRecDepth 20000 in
theorem l1_ok : LineOK l1 := lineOK_of _ (by decide)
set_option maxRecDepth 20000 in
theorem l1bad_ok : LineOK l1bad := lineOK_of _ (by decide)
set_option maxRecDepth 20000 in
theorem g0_ok : LineOK g0 := lineOK_of _ (by decide)

theorem prn1 : PrnAt l0 1 :=
  ⟨0, c!"01", l0.drop 3, by decide, by decide, by decide, by decide, by decide, by decide, by decide⟩

set_option maxRecDepth 20000 in
theorem glo_fields (h : Numeral) (l : List Char)
    (hh : (∀ k < 4, fieldCheck l (4 + 19 * k) (gloNum h 1 k) = true)) :
    ∀ j x, [l0, l, l1, l1][j]? = some x → ∀ k < specCount .glonass j,
      FieldAt x ((if j = 0 then 23 else 4) + 19 * k) (gloNum h j k) := by
  intro j x hx k hk
  match j, hx with
  | 0, hx =>
    simp at hx; subst hx
    have hk' : k < 3 := by simpa [specCount] using hk
    apply fieldCheck_sound
    have : ∀ k < 3, fieldCheck l0 ((if 0 = 0 then 23 else 4) + 19 * k) (gloNum h 0 k) = true := by
      intro k hk
      match k, hk with
      | 0, _ => rfl
      | 1, _ => rfl
      | 2, _ => rfl
    exact this k hk'
  | 1, hx =>
    simp at hx; subst hx
    apply fieldCheck_sound
    simpa using hh k (by simpa [specCount] using hk)
  | 2, hx =>
    simp at hx; subst hx
    apply fieldCheck_sound
    have hk' : k < 4 := by simpa [specCount] using hk
    have : ∀ k < 4, fieldCheck l1 (4 + 19 * k) (gloNum h 2 k) = true := by
      intro k hk
      match k, hk with
      | 0, _ => rfl
      | 1, _ => rfl
      | 2, _ => rfl
      | 3, _ => rfl
    simpa using this k hk'
  | 3, hx =>
    simp at hx; subst hx
    apply fieldCheck_sound
    have hk' : k < 4 := by simpa [specCount] using hk
    have : ∀ k < 4, fieldCheck l1 (4 + 19 * k) (gloNum h 3 k) = true := by
      intro k hk
      match k, hk with
      | 0, _ => rfl
      | 1, _ => rfl
      | 2, _ => rfl
      | 3, _ => rfl
    simpa using this k hk'
  | j + 4, hx => simp at hx

theorem d0 : '0'.toNat = 48 := rfl
theorem d1 : '1'.toNat = 49 := rfl
theorem d2 : '2'.toNat = 50 := rfl
theorem d5 : '5'.toNat = 53 := rfl
theorem d6 : '6'.toNat = 54 := rfl

theorem value_sow : sow.value = 260100 := by
  norm_num [sow, Numeral.value, Numeral.digVal, Numeral.fracDigits, Numeral.expVal, signVal, Nat.ofDigitChars, d0, d1, d2, d5, d6]
theorem value_zero : zero.value = 0 := by
  norm_num [zero, Numeral.value, Numeral.digVal, Numeral.fracDigits, Numeral.expVal, signVal, Nat.ofDigitChars, d0, d1, d2, d5, d6]
theorem value_one : one.value = 1 := by
  norm_num [one, Numeral.value, Numeral.digVal, Numeral.fracDigits, Numeral.expVal, signVal, Nat.ofDigitChars, d0, d1, d2, d5, d6]

theorem glo_toe (r : NavItem) (hs : r.sys = .glonass) (h : r.num 0 2 = sow) (ht : r.toc = toc) :
    r.toeIs 5084554500 := by
  unfold toeIs
  rw [hs]
  refine ⟨260100, ⟨?_, by decide, by decide⟩, ?_⟩
  · simp [NavItem.val, specUnit, h, value_sow]
  · rw [ht]; decide

theorem glo_wfv : glo.WFV dateOf := by
  refine ⟨⟨⟨⟨by decide, rfl, ?_, ?_⟩, ?_, ?_⟩, fun _ _ => rfl, by decide, ⟨_, glo_toe glo rfl rfl rfl⟩⟩, ⟨0, ?_⟩, ⟨900, rfl⟩⟩
  · intro l hl
    simp [glo] at hl
    rcases hl with rfl | rfl
    exacts [l0_ok, l1_ok]
  · intro l hl; simp [glo] at hl; subst hl; rfl
  · intro l hl; simp [glo] at hl; subst hl; exact prn1
  · refine glo_fields zero l1 ?_
    intro k hk
    match k, hk with
    | 0, _ => rfl
    | 1, _ => rfl
    | 2, _ => rfl
    | 3, _ => rfl
  · show glo.IntAt 1 3 0
    refine ⟨?_, by decide, by decide⟩
    simp [NavItem.val, specUnit, glo, gloNum, value_zero]

theorem gloBad_wfv : gloBad.WFV dateOf := by
  refine ⟨⟨⟨⟨by decide, rfl, ?_, ?_⟩, ?_, ?_⟩, fun _ _ => rfl, by decide, ⟨_, glo_toe gloBad rfl rfl rfl⟩⟩, ⟨1, ?_⟩, ⟨900, rfl⟩⟩
  · intro l hl
    simp [gloBad] at hl
    rcases hl with rfl | rfl | rfl
    exacts [l0_ok, l1bad_ok, l1_ok]
  · intro l hl; simp [gloBad] at hl; subst hl; rfl
  · intro l hl; simp [gloBad] at hl; subst hl; exact prn1
  · refine glo_fields one l1bad ?_
    intro k hk
    match k, hk with
    | 0, _ => rfl
    | 1, _ => rfl
    | 2, _ => rfl
    | 3, _ => rfl
  · show gloBad.IntAt 1 3 1
    refine ⟨?_, by decide, by decide⟩
    simp [NavItem.val, specUnit, gloBad, gloNum, value_one]

theorem gps_block : IsBlock .gps gps.lines := by
  refine ⟨by decide, rfl, ?_, ?_⟩
  · intro l hl
    simp [gps] at hl
    rcases hl with rfl | rfl
    exacts [g0_ok, l1_ok]
  · intro l hl; simp [gps] at hl; subst hl; rfl

/-- Query time: 1 January 2020, 00:20:00 (milliseconds since MJD 0). -/
def tq : Int := 1000 * (86400 * 58849 + 1200)

theorem glo_valid : glo.ValidAt tq := by
  refine ⟨?_, 900, rfl, ?_⟩
  · show glo.IntAt 1 3 0
    refine ⟨?_, by decide, by decide⟩
    simp [NavItem.val, specUnit, glo, gloNum, value_zero]
  · rw [if_pos (by rfl)]
    exact ⟨_, glo_toe glo rfl rfl rfl, by decide, by decide⟩

theorem gloBad_invalid : ¬ gloBad.ValidAt tq := by
  rintro ⟨h, _⟩
  have h' : gloBad.IntAt 1 3 0 := h
  have := h'.1
  simp [NavItem.val, specUnit, gloBad, gloNum, value_one] at this

/-- A frame to fill. -/
def frame : NavFrame := ⟨.mixed, 0, ⟨0, 0⟩, ⟨0, 0⟩, List.replicate 31 0⟩
/-- A file: GPS block, unhealthy and healthy GLONASS records. -/
def file : Stream := ⟨fileText [gps, gloBad] ++ (glo.text ++ []), 0, false, false⟩

/-- The hypotheses of `C17_record` are met. -/
example : ∃ f', readNextRecord dateOf [] frame ⟨glo.text, 0, false, false⟩ 0 =
    .ok ⟨0, f', (⟨glo.text, 0, false, false⟩ : Stream).adv glo.text.length, 0⟩ ∧ Carries f' glo := by
  obtain ⟨f', h1, h2, _⟩ := C17_record dateOf [] frame ⟨glo.text, 0, false, false⟩ glo [] glo_wfv.toWF rfl
    (by simp [Stream.rest]) rfl
  exact ⟨f', h1, h2⟩

/-- The hypotheses of `C18_first_match` are met: the GPS block is skipped. -/
example (junk : Nat → List Char) : ∃ f' s', findNext dateOf junk 10 .glonass 1 frame file 0 =
    .ok (some 0, ⟨0, f', s', 0⟩) ∧ Carries f' gloBad := by
  obtain ⟨f', s', h1, h2, _⟩ := C18_first_match dateOf junk 10 .glonass 1 frame file [gps] gloBad
    (glo.text ++ []) rfl (by simp [Stream.rest, file, fileText]) rfl
    (by intro p hp; simp at hp; subst hp; exact Or.inl ⟨by decide, gps_block⟩) gloBad_wfv.toWF rfl (Or.inr rfl)
    (by simp)
  exact ⟨f', s', h1, h2⟩

/-- The hypotheses of `C18_none` are met: PRN 2 is not in the file. -/
example (junk : Nat → List Char) : ∃ f' s', findNext dateOf junk 10 .glonass 2 frame
    ⟨fileText [gps, glo], 0, false, false⟩ 0 = .ok (some 0, ⟨-1, f', s', 0⟩) := by
  obtain ⟨f', s', h1, _⟩ := C18_none dateOf junk 10 .glonass 2 frame ⟨fileText [gps, glo], 0, false, false⟩
    [gps, glo] rfl (by simp [Stream.rest]) rfl
    (by
      intro p hp; simp at hp
      rcases hp with rfl | rfl
      · exact Or.inl ⟨by decide, gps_block⟩
      · exact Or.inr ⟨rfl, glo_wfv.toWF, by decide, by decide⟩) (by simp)
  exact ⟨f', s', h1⟩

/-- The hypotheses of `C19_first_valid` are met: the unhealthy record is passed over. -/
example (junk : Nat → List Char) : ∃ f' s', findNextValid dateOf junk 10 tq .glonass 1 frame file 0 =
    .ok (some 0, ⟨0, f', s', 0⟩) ∧ Carries f' glo := by
  obtain ⟨f', s', h1, h2, _⟩ := C19_first_valid dateOf junk 10 tq .glonass 1 frame file [gps, gloBad] glo
    [] rfl (by simp [Stream.rest, file]) rfl
    (by
      intro p hp; simp at hp
      rcases hp with rfl | rfl
      · exact Or.inl ⟨by decide, gps_block⟩
      · exact Or.inr ⟨rfl, gloBad_wfv, Or.inr ⟨by unfold TooLate; decide, gloBad_invalid⟩⟩)
    glo_wfv rfl rfl glo_valid (by unfold TooLate; decide) (by simp)
  exact ⟨f', s', h1, h2⟩

/-- The hypotheses of `C19_gives_up_late` are met: one day earlier the search stops at once. -/
example (junk : Nat → List Char) : ∃ f' s', findNextValid dateOf junk 10 (tq - 86400000) .glonass 1 frame
    ⟨glo.text, 0, false, false⟩ 0 = .ok (some 0, ⟨-1, f', s', 0⟩) := by
  obtain ⟨f', s', h1, _⟩ := C19_gives_up_late dateOf junk 10 (tq - 86400000) .glonass 1 frame
    ⟨glo.text, 0, false, false⟩ [] glo [] rfl (by simp [Stream.rest, fileText]) rfl (by simp) glo_wfv rfl rfl
    (by unfold TooLate; decide) (by simp)
  exact ⟨f', s', h1⟩

/-- The hypotheses of `C47_any_satellite_never_found` are met by a file holding the valid message. -/
example (junk : Nat → List Char) : ∃ f' s', findNextValid dateOf junk 10 tq .glonass (-1) frame
    ⟨fileText [glo], 0, false, false⟩ 0 = .ok (some 0, ⟨-1, f', s', 0⟩) := by
  obtain ⟨f', s', h1, _⟩ := C47_any_satellite_never_found dateOf junk 10 tq .glonass frame
    ⟨fileText [glo], 0, false, false⟩ [glo] rfl (by simp [Stream.rest]) rfl
    (by intro p hp; simp at hp; subst hp; exact glo_wfv) (by simp)
  exact ⟨f', s', h1⟩

end NavExample
end Ggnss
