import Verif.Props.Sp3Any
/-! # Concrete SP3 epochs meeting the hypotheses of C31 - C33, C48 -/
namespace Ggnss
namespace Sp3Example

theorem lineOK_dec (l : List Char) (h : decide ('\n' ∉ l) && decide (NUL ∉ l) && decide (l.length ≤ 127) = true) :
    LineOK l := by
  simpa [and_assoc, LineOK] using h

def hdr : EpochLine :=
  ⟨c!"*  2020  1  1  0  0  0.00000000", 2020, 1, 1, 0, 0, ⟨1, none, c!"0", some c!"00000000", none⟩⟩
def hdr2 : EpochLine :=
  ⟨c!"*  2020  1  1  0 15  0.00000000", 2020, 1, 1, 0, 15, ⟨1, none, c!"0", some c!"00000000", none⟩⟩

set_option maxRecDepth 20000 in
theorem hdr_wf : hdr.WF := by
  refine ⟨lineOK_dec _ (by decide), rfl, rfl, natCheck_sound (k := 0) (ds := c!"2020") (by decide), by decide,
    natCheck_sound (k := 1) (ds := c!"1") (by decide), natCheck_sound (k := 1) (ds := c!"1") (by decide),
    natCheck_sound (k := 1) (ds := c!"0") (by decide), natCheck_sound (k := 1) (ds := c!"0") (by decide),
    numCheck_sound (by decide), ?_⟩
  have : hdr.sec.value = 0 := by
    norm_num [hdr, Numeral.value, Numeral.digVal, Numeral.fracDigits, Numeral.expVal, signVal, show '0'.toNat = 48 from rfl]
  rw [this]; norm_num

set_option maxRecDepth 20000 in
theorem hdr2_wf : hdr2.WF := by
  refine ⟨lineOK_dec _ (by decide), rfl, rfl, natCheck_sound (k := 0) (ds := c!"2020") (by decide), by decide,
    natCheck_sound (k := 1) (ds := c!"1") (by decide), natCheck_sound (k := 1) (ds := c!"1") (by decide),
    natCheck_sound (k := 1) (ds := c!"0") (by decide), natCheck_sound (k := 0) (ds := c!"15") (by decide),
    numCheck_sound (by decide), ?_⟩
  have : hdr2.sec.value = 0 := by
    norm_num [hdr2, Numeral.value, Numeral.digVal, Numeral.fracDigits, Numeral.expVal, signVal, show '0'.toNat = 48 from rfl]
  rw [this]; norm_num

/-- A record with every event signalled. -/
def p1 : PosLine := ⟨c!"PG01  15000.123456 -12000.654321   5000.000000    123.456789              EP  MP", .gps, 1,
  ⟨2, none, c!"15000", some c!"123456", none⟩, ⟨1, some true, c!"12000", some c!"654321", none⟩,
  ⟨3, none, c!"5000", some c!"000000", none⟩, ⟨4, none, c!"123", some c!"456789", none⟩⟩
/-- A record without position and clock. -/
def p2 : PosLine := ⟨c!"PR24      0.000000      0.000000      0.000000 999999.999999                    ", .glonass, 24,
  ⟨6, none, c!"0", some c!"000000", none⟩, ⟨6, none, c!"0", some c!"000000", none⟩,
  ⟨6, none, c!"0", some c!"000000", none⟩, ⟨1, none, c!"999999", some c!"999999", none⟩⟩

set_option maxRecDepth 20000 in
theorem p1_wf : p1.WF :=
  ⟨lineOK_dec _ (by decide), rfl, rfl, natCheck_sound (k := 0) (ds := c!"01") (by decide), numCheck_sound (by decide),
    numCheck_sound (by decide), numCheck_sound (by decide), numCheck_sound (by decide)⟩
set_option maxRecDepth 20000 in
theorem p2_wf : p2.WF :=
  ⟨lineOK_dec _ (by decide), rfl, rfl, natCheck_sound (k := 0) (ds := c!"24") (by decide), numCheck_sound (by decide),
    numCheck_sound (by decide), numCheck_sound (by decide), numCheck_sound (by decide)⟩

/-- A velocity line stands between the two records. -/
def ls : List (List Char) := [p1.line, c!"VG01  -1000.000000", p2.line]

set_option maxRecDepth 20000 in
theorem body : IsEpochBody ls [p1, p2] := by
  refine ⟨?_, ?_, by decide, ?_⟩
  · intro l hl
    simp only [ls, List.mem_cons, List.not_mem_nil, or_false] at hl
    rcases hl with rfl | rfl | rfl
    exacts [p1_wf.ok, lineOK_dec _ (by decide), p2_wf.ok]
  · decide
  · intro p hp
    simp only [List.mem_cons, List.not_mem_nil, or_false] at hp
    rcases hp with rfl | rfl
    exacts [p1_wf, p2_wf]

/-- A file with two epochs of two records each. -/
def blocks : List EpochBlock := [⟨hdr, ls, [p1, p2]⟩, ⟨hdr2, ls, [p1, p2]⟩]
def file : Stream := ⟨(blocks.map EpochBlock.text).flatten ++ (c!"EOF" ++ ['\n']), 0, false, false⟩
def vec : List Sp3Rec := List.replicate 3 {}
def noise : List Char := List.replicate 128 '?'
def t0 : Sp3Epoch := ⟨0, 0, 0, 0, 0, 0⟩

/-- The hypotheses of `C31_file` (hence of `C31_epoch_before_header` and `C31_epoch_before_eof`) are met. -/
example : ∃ outs, readEpochs (fun _ => noise) 10 5 t0 vec 0 file 0 = .ok outs ∧
    List.Forall₂ Delivers blocks outs ∧ outs.map Sp3Out.status = [0, -1] := by
  refine C31_file (fun _ => noise) (fun _ => by simp [noise]) 10 (by decide) c!"EOF" ['\n'] (lineOK_dec _ (by decide)) rfl
    (Or.inr ⟨[], rfl⟩) blocks 5 t0 vec 0 file (by simp [blocks]) (by simp [blocks]) ?_ rfl rfl
  intro b hb
  simp only [blocks, List.mem_cons, List.not_mem_nil, or_false] at hb
  rcases hb with rfl | rfl
  · exact ⟨hdr_wf, body, by simp [vec], by simp [ls]⟩
  · exact ⟨hdr2_wf, body, by simp [vec], by simp [ls]⟩

/-- The hypotheses of `C32_overflow` are met: two records, a vector of one element. -/
example : getNextEpoch noise 10 t0 [{}] 0 file 0 = .ub :=
  C32_overflow hdr_wf body noise (by simp [noise]) 10 (by simp [ls]) t0 [{}] (by simp) 0 file
    (EpochBlock.text ⟨hdr2, ls, [p1, p2]⟩ ++ (c!"EOF" ++ ['\n'])) (by decide) rfl
    (by simp [Stream.rest, file, blocks, EpochBlock.text])

/-- The hypotheses of `C33_position_partial` are met. -/
example : ∃ r, getNextPosition (p1.line ++ NUL :: noise) {} 0 = .ok ⟨0, r, 0⟩ ∧ p1.SaysIn r ∧
    r.flag.isSet .maneuver = true := by
  obtain ⟨r, h1, h2, h3⟩ := C33_position_partial p1_wf noise {} (errno := 0) (by decide) (by decide)
  exact ⟨r, h1, h2, (h3 .maneuver (by decide)).2 rfl⟩

/-- The hypothesis of `C33_predicted_orbit_never_flagged` is met. -/
example : p1.Signals .orbit_prediction := rfl

/-- A record without accuracy and event columns, as many files have. -/
def p3 : PosLine := { p1 with line := p1.line.take 60 }
set_option maxRecDepth 20000 in
theorem p3_wf : p3.WF :=
  ⟨lineOK_dec _ (by decide), rfl, rfl, natCheck_sound (k := 0) (ds := c!"01") (by decide), numCheck_sound (by decide),
    numCheck_sound (by decide), numCheck_sound (by decide), numCheck_sound (by decide)⟩
/-- The hypotheses of `C33_short_line_flags_from_stale_bytes` are met. -/
example : p3.WF ∧ p3.line.length < 74 := ⟨p3_wf, by decide⟩

/-- The hypotheses of `C48_missing_eof_line_diverges` are met. -/
example : ∀ n, getNextEpoch noise (10 + n) t0 vec 0 ⟨hdr.line ++ '\n' :: linesText ls, 0, false, false⟩ 0 = .diverge :=
  fun n => C48_missing_eof_line_diverges hdr_wf body noise (by simp [noise]) t0 vec (by simp [vec]) 0 _ (by decide) rfl rfl
    _ (by simp [ls]; omega)

/-- The hypotheses of `C48_terminates_partial` are met. -/
example : getNextEpoch noise 10 t0 vec 0 ⟨hdr.line ++ '\n' :: (linesText ls ++ (c!"EOF" ++ [])), 0, false, false⟩ 0 ≠ .diverge := by
  refine C48_terminates_partial noise 10 t0 vec 0 _ 0 hdr.line ls c!"EOF" [] rfl ?_ (Or.inl rfl) rfl (by simp [ls])
  intro l hl
  rcases List.mem_cons.1 hl with rfl | hl
  · exact ⟨hdr_wf.ok.1, hdr_wf.ok.2.2⟩
  · rcases List.mem_cons.1 hl with rfl | hl
    · exact ⟨by decide, by decide⟩
    · exact ⟨(body.ok l hl).1, (body.ok l hl).2.2⟩

set_option maxRecDepth 20000 in
/-- The hypotheses of `C48_long_line_diverges` are met. -/
example : ∀ n, getNextEpoch noise (10 + n) t0 vec 0
    ⟨hdr.line ++ '\n' :: (linesText ls ++ (List.replicate 200 'V' ++ '\n' :: c!"EOF")), 0, false, false⟩ 0 = .diverge :=
  fun n => C48_long_line_diverges hdr_wf body noise (by simp [noise]) t0 vec (by simp [vec]) 0 _ (by decide) rfl
    (List.replicate 200 'V') c!"EOF" (by rw [List.length_replicate]; omega) (by decide) (by decide) (by decide)
    (by decide) rfl _ (by simp [ls]; omega)

theorem hdr_sec : hdr.sec.value = 0 := by
  norm_num [hdr, Numeral.value, Numeral.digVal, Numeral.fracDigits, Numeral.expVal, signVal, show '0'.toNat = 48 from rfl]

set_option maxRecDepth 20000 in
/-- The hypotheses of `C32_in_bounds_partial` are met: the file has four lines beginning with 'P'. -/
example (fuel : Nat) : (∃ o, getNextEpoch (List.replicate 128 NUL) fuel t0 (List.replicate 4 {}) 0 file 0 = .ok o ∧
      o.vec.length = (List.replicate 4 ({} : Sp3Rec)).length) ∨
    getNextEpoch (List.replicate 128 NUL) fuel t0 (List.replicate 4 {}) 0 file 0 = .diverge := by
  refine C32_in_bounds_partial (List.replicate 128 NUL) ⟨by simp, by simp⟩ fuel t0 (List.replicate 4 {}) 0 file 0
    (by decide) ?_
  intro v r h
  rw [Stream.getline_line (s := file) (l := hdr.line)
    (tail := linesText ls ++ EpochBlock.text ⟨hdr2, ls, [p1, p2]⟩ ++ (c!"EOF" ++ ['\n'])) rfl
    (by simp [Stream.rest, file, blocks, EpochBlock.text]) hdr_wf.ok.1 hdr_wf.ok.2.2] at h
  obtain ⟨r', hr'⟩ := strtodA_num (l := hdr.line) (tail := (List.replicate 128 NUL).drop (hdr.line.length + 1)) hdr_wf.sec
  unfold strtodA at hr'
  split at hr'
  · injection hr' with hr'
    have : fillLine (List.replicate 128 NUL) hdr.line =
        hdr.line ++ NUL :: (List.replicate 128 NUL).drop (hdr.line.length + 1) := rfl
    rw [this, hr', hdr_sec] at h
    injection h with h
    injection h with h _
    rw [← h, show (0 : Rat) * 1000000 = ((0 : Int) : Rat) by norm_num, castLong_int (by omega) (by omega)]
    simp
  · cases hr'

end Sp3Example
end Ggnss
