import Verif.Props.Sp3HeadWhole
import Verif.Props.Sp3Example
/-! # A concrete SP3 header meeting the hypotheses of C61 and C62 -/
namespace Ggnss
namespace Sp3HeadEx

/-- Modified Julian day of a calendar date (Fliegel and van Flandern). -/
def civilMjd (y m d : Int) : Int :=
  (1461 * (y + 4800 + (m - 14).tdiv 12)).tdiv 4 + (367 * (m - 2 - 12 * (m - 14).tdiv 12)).tdiv 12 -
    (3 * ((y + 4900 + (m - 14).tdiv 12).tdiv 100)).tdiv 4 + d - 32075 - 2400001

/-- A date library with exact arithmetic. -/
def exactLib : Sp3Lib where
  date t := .ok ⟨civilMjd t.year t.month t.day, (t.hour * 3600 + t.minute * 60) * 1000000 + t.micros⟩
  sameWeek d w s := decide ((86400 * (d.mjd - 44244) + d.micros / 1000000 : Rat) = 604800 * w + s ∧ 0 ≤ s ∧ s < 604800)
  sameMjd d m f := decide ((d.mjd + d.micros / 86400000000 : Rat) = m + f)

example : exactLib.Exact := ⟨fun _ _ _ => by simp [exactLib], fun _ _ _ => by simp [exactLib]⟩

def zero (k : Nat) (fr : List Char) : Numeral := ⟨k, none, c!"0", some fr, none⟩

def hdr : Sp3Header where
  version := 'c'
  year := 2020
  month := 1
  day := 1
  hour := 0
  minute := 0
  sec := ⟨1, none, c!"0", some c!"00000000", none⟩
  epochs := 2
  crdSys := c!"IGS14"
  orbType := c!"HLM"
  agency := c!" IGS"
  week := 2086
  sow := ⟨0, none, c!"259200", some c!"00000000", none⟩
  interval := ⟨2, none, c!"900", some c!"00000000", none⟩
  mjd := 58849
  dayFraction := ⟨0, none, c!"0", some c!"0000000000000", none⟩
  satellites := 2
  timeSys := c!"GPS"
  first := c!"#cP2020  1  1  0  0  0.00000000       2 ORBIT IGS14 HLM  IGS"
  second := c!"## 2086 259200.00000000   900.00000000 58849 0.0000000000000"
  sat := c!"+    2   G01R24  0  0  0  0  0  0  0  0  0  0  0  0  0  0  0"
  sats := [c!"+          0  0  0  0  0  0  0  0  0  0  0  0  0  0  0  0  0"]
  acc := c!"++         2  3  0  0  0  0  0  0  0  0  0  0  0  0  0  0  0"
  accs := [c!"++         0  0  0  0  0  0  0  0  0  0  0  0  0  0  0  0  0"]
  c1 := c!"%c M  cc GPS ccc cccc cccc cccc cccc ccccc ccccc ccccc ccccc"
  c2 := c!"%c cc cc ccc ccc cccc cccc cccc cccc ccccc ccccc ccccc ccccc"
  f1 := c!"%f  1.2500000  1.025000000  0.00000000000  0.000000000000000"
  f2 := c!"%f  0.0000000  0.000000000  0.00000000000  0.000000000000000"
  i1 := c!"%i    0    0    0    0      0      0      0      0         0"
  i2 := c!"%i    0    0    0    0      0      0      0      0         0"
  comments := [c!"/* FINAL ORBIT COMBINATION FROM WEIGHTED AVERAGE OF:", c!"/* cod emr esa gfz"]

theorem fits (l : List Char) (h : (decide ('\n' ∉ l) && decide (NUL ∉ l) && decide (l.length ≤ 84)) = true) : LineFits 84 l := by
  simpa [and_assoc, LineFits] using h

theorem vals : hdr.sec.value = 0 ∧ hdr.sow.value = 259200 ∧ hdr.interval.value = 900 ∧ hdr.dayFraction.value = 0 := by
  refine ⟨?_, ?_, ?_, ?_⟩ <;>
  norm_num [hdr, Numeral.value, Numeral.digVal, Numeral.fracDigits, Numeral.expVal, signVal, show '0'.toNat = 48 from rfl,
    show '2'.toNat = 50 from rfl, show '5'.toNat = 53 from rfl, show '9'.toNat = 57 from rfl]

set_option maxRecDepth 40000 in
theorem hdr_dated : hdr.Dated := by
  have hv := vals
  exact ⟨by decide, fits _ (by decide), by decide,
    ⟨natCheck_sound (k := 0) (ds := c!"2020") (by decide), by decide⟩,
    ⟨natCheck_sound (k := 1) (ds := c!"1") (by decide), by decide⟩,
    ⟨natCheck_sound (k := 1) (ds := c!"1") (by decide), by decide⟩,
    natCheck_sound (k := 1) (ds := c!"0") (by decide), natCheck_sound (k := 1) (ds := c!"0") (by decide),
    ⟨numCheck_sound (by decide), by rw [hv.1], by rw [hv.1]; norm_num⟩,
    ⟨natCheck_sound (k := 6) (ds := c!"2") (by decide), by decide⟩,
    by decide, by decide, by decide, fits _ (by decide), by decide,
    ⟨natCheck_sound (k := 0) (ds := c!"2086") (by decide), by decide⟩,
    numCheck_sound (by decide),
    ⟨numCheck_sound (by decide), by rw [hv.2.2.1]; norm_num, by rw [hv.2.2.1]; norm_num⟩,
    ⟨natCheck_sound (k := 0) (ds := c!"58849") (by decide), by decide⟩,
    numCheck_sound (by decide)⟩

set_option maxRecDepth 40000 in
theorem hdr_frame : hdr.Frame := by
  refine ⟨hdr_dated, ⟨fits _ (by decide), by decide⟩, ⟨natCheck_sound (k := 2) (ds := c!"2") (by decide), by decide⟩, ?_,
    ⟨fits _ (by decide), by decide⟩, ⟨fits _ (by decide), by decide⟩, by decide, ⟨fits _ (by decide), by decide⟩,
    ⟨fits _ (by decide), by decide⟩, ⟨fits _ (by decide), by decide⟩, ⟨fits _ (by decide), by decide⟩, ⟨fits _ (by decide), by decide⟩,
    ?_, by decide, by decide⟩
  · intro l hl
    simp only [hdr, List.mem_cons, List.not_mem_nil, or_false] at hl
    subst hl
    exact ⟨fits _ (by decide), by decide⟩
  · intro l hl
    simp only [hdr, List.mem_cons, List.not_mem_nil, or_false] at hl
    rcases hl with rfl | rfl
    · exact ⟨fits _ (by decide), by decide⟩
    · exact ⟨fits _ (by decide), by decide⟩

set_option maxRecDepth 40000 in
theorem hdr_wf : hdr.WF := by
  refine ⟨hdr_frame, by simp [hdr], ?_⟩
  intro l hl
  simp only [hdr, List.mem_cons, List.not_mem_nil, or_false] at hl
  subst hl
  exact ⟨fits _ (by decide), by decide⟩

def start : MicroTime := ⟨58849, 0⟩

theorem hdr_date : ∀ t, hdr.StartIs t → exactLib.date t = .ok start := by
  rintro ⟨y, m, d, h, mi, us⟩ ⟨h1, h2, h3, h4, h5, h6, h7⟩
  rw [vals.1] at h6 h7
  simp only at h1 h2 h3 h4 h5 h6 h7
  have hus : us = 0 := by
    have a : us ≤ 0 := by exact_mod_cast (by linarith : (us : Rat) ≤ 0)
    have b : 0 < us + 1 := by exact_mod_cast (by linarith : (0 : Rat) < us + 1)
    omega
  have e1 : y = 2020 := h1
  have e2 : m = 1 := h2
  have e3 : d = 1 := h3
  have e4 : h = 0 := h4
  have e5 : mi = 0 := h5
  have hc : civilMjd 2020 1 1 = 58849 := by decide
  subst e1 e2 e3 e4 e5 hus
  simp [exactLib, start, hc]

theorem hdr_week : exactLib.sameWeek start hdr.week hdr.sow.value = true := by
  rw [vals.2.1]
  simp only [exactLib, start, hdr, decide_eq_true_eq]
  norm_num

theorem hdr_mjd : exactLib.sameMjd start hdr.mjd hdr.dayFraction.value = true := by
  rw [vals.2.2.2]
  simp only [exactLib, start, hdr, decide_eq_true_eq]
  norm_num

/-- The hypotheses of `C61_open_partial` and `C61_agency_cut` are met. -/
example : ∃ f, sp3Open exactLib false (List.replicate 85 'x') (linesText hdr.lines ++ '*' :: c!"\n") = .ok f ∧ hdr.SaysIn start f ∧
    f.agency = c!" IG" := by
  obtain ⟨f, h1, h2, h3, _⟩ := C61_open_partial (List.replicate 85 'x') hdr_wf hdr_date hdr_week hdr_mjd (c := '*') (by decide) c!"\n"
  exact ⟨f, h1, h2, h3⟩

/-- Those of `C61_file`: the header followed by the two epochs of `Sp3Example`. -/
example : ∃ f vec outs, sp3Open exactLib false (List.replicate 85 'x')
      (linesText hdr.lines ++ ((Sp3Example.blocks.map EpochBlock.text).flatten ++ (c!"EOF" ++ ['\n']))) = .ok f ∧
      hdr.SaysIn start f ∧ sp3Allocate f.numSats = .ok vec ∧
      readEpochs (fun _ => Sp3Example.noise) 10 5 Sp3Example.t0 vec 0 f.strm 0 = .ok outs ∧ List.Forall₂ Delivers Sp3Example.blocks outs ∧
      outs.map Sp3Out.status = [0, -1] := by
  refine C61_file (List.replicate 85 'x') hdr_wf hdr_date hdr_week hdr_mjd (fun _ => Sp3Example.noise) (fun _ => by simp [Sp3Example.noise]) 10
    c!"EOF" ['\n'] (Sp3Example.lineOK_dec _ (by decide)) rfl (Or.inr ⟨[], rfl⟩) Sp3Example.blocks (by simp [Sp3Example.blocks]) ?_ Sp3Example.t0 0 5
    (by simp [Sp3Example.blocks])
  intro b hb
  simp only [Sp3Example.blocks, List.mem_cons, List.not_mem_nil, or_false] at hb
  rcases hb with rfl | rfl
  · exact ⟨Sp3Example.hdr_wf, Sp3Example.body, by decide, by decide⟩
  · exact ⟨Sp3Example.hdr2_wf, Sp3Example.body, by decide, by decide⟩

/-- The header with another week: the hypotheses of `C61_inconsistent_start_refused`. -/
example : sp3Open exactLib false (List.replicate 85 'x')
    (linesText [hdr.first, c!"## 2087 259200.00000000   900.00000000 58849 0.0000000000000"] ++ c!"+") = .throw .runtime_error := by
  have hd2 : ({ hdr with week := 2087, second := c!"## 2087 259200.00000000   900.00000000 58849 0.0000000000000" } : Sp3Header).Dated := by
    have h := hdr_dated
    have hv := vals
    exact ⟨h.ver, h.first_fits, h.first_is, h.year, h.month, h.day, h.hour, h.minute, h.sec, h.epochs, h.crdSys, h.orbType, h.agency,
      fits _ (by decide), by decide, ⟨natCheck_sound (k := 0) (ds := c!"2087") (by decide), by decide⟩,
      numCheck_sound (by decide), ⟨numCheck_sound (by decide), h.interval.2⟩,
      ⟨natCheck_sound (k := 0) (ds := c!"58849") (by decide), by decide⟩, numCheck_sound (by decide)⟩
  refine C61_inconsistent_start_refused (List.replicate 85 'x') hd2 (d := start) hdr_date (Or.inl ?_) c!"+"
  show exactLib.sameWeek start 2087 hdr.sow.value = false
  rw [vals.2.1]
  simp only [exactLib, start, decide_eq_false_iff_not]
  norm_num

/-- The header without its second line of accuracies, and with any text there. -/
example : sp3Open exactLib false (List.replicate 85 'x') (linesText ({ hdr with accs := [] } : Sp3Header).lines ++ c!"*") = .throw .runtime_error := by
  have h := hdr_frame
  refine C61_single_accuracy_line_refused (h := { hdr with accs := [] }) (by simp) ?_ rfl hdr_date c!"*"
  exact ⟨⟨h.ver, h.first_fits, h.first_is, h.year, h.month, h.day, h.hour, h.minute, h.sec, h.epochs, h.crdSys, h.orbType, h.agency,
    h.second_fits, h.second_is, h.week, h.sow, h.interval, h.mjd, h.dayFraction⟩, h.sat_ok, h.satellites, h.sats, h.acc_ok, h.c1_ok, h.timeSys, h.c2_ok,
    h.f1_ok, h.f2_ok, h.i1_ok, h.i2_ok, h.comments, by decide, by decide⟩

example : ∃ f, sp3Open exactLib false (List.replicate 85 'x') (linesText ({ hdr with accs := [c!"anything"] } : Sp3Header).lines ++ '*' :: []) = .ok f := by
  have h := hdr_frame
  obtain ⟨f, h1, _⟩ := C61_any_second_accuracy_line (L := exactLib) (List.replicate 85 'x') (h := { hdr with accs := [c!"anything"] })
    ⟨⟨h.ver, h.first_fits, h.first_is, h.year, h.month, h.day, h.hour, h.minute, h.sec, h.epochs, h.crdSys, h.orbType, h.agency,
    h.second_fits, h.second_is, h.week, h.sow, h.interval, h.mjd, h.dayFraction⟩, h.sat_ok, h.satellites, h.sats, h.acc_ok, h.c1_ok, h.timeSys, h.c2_ok,
    h.f1_ok, h.f2_ok, h.i1_ok, h.i2_ok, h.comments, by decide, by decide⟩ (fits _ (by decide)) rfl hdr_date hdr_week hdr_mjd (c := '*') (by decide) []
  exact ⟨f, h1⟩

/-- `C61_opened_structure` and `C62_never_constructed` have an opened file to speak of. -/
example : ∃ f, sp3Open exactLib false (List.replicate 85 'x') (linesText (hdr.lines ++ [c!"*  2020"])) = .ok f ∧ f.numSats = 2 ∧
    lagrangeNew 3600 f = .ub := by
  obtain ⟨f, h1, h2, _⟩ := C61_open_partial (List.replicate 85 'x') hdr_wf hdr_date hdr_week hdr_mjd (c := '*') (by decide) c!"  2020\n"
  have e : linesText (hdr.lines ++ [c!"*  2020"]) = linesText hdr.lines ++ '*' :: c!"  2020\n" := by
    rw [linesText_append, linesText_one]; rfl
  exact ⟨f, by rw [e]; exact h1, by rw [h2.satellites]; rfl, by
    rw [C62_never_constructed h1 3600, if_neg]
    rw [h2.satellites]
    exact fun hh => absurd hh.2 (by decide)⟩

end Sp3HeadEx
end Ggnss
