import Verif.Props.BadDate
import Verif.Props.Sp3Example
import Verif.Props.Sp3HeadExample
import Verif.Props.ObsExample
import Verif.Props.ObsHeadExample
/-! # The 30th of February in SP3 and observation files: the hypotheses of C95 -/
namespace Ggnss
namespace BadDateEx

/-- A library that refuses what is not a day of the calendar (February taken to have 29 days). -/
def lib : Sp3Lib :=
  { Sp3HeadEx.exactLib with
    date := fun t => if 1 ≤ t.month ∧ t.month ≤ 12 ∧ 1 ≤ t.day ∧ t.day ≤ (if t.month = 2 then 29 else 31) then Sp3HeadEx.exactLib.date t
      else .throw .out_of_range }

def hdr : EpochLine :=
  ⟨c!"*  2020  2 30  0  0  0.00000000", 2020, 2, 30, 0, 0, ⟨1, none, c!"0", some c!"00000000", none⟩⟩

set_option maxRecDepth 20000 in
theorem hdr_wf : hdr.WF := by
  refine ⟨Sp3Example.lineOK_dec _ (by decide), rfl, rfl, natCheck_sound (k := 0) (ds := c!"2020") (by decide), by decide,
    natCheck_sound (k := 1) (ds := c!"2") (by decide), natCheck_sound (k := 0) (ds := c!"30") (by decide),
    natCheck_sound (k := 1) (ds := c!"0") (by decide), natCheck_sound (k := 1) (ds := c!"0") (by decide),
    numCheck_sound (by decide), ?_⟩
  have : hdr.sec.value = 0 := by
    norm_num [hdr, Numeral.value, Numeral.digVal, Numeral.fracDigits, Numeral.expVal, signVal, show '0'.toNat = 48 from rfl]
  rw [this]; norm_num

theorem hdr_refused : ∀ t, hdr.Is t → lib.date t = .throw .out_of_range := by
  rintro ⟨y, m, d, h, mi, us⟩ ⟨h1, h2, h3, _⟩
  simp only at h1 h2 h3
  have e2 : m = 2 := h2
  have e3 : d = 30 := h3
  subst e2 e3
  simp [lib]

theorem blocks_good : ∀ b ∈ Sp3Example.blocks, b.WF Sp3Example.vec.length 10 ∧ GoodDate lib b := by
  intro b hb
  simp only [Sp3Example.blocks, List.mem_cons, List.not_mem_nil, or_false] at hb
  rcases hb with rfl | rfl
  · refine ⟨⟨Sp3Example.hdr_wf, Sp3Example.body, by simp [Sp3Example.vec], by simp [Sp3Example.ls]⟩, ?_⟩
    rintro ⟨y, m, d, h, mi, us⟩ ⟨h1, h2, h3, _⟩
    have e2 : m = 1 := h2
    have e3 : d = 1 := h3
    subst e2 e3
    exact ⟨_, rfl⟩
  · refine ⟨⟨Sp3Example.hdr2_wf, Sp3Example.body, by simp [Sp3Example.vec], by simp [Sp3Example.ls]⟩, ?_⟩
    rintro ⟨y, m, d, h, mi, us⟩ ⟨h1, h2, h3, _⟩
    have e2 : m = 1 := h2
    have e3 : d = 1 := h3
    subst e2 e3
    exact ⟨_, rfl⟩

/-- `C95_sp3_file`: a file of two epochs. -/
example : ∃ outs, sp3ReadAll lib (fun _ => Sp3Example.noise) 10 5 ⟨0, 0⟩ Sp3Example.vec 0 Sp3Example.file 0 = .ok outs ∧
    List.Forall₂ (DeliversDate lib) Sp3Example.blocks outs ∧ outs.map Sp3Dated.status = [0, -1] :=
  C95_sp3_file lib (fun _ => Sp3Example.noise) (fun _ => by simp [Sp3Example.noise]) 10 (by decide) (Sp3Example.lineOK_dec c!"EOF" (by decide)) rfl
    (tail := ['\n']) (Or.inr ⟨[], rfl⟩) [⟨Sp3Example.hdr, Sp3Example.ls, [Sp3Example.p1, Sp3Example.p2]⟩]
    ⟨Sp3Example.hdr2, Sp3Example.ls, [Sp3Example.p1, Sp3Example.p2]⟩ ⟨0, 0⟩ Sp3Example.vec 0 Sp3Example.file blocks_good rfl rfl 5 (by simp)

/-- `C95_sp3_epoch_kills` and `C95_sp3_file_kills`: the two epochs, then the 30th of February. -/
example (tail : List Char) :
    sp3ReadAll lib (fun _ => Sp3Example.noise) 10 5 ⟨0, 0⟩ Sp3Example.vec 0
      ⟨(Sp3Example.blocks.map EpochBlock.text).flatten ++ (hdr.line ++ '\n' :: tail), 0, false, false⟩ 0 = .terminate :=
  C95_sp3_file_kills lib (fun _ => Sp3Example.noise) (fun _ => by simp [Sp3Example.noise]) 10 (by decide) Sp3Example.blocks hdr_wf hdr_refused
    ⟨0, 0⟩ Sp3Example.vec 0 _ blocks_good rfl rfl 5 (by simp [Sp3Example.blocks])

/-- `C95_sp3_header_kills`: the header of Sp3HeadEx dated the 30th of February. -/
def head : Sp3Header :=
  { Sp3HeadEx.hdr with month := 2, day := 30, first := c!"#cP2020  2 30  0  0  0.00000000       2 ORBIT IGS14 HLM  IGS" }

set_option maxRecDepth 40000 in
theorem head_dated : head.Dated := by
  have hv := Sp3HeadEx.vals
  exact ⟨by decide, Sp3HeadEx.fits _ (by decide), by decide,
    ⟨natCheck_sound (k := 0) (ds := c!"2020") (by decide), by decide⟩,
    ⟨natCheck_sound (k := 1) (ds := c!"2") (by decide), by decide⟩,
    ⟨natCheck_sound (k := 0) (ds := c!"30") (by decide), by decide⟩,
    natCheck_sound (k := 1) (ds := c!"0") (by decide), natCheck_sound (k := 1) (ds := c!"0") (by decide),
    ⟨numCheck_sound (by decide), le_of_eq hv.1.symm, lt_of_eq_of_lt hv.1 (by norm_num)⟩,
    ⟨natCheck_sound (k := 6) (ds := c!"2") (by decide), by decide⟩,
    by decide, by decide, by decide, Sp3HeadEx.fits _ (by decide), by decide,
    ⟨natCheck_sound (k := 0) (ds := c!"2086") (by decide), by decide⟩,
    numCheck_sound (by decide),
    ⟨numCheck_sound (by decide), le_of_le_of_eq (by norm_num) hv.2.2.1.symm, lt_of_eq_of_lt hv.2.2.1 (by norm_num)⟩,
    ⟨natCheck_sound (k := 0) (ds := c!"58849") (by decide), by decide⟩,
    numCheck_sound (by decide)⟩

example (junk content : List Char) : sp3Open lib false junk (head.first ++ '\n' :: content) = .terminate :=
  C95_sp3_header_kills head_dated (x := .out_of_range) (by
    rintro ⟨y, m, d, h, mi, us⟩ ⟨h1, h2, h3, _⟩
    have e2 : m = 2 := h2
    have e3 : d = 30 := h3
    subst e2 e3
    simp [lib]) content

/-- `C95_obs_epoch_kills`. -/
example (raw0 : RawRnxObs) (tail : List Char) :
    readNextEpoch ObsEx.mjdOf raw0 ObsEx.mmap (initEpochVector ObsEx.mmap) ObsEx.buf
      ⟨c!"> 2019 02 30 00 30  0.0000000  0  3" ++ '\n' :: tail, 0, false, false⟩ 0 = .terminate :=
  C95_obs_epoch_kills raw0 ObsEx.mmap _ ObsEx.buf _ (l := c!"> 2019 02 30 00 30  0.0000000  0  3") (by decide) (by decide)
    (by decide) rfl (by decide) (y := 2019) (mo := 2) (d := 30) (h := 0) (mi := 30) (cy := c!"2019") (cm := c!"02") (cd := c!"30") (ch := c!"00") (cmi := c!"30") (t := c!" 0.0000000  0  3")
    (ObsEx.cols (k := 0) (ds := c!"2019") (by decide)) (ObsEx.cols (k := 0) (ds := c!"02") (by decide)) (ObsEx.cols (k := 0) (ds := c!"30") (by decide))
    (ObsEx.cols (k := 0) (ds := c!"00") (by decide)) (ObsEx.cols (k := 0) (ds := c!"30") (by decide)) rfl (x := .invalid_argument) rfl rfl rfl

/-- `C95_obs_header_kills`: right after the first two lines of the header. -/
def years (l : List Char) : Res DateTime := if l.take 6 = c!"  2019" then .ok ⟨58484, 0⟩ else .throw .out_of_range

theorem prefix_ok : HeadPrefix years ObsHeadEx.version .mixed ObsHeadEx.first ObsHeadEx.second [] where
  first_ok := ObsHeadEx.header_wf.first
  version_ok := ObsHeadEx.header_wf.version
  kind_ok := ObsHeadEx.header_wf.kind
  sys_ok := ObsHeadEx.header_wf.sys
  second_ok := ObsHeadEx.header_wf.second
  items_ok := by simp
  once_ok := .nil
  few_ok := by simp

set_option maxRecDepth 20000 in
example (gAnt : Nat → List Char) (hgA : ∀ k, (gAnt k).length = 41) (g0 : List Char) (hg0 : g0.length = 41) (junk : List Char) (buf0 : Nat → List Char)
    (t : List Char) : obsOpen years gAnt false g0 junk buf0 (linesText (prefixLines ObsHeadEx.first ObsHeadEx.second []) ++
      (ObsHeadEx.lab c!"  2020     2    30     0     0    0.0000000     GPS" c!"TIME OF FIRST OBS" ++ '\n' :: t)) = .terminate :=
  C95_obs_header_kills hgA hg0 junk buf0 prefix_ok (x := .out_of_range) (by decide) (by decide) (by intro line; rfl) t

end BadDateEx
end Ggnss
