import Verif.Props.PpProg
import Verif.Props.PpRunExample
import Verif.Props.ObsHeadExample
import Verif.Props.AntexExample
/-!
# Files for the positioning program that meet the hypotheses of C70

An observation file of one epoch, a navigation file of two records, an ANTEX file with a GPS and a GLONASS satellite.
-/
namespace Ggnss.PpProgEx
open ObsHeadEx (lab one_line code_ok num num_wf three)
open ObsEx (C1C L1C C2W cols)

/-! ### The observation file -/

def eR : TypesEntry := ⟨.glonass, [C1C, L1C, C2W], [lab c!"R    3 C1C L1C C2W" c!"SYS / # / OBS TYPES"]⟩
def lPos : List Char := lab c!" -5000000.0000 15000000.0000 15000000.0000" c!"APPROX POSITION XYZ"
def px : Numeral := ⟨1, some true, c!"5000000", some c!"0000", none⟩
def py : Numeral := num 1 c!"15000000" c!"0000"
def lFst : List Char := lab c!"  2019     1     1     0     0    0.0000000     GPS" c!"TIME OF FIRST OBS"

def items : List ObsItem := [.position lPos px py py, .types eR, .firstObs lFst ⟨58484, 0⟩]
def oh : ObsHeader := ⟨ObsHeadEx.version, .mixed, ObsHeadEx.first, ObsHeadEx.second, items, lab [] c!"END OF HEADER"⟩

set_option maxRecDepth 20000 in
theorem eR_shows : eR.Shows :=
  one_line (l := lab c!"R    3 C1C L1C C2W" c!"SYS / # / OBS TYPES") rfl (by decide) (by decide)
    (cols (k := 2) (ds := c!"3") (by decide)) (by decide)
    (by intro c hc; apply code_ok; revert c; decide) (by decide) (by intro i hi; change i < 3 at hi; interval_cases i <;> (intro c hc; cases hc; decide))

theorem px_wf : px.WF :=
  numeral_wf_of (by decide) (by decide) (Or.inl (by decide)) (by intro s ds h; cases h) (by decide) (by decide) (by intro s ds h; cases h)

set_option maxRecDepth 20000 in
theorem oh_seen : oh.Seen ObsHeadEx.years where
  first := ObsHeadEx.header_wf.first
  version := ObsHeadEx.header_wf.version
  kind := ObsHeadEx.header_wf.kind
  sys := ObsHeadEx.header_wf.sys
  second := ObsHeadEx.header_wf.second
  wf := by
    intro i hi
    simp only [oh, items, List.mem_cons, List.not_mem_nil, or_false] at hi
    rcases hi with rfl | rfl | rfl
    · refine ⟨by decide, three (by decide) (by intro c hc; revert c; decide) ?_⟩
      intro n hn
      simp only [List.mem_cons, List.not_mem_nil, or_false] at hn
      rcases hn with rfl | rfl | rfl
      · exact ⟨px_wf, by decide, by decide⟩
      all_goals exact ⟨num_wf (by decide) (by decide) (by decide), by decide, by decide⟩
    · exact ⟨eR_shows, by decide⟩
    · exact ⟨by decide, ObsHeadEx.years_line (by decide) (by decide)⟩
  once := by decide
  few := by decide
  last := by decide

theorem px_value : px.value = -5000000 := by
  simp only [Numeral.value, px, signVal, Numeral.fracDigits, Option.getD_some, Numeral.expVal]
  rw [digVal_eq _ (by decide), digVal_eq _ (by decide), show Nat.ofDigitChars 10 c!"5000000" 0 = 5000000 by decide,
    show Nat.ofDigitChars 10 c!"0000" 0 = 0 by decide]
  norm_num

theorem py_value : py.value = 15000000 := by
  simp only [Numeral.value, py, num, signVal, Numeral.fracDigits, Option.getD_some, Numeral.expVal]
  rw [digVal_eq _ (by decide), digVal_eq _ (by decide), show Nat.ofDigitChars 10 c!"15000000" 0 = 15000000 by decide,
    show Nat.ofDigitChars 10 c!"0000" 0 = 0 by decide]
  norm_num

/-! ### The ANTEX file: the one of `AntexExample` and a GLONASS satellite -/

def b4 : AtxBlock := AntexExample.mk c!"GLONASS-M           R02                 R701      2003-056A" (some ⟨.glonass, 2, some 701, some c!"2003-056"⟩) c!"     1"
  [.validFrom ⟨365 * 2003, 0⟩ (AntexExample.lab c!"2003    12    10     0     0    0.0000000" c!"VALID FROM")] [AntexExample.f1]

set_option maxRecDepth 20000 in
theorem b4_wf : b4.WF BernExample.years := by
  refine AntexExample.mk_wf (by decide) ⟨by decide, natCheck_sound (k := 0) (ds := c!"02") (by decide),
      ⟨by decide, natCheck_sound (k := 0) (ds := c!"701") (by decide)⟩, ⟨by decide, by decide⟩⟩ (by decide)
    (natCheck_sound (k := 5) (ds := c!"1") (by decide)) (by simp) ?_ (by decide) (by decide) ?_ (by decide)
  · intro o ho
    simp only [List.mem_cons, List.not_mem_nil, or_false] at ho
    subst ho
    exact ⟨by decide, BernExample.years_at (by decide) (by decide)⟩
  · intro f hf
    rw [List.mem_singleton] at hf
    subst hf
    exact AntexExample.f1_wf

theorem b4_valid : b4.ValidAt ⟨365 * 2004, 0⟩ := by
  refine ⟨⟨⟨365 * 2003, 0⟩, rfl, by decide⟩, ?_⟩
  intro e he
  have : b4.validUntil = none := rfl
  rw [this] at he
  cases he

def ants : List AtxBlock := [AntexExample.b3, b4]
theorem ants_wf : ∀ b ∈ ants, b.WF BernExample.years := by
  intro b hb
  simp only [ants, List.mem_cons, List.not_mem_nil, or_false] at hb
  rcases hb with rfl | rfl
  exacts [AntexExample.b3_wf, b4_wf]

/-! ### The surroundings -/

def obsText : List Char := linesText oh.lines ++ ([PpEx.block].map ObsEpochBlock.text).flatten
def navText : List Char := linesText NavHeadExample.hdr.lines ++ fileText [NavExample.gloBad, NavExample.glo]
def atx : List Char := atxText AntexExample.hdr ants

def files (n : List Char) : Option (List Char) :=
  if n = c!"obs" then some obsText else if n = c!"nav" then some navText else if n = c!"atx" then some atx else none

noncomputable def W (raw0 : RawRnxObs) (st0 : Fin 6 → ℝ) (clk0 : ℝ) (P0 : Matrix (Fin 5) (Fin 5) ℝ) : PpWorld where
  files := files
  obsDate := ObsHeadEx.years
  navDate := NavExample.dateOf
  atxDate := BernExample.years
  mjdOf := PpEx.mjdOf
  firstDate := fun _ => ⟨365 * 2004, 0⟩
  car2ell := fun _ _ _ => (0, 0, 100)
  gAnt := fun _ => List.replicate 41 '?'
  g0 := List.replicate 41 '?'
  junkObs := c!"??"
  buf0 := fun n => List.replicate n '?'
  junkNav := c!"??"
  navJunk := fun _ => c!"??"
  J := AntexExample.J
  cospar := fun _ => List.replicate 10 '?'
  fresh := NavExample.frame
  raw0 := raw0
  state0 := st0
  clock0 := clk0
  P0 := P0
  fuel := 1000 + atx.length

variable (raw0 : RawRnxObs) (st0 : Fin 6 → ℝ) (clk0 : ℝ) (P0 : Matrix (Fin 5) (Fin 5) ℝ)

theorem W_ok : (W raw0 st0 clk0 P0).OK where
  gAnt := fun _ => List.length_replicate
  g0 := List.length_replicate
  buf := fun _ => List.length_replicate
  J := AntexExample.J_wf
  nul := AntexExample.J_nul

theorem map_for : MapFor PpEx.obst PpEx.req PpEx.mmap := by
  obtain ⟨m, e1, e2⟩ := C38_all_present PpEx.obst PpEx.req false (by decide) (by decide)
  rw [PpEx.map_ok] at e1
  simp at e1
  rw [e1]; exact e2

theorem site_eq : PpEx.site = siteOf (W raw0 st0 clk0 P0).car2ell ((lastOf ObsItem.position? oh.items).getD [0, 0, 0]) := by
  have h : (lastOf ObsItem.position? oh.items).getD [0, 0, 0] = [px.value, py.value, py.value] := rfl
  rw [h, px_value, py_value]
  simp [siteOf, PpEx.site, W]

theorem run_files : RunFiles (W raw0 st0 clk0 P0) PpEx.req oh PpEx.block [] [(PpEx.hd, PpEx.out)] NavHeadExample.hdr [NavExample.gloBad, NavExample.glo]
    PpEx.site where
  obsHead := oh_seen
  few := by decide
  navHead := NavHeadExample.hdr_wf
  navFile := NavExample.two_ok
  chrono := NavExample.two_chrono
  fresh := rfl
  fuelNav := by show 2 < 1000 + atx.length; omega
  fuelGlo := by show 720 < 1000 + atx.length; omega
  fuelObs := by show 1 < 1000 + atx.length; omega
  siteEq := site_eq raw0 st0 clk0 P0
  height := by norm_num [PpEx.site]
  reqParts := by decide
  reqTypes := by
    have h : oh.items.filterMap ObsItem.types? = PpEx.obst := rfl
    rw [h]; decide
  reqSome := by decide
  epochs := ⟨PpEx.mmap, (.glonass, [C1C, L1C, C2W]), map_for, rfl, .cons PpEx.block_says.sees .nil⟩
  ok := by
    intro x hx; simp only [List.mem_singleton] at hx; subst hx; exact PpEx.epoch_ok

/-- The program, asked for the pseudorange C1C of GLONASS, lists the GLONASS satellite in force, makes one update from one
satellite and returns -1. -/
theorem run : ∃ sats u, ppProgram (W raw0 st0 clk0 P0) PpEx.req [c!"pp", c!"obs", c!"nav", c!"atx"] = .ok ⟨-1, sats, [u]⟩ ∧
    sats.map (·.prn) = [2] ∧ u.n = 1 ∧ u.dt = 900 := by
  rcases C70_run_partial (W_ok raw0 st0 clk0 P0) (run_files raw0 st0 clk0 P0) AntexExample.hdr_wf (ants := ants) (by simp [ants]) ants_wf
      (by show atx.length < 1000 + atx.length; omega) c!"pp" c!"obs" c!"nav" c!"atx" rfl rfl rfl with ⟨_, x, hx, _, h⟩ | ⟨sats, us, h1, h2, h3⟩
  · simp only [List.mem_singleton] at hx
    subst hx
    simp only [PpEx.hd, PpEx.epoch_ms] at h
    exact absurd (PpEx.rows_one h) (by simp)
  · simp only [List.map_cons, List.map_nil] at h3
    have hs : sats.map (·.prn) = [2] := by
      have hmem : ∀ k, k ∈ sats.map (·.prn) ↔ k = 2 := by
        intro k
        rw [h2.slots k]
        constructor
        · rintro ⟨_, b, hb, id, hid, h4, h5, _⟩
          simp only [ants, List.mem_cons, List.not_mem_nil, or_false] at hb
          rcases hb with rfl | rfl
          · cases hid; cases h5
          · cases hid; exact h4.symm
        · rintro rfl
          refine ⟨by decide, b4, by simp [ants], ?_⟩
          exact ⟨_, rfl, rfl, rfl, by show b4.ValidAt ⟨365 * 2004, 0⟩; exact b4_valid⟩
      have hp := h2.order
      generalize sats.map (·.prn) = l at hmem hp
      match l with
      | [] => exact absurd ((hmem 2).2 rfl) (by simp)
      | [a] => rw [(hmem a).1 (by simp)]
      | a :: b :: l =>
        have ha := (hmem a).1 (by simp)
        have hb := (hmem b).1 (by simp)
        simp [ha, hb] at hp
    cases h3 with
    | few h _ => simp [PpEx.out] at h
    | update _ hr _ hu h =>
      cases h
      simp only [PpEx.hd, PpEx.epoch_ms] at hr
      refine ⟨sats, _, h1, hs, by rw [hu.count]; exact PpEx.rows_one hr, ?_⟩
      rw [hu.dt]; simp [PpEx.hd]

/-- The program as it is, with the same files. -/
example : ∃ sats, ppShipped (W raw0 st0 clk0 P0) [c!"pp", c!"obs", c!"nav", c!"atx"] = .ok ⟨100, sats, []⟩ := by
  obtain ⟨sats, h, _⟩ := C70_shipped_satellites (W_ok raw0 st0 clk0 P0) (oh := oh) oh_seen (by decide) NavHeadExample.hdr_wf AntexExample.hdr_wf (bs := ants)
    (by simp [ants]) ants_wf c!"pp" c!"obs" c!"nav" c!"atx" _ _ rfl rfl rfl (by show atx.length < 1000 + atx.length; omega)
  exact ⟨sats, h⟩

/-- Without the ANTEX file. -/
example : ∃ us, ppProgram (W raw0 st0 clk0 P0) PpEx.req [c!"pp", c!"obs", c!"nav"] = .ok ⟨-1, [], us⟩ := by
  rcases C70_run_two_files_partial (W_ok raw0 st0 clk0 P0) (run_files raw0 st0 clk0 P0) c!"pp" c!"obs" c!"nav" rfl rfl with ⟨_, x, hx, _, h⟩ | ⟨us, h1, _⟩
  · simp only [List.mem_singleton] at hx
    subst hx
    simp only [PpEx.hd, PpEx.epoch_ms] at h
    exact absurd (PpEx.rows_one h) (by simp)
  · exact ⟨us, h1⟩

/-- A wrong name. -/
example : ppProgram (W raw0 st0 clk0 P0) PpEx.req [c!"pp", c!"no", c!"nav"] = .terminate :=
  C70_missing_file _ _ _ _ _ _ (Or.inl (by show files c!"no" = none; decide))

end Ggnss.PpProgEx
