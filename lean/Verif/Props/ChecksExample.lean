import Verif.Props.Checks
import Verif.Props.NavList
import Verif.Props.Sp3HeadExample
import Verif.Props.ObsHeadExample
import Verif.Props.NavTabExample
/-!
# Files for the check programs that meet the hypotheses of C91 and C92
-/
namespace Ggnss
namespace ChecksEx

/-! ## SP3: two epochs -/

def sp3Text : List Char :=
  linesText Sp3HeadEx.hdr.lines ++ ((Sp3Example.blocks.map EpochBlock.text).flatten ++ (c!"EOF" ++ ['\n']))

def S : Sp3World where
  files := fun n => if n = c!"sp3" then some sp3Text else none
  L := Sp3HeadEx.exactLib
  junk0 := List.replicate 85 'x'
  junk := fun _ => Sp3Example.noise
  t0 := Sp3Example.t0
  nsats0 := 0
  fuel := 10

theorem sp3_two : sp3Check S [c!"test_sp3", c!"sp3"] = .ok (0, some (2, -1)) := by
  refine C91_sp3 S Sp3HeadEx.hdr_wf Sp3HeadEx.hdr_date Sp3HeadEx.hdr_week Sp3HeadEx.hdr_mjd (fun _ => by simp [S, Sp3Example.noise])
    (e := c!"EOF") (tail := ['\n']) (Sp3Example.lineOK_dec _ (by decide)) rfl (Or.inr ⟨[], rfl⟩) (bs := Sp3Example.blocks) (by simp [Sp3Example.blocks]) ?_
    (by simp [Sp3Example.blocks, S]) rfl
  intro b hb
  simp only [Sp3Example.blocks, List.mem_cons, List.not_mem_nil, or_false] at hb
  rcases hb with rfl | rfl
  · exact ⟨Sp3Example.hdr_wf, Sp3Example.body, by decide, by decide⟩
  · exact ⟨Sp3Example.hdr2_wf, Sp3Example.body, by decide, by decide⟩

/-! ## Observations: one epoch, reported as two -/

open ObsEx (C1C L1C C2W L2W gC1 gC1_wf gC2 g0 g2 shows not_marker lineG05 head07 head_says cols mjdOf)

def obst : ObsTypes := [(.gps, [C1C, L1C, C2W, L2W]), (.galileo, [C1C, L1C])]
def kept : ReadMap := [(.gps, [[(0, 0.5), (2, 0.5)]]), (.galileo, [[(0, 1)]])]

theorem kept_for : MapFor obst (keptRequests obst obsCheckRequest) kept := by
  obtain ⟨m', e1, e2⟩ := C38_skip_missing obst obsCheckRequest (by
    intro e he x hx
    simp [obsCheckRequest] at he
    rcases he with rfl | rfl | rfl <;> simp at hx <;> rcases hx with rfl | rfl | rfl | rfl <;> simp) (by
    intro e he x hx p hp
    simp [obsCheckRequest] at he
    rcases he with rfl | rfl | rfl <;> simp at hx
    · rcases hx with rfl | rfl <;> simp at hp <;> aesop
    · rcases hx with rfl | rfl <;> simp at hp <;> aesop
    · rcases hx with rfl | rfl | rfl | rfl <;> simp at hp <;> aesop)
  have : setReadMap obst obsCheckRequest true = .ok (kept, keptRequests obst obsCheckRequest) := by rfl
  rw [this] at e1
  simp at e1
  rw [e1]; exact e2

def lineE12 : List Char := c!"E12  20532121.416 7 107896543.123 7"
def outG : SatVals := ((.gps, 5), [gC1.num.value * 0.5 + gC2.num.value * 0.5])
def outE : SatVals := ((.galileo, 12), [gC1.num.value])

theorem gotE : EpochGot kept [lineG05, lineE12] [outG, outE] := by
  have f0 : ∃ d, 0 ≤ d ∧ Got lineE12 0 (some gC1.num.value) d := (shows gC1_wf (by decide) (by decide) (by decide) (not_marker gC1_wf.num rfl rfl)).got
  have c1 : outG = ((.gps, ((5 : Nat) : Int)), [[(some gC1.num.value, (0.5 : Rat)), (some gC2.num.value, 0.5)]].map (codeSum · 0)) := by
    simp [outG, codeSum]
  have c2 : outE = ((.galileo, ((12 : Nat) : Int)), [[(some gC1.num.value, (1 : Rat))]].map (codeSum · 0)) := by
    simp [outE, codeSum]
  rw [c1, c2]
  refine .sat .gps 5 _ _ rfl rfl (natCheck_sound (k := 0) (ds := c!"05") (by decide)) (by decide) (by decide) (by decide)
    (.cons (.cons ⟨g0.got, rfl⟩ (.cons ⟨g2.got, rfl⟩ .nil)) .nil) ?_
  exact .sat .galileo 12 _ _ rfl rfl (natCheck_sound (k := 0) (ds := c!"12") (by decide)) (by decide) (by decide) (by decide)
    (.cons (.cons ⟨f0, rfl⟩ .nil) .nil) .nil

def blockE : ObsEpochBlock := ⟨head07, [lineG05, lineE12]⟩

theorem blockE_sees : BlockSees mjdOf kept 68 blockE ⟨58484, 1800, 0, 2, none⟩ [outG, outE] where
  head := ⟨2019, 1, 1, 0, 30, 0, 2, 0, { head_says with nsatIs := cols (k := 2) (ds := c!"2") (by decide) }, rfl, by simp; norm_num, rfl, rfl, rfl⟩
  gives := gotE
  fit := ⟨by decide, by decide⟩

def obsText : List Char := linesText ObsHeadEx.header2.lines ++ ([blockE].map ObsEpochBlock.text).flatten

def O (gAnt : Nat → List Char) (g0 junk : List Char) (raw0 : RawRnxObs) : ObsWorld where
  files := fun n => if n = c!"obs" then some obsText else none
  obsDate := ObsHeadEx.years
  mjdOf := mjdOf
  gAnt := gAnt
  g0 := g0
  junkObs := junk
  buf0 := fun n => List.replicate n '?'
  raw0 := raw0
  sec0 := 0
  fuel := 10

/-- One epoch in the file; the program prints the line of E12 and reports two. -/
theorem obs_one (gAnt : Nat → List Char) (hgA : ∀ k, (gAnt k).length = 41) (g0 : List Char) (hg0 : g0.length = 41) (junk : List Char) (raw0 : RawRnxObs) :
    obsCheck (O gAnt g0 junk raw0) [c!"test_obsrnx", c!"obs"] = .ok (0, some (2, -1, [(1800, [gC1.num.value])])) := by
  have h := C91_obs_one_too_many (O gAnt g0 junk raw0) (prog := c!"test_obsrnx") (name := c!"obs") hgA hg0 (fun n => by simp [O]) (h := ObsHeadEx.header2)
    ObsHeadEx.header2_seen (by decide) (m := kept) kept_for (types := (.gps, [C1C, L1C, C2W, L2W])) rfl (bs := [blockE])
    (exp := [(⟨58484, 1800, 0, 2, none⟩, [outG, outE])]) (.cons blockE_sees .nil) (by decide) (by simp [O]) rfl
  rw [h]
  rfl

/-! ## Navigation: two messages of G01, two hours apart -/

open NavTabEx

theorem list_case : ListCase W .G c!"nav" [c!"1"] 1 recs where
  arg := Or.inr ⟨c!"1", rfl, by decide, by decide, by decide, by decide⟩
  fresh := rfl
  ne := by simp [recs]
  wf := by
    intro r hr
    simp only [recs, List.mem_cons, List.not_mem_nil, or_false] at hr
    rcases hr with rfl | rfl
    exacts [first_wf.toWF, second_wf.toWF]
  gps := by
    intro _ r hr _
    simp only [recs, List.mem_cons, List.not_mem_nil, or_false] at hr
    rcases hr with rfl | rfl
    exacts [first_wf, second_wf]
  ok := recs_ok
  file := ⟨NavHeadExample.hdr, NavHeadExample.hdr_wf, rfl⟩
  fuel := by show 3 < 5000 + atx.length; omega

/-- Two records, reported as three; the last one is of the satellite. -/
theorem nav_two : ∃ nav r, navThrough W .G [c!"test_navrnx_G", c!"nav", c!"1"] = .ok (.inr (nav, 1, r)) ∧ r.blocks = 3 ∧ r.ofSat = 3 ∧ r.status = -1 := by
  obtain ⟨nav, r, e, h1, h2, h3, h4, _⟩ := C91_nav_one_too_many W .G (a0 := c!"test_navrnx_G") list_case.arg list_case.fresh NavHeadExample.hdr_wf
    list_case.ne list_case.wf list_case.gps (by have := list_case.fuel; omega) (rfl : W.files c!"nav" = some navText)
  exact ⟨nav, r, h1, h2, h4.trans (by decide), h3⟩

/-- Two hours of lines, all computed from the second message, and exit code -1. -/
theorem nav_list (o : StateClock) : ∃ lines, listMain W .G o [c!"test_navrnx_G", c!"nav", c!"1"] = .ok (-1, lines) ∧ 120 ≤ lines.length ∧
    ∀ l ∈ lines, l.msg.toc = second.toc := by
  have ht : ∀ r ∈ [first, second], 0 ≤ r.el.e ∧ r.el.e ≤ 0.95 := fun r hr =>
    files.tame (by decide) r (by simpa [recs] using hr) (by
      simp only [List.mem_cons, List.not_mem_nil, or_false] at hr
      rcases hr with rfl | rfl <;> exact ⟨rfl, rfl⟩)
  have hm : messagesOf NavProg.G.sys 1 recs = [first, second] := rfl
  obtain ⟨lines, h1, h2, h3⟩ := C92_next_message (p := .G) (by decide) (a0 := c!"test_navrnx_G") list_case (q := first) (ms := [second]) hm
    (by unfold Spaced; simp [first, second, msg, DateTime.total]) ⟨second, by simp, by decide⟩ ht (K := 120) (by
      intro r hr
      simp only [List.mem_cons, List.not_mem_nil, or_false] at hr
      rcases hr with rfl | rfl <;> decide) (by show 120 < 5000 + atx.length; omega) o
  refine ⟨lines, h1, ?_, ?_⟩
  · have := h2.complete second (by simp)
    rw [List.length_map] at this
    have e1 : second.toc.total = first.toc.total + 7200 := by decide
    omega
  · intro l hl
    obtain ⟨r, hr, hc, hlt⟩ := h3 l hl
    obtain ⟨k, hk⟩ := List.mem_iff_getElem?.1 hl
    obtain ⟨g1, _⟩ := h2.line k l.row (by rw [List.getElem?_map, hk]; rfl)
    have g1' : l.t = 1000 * first.toc.total + 60000 * (k : Int) := g1
    simp only [List.mem_cons, List.not_mem_nil, or_false] at hr
    rcases hr with rfl | rfl
    · omega
    · exact hc.toc

/-- With the first message alone the program hangs. -/
theorem nav_hangs (o : StateClock) : listMain W1 .G o [c!"test_navrnx_G", c!"nav"] = .diverge := by
  have hc : ListCase W1 .G c!"nav" [] 1 [first] := by
    refine ⟨Or.inl ⟨rfl, rfl⟩, rfl, by simp, ?_, ?_, files1.recs, ⟨NavHeadExample.hdr, NavHeadExample.hdr_wf, rfl⟩, ?_⟩
    · intro r hr
      simp at hr; subst hr; exact first_wf.toWF
    · intro _ r hr _
      simp at hr; subst hr; exact first_wf
    · show 2 < 5000 + atx.length; omega
  refine C92_hangs hc ?_ o
  have hm : messagesOf NavProg.G.sys 1 [first] = [first] := rfl
  intro q ms h
  rw [hm] at h
  cases h
  simp

end ChecksEx
end Ggnss
