import Verif.Props.GloList
import Verif.Props.NavTabExample
/-!
# A file that meets the hypotheses of C93

An unhealthy and a healthy message of R01, both for 00:15 of 1 January 2020.
-/
namespace Ggnss
namespace GloListEx
open NavExample

def recs : List NavItem := [gloBad, glo]
def text : List Char := linesText NavHeadExample.hdr.lines ++ fileText recs

def W : TabWorld where
  files := fun n => if n = c!"nav" then some text else none
  navDate := dateOf
  atxDate := BernExample.years
  junkNav := c!"??"
  navJunk := fun _ => c!"??"
  J := AntexExample.J
  cospar := List.replicate 10 '?'
  fresh := frame
  fuel := 1000

theorem recs_wfv : ∀ r ∈ recs, r.WFV dateOf := by
  intro r hr
  simp only [recs, List.mem_cons, List.not_mem_nil, or_false] at hr
  rcases hr with rfl | rfl
  exacts [gloBad_wfv, glo_wfv]

theorem case (prn : Int) (more : List (List Char)) (hp : PrnArg more prn) : ListCase W .R c!"nav" more prn recs where
  arg := hp
  fresh := rfl
  ne := by simp [recs]
  wf := fun r hr => (recs_wfv r hr).toWF
  gps := fun h => by simp at h
  ok := ⟨fun r hr _ => recs_wfv r hr, fun r hr => (recs_wfv r hr).record.toIsBlock⟩
  file := ⟨NavHeadExample.hdr, NavHeadExample.hdr_wf, rfl⟩
  fuel := by decide

theorem sick : ¬ gloBad.HealthIs 0 := by
  intro h
  have h' : gloBad.IntAt 1 3 0 := h
  have := h'.1
  simp [NavItem.val, specUnit, gloBad, gloNum, value_one] at this

/-- The program prints a line, 0.18 s after the time of ephemeris, from the unhealthy message. -/
theorem sick_line (o : StateClock) : ∃ c lines, ∃ l ∈ lines, gloListMain W o [c!"test_navrnx_R", c!"nav"] = .ok (c, lines) ∧
    l.t = 5084554500180 ∧ ¬ gloBad.ValidAt l.t ∧ GloSays gloBad l.t l.pos l.clock := by
  have hm : messagesOf .glonass 1 recs = [gloBad, glo] := rfl
  obtain ⟨c, lines, l, h1, h2, h3, h4⟩ := C93_health_ignored (case 1 [] (Or.inl ⟨rfl, rfl⟩)) (a0 := c!"test_navrnx_R") hm (by decide) o sick (k := 180) (by decide)
    ⟨_, glo_toe gloBad rfl rfl rfl, by decide⟩
  exact ⟨c, lines, l, h1, h2, h3.trans (by decide), h4⟩

/-- The whole run: it ends with 5 after 15 minutes of lines at most. -/
example (o : StateClock) : ∃ c lines, gloListMain W o [c!"test_navrnx_R", c!"nav"] = .ok (c, lines) ∧ lines.length < 1340 := by
  have hm : messagesOf .glonass 1 recs = [gloBad, glo] := rfl
  obtain ⟨c, lines, h1, _, h3⟩ := C93_less_than_a_day (case 1 [] (Or.inl ⟨rfl, rfl⟩)) (a0 := c!"test_navrnx_R") hm (by decide) o
  refine ⟨c, lines, h1, h3 ?_⟩
  intro r hr toe ht
  simp only [List.mem_cons, List.not_mem_nil, or_false] at hr
  rcases hr with rfl | rfl
  · rw [glo_toe_unique rfl ht (glo_toe gloBad rfl rfl rfl)]; decide
  · rw [glo_toe_unique rfl ht (glo_toe glo rfl rfl rfl)]; decide

/-- R02 is not in the file: the program hangs. -/
example (o : StateClock) : gloListMain W o [c!"test_navrnx_R", c!"nav", c!"2"] = .diverge := by
  refine C93_hangs (case 2 [c!"2"] (Or.inr ⟨c!"2", rfl, by decide, by decide, by decide, by decide⟩)) ?_ o
  intro r hr
  simp only [recs, List.mem_cons, List.not_mem_nil, or_false] at hr
  rcases hr with rfl | rfl <;> exact fun h => absurd h.2 (by decide)

end GloListEx
end Ggnss
