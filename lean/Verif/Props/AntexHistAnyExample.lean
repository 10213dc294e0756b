import Verif.Props.AntexHistAny
import Verif.Props.AntexExample
/-! # Objects on which the histories of C36_history_iff fall into either case -/
namespace Ggnss
namespace AntexHistAnyEx
open AntexExample

def call : AtxCall := ⟨.satInfo 1 .gps ⟨0, 0⟩, J, []⟩
theorem call_ok : call.OK := ⟨trivial, J_wf, J_nul⟩

/-- Something that is no record follows the header. -/
def junk : AtxFile := ⟨some 2, .mixed, ⟨c!"..no record\n", 0, false, false⟩⟩
/-- A line of 90 characters follows the header. -/
def long : AtxFile := ⟨some 2, .mixed, ⟨c!".." ++ List.replicate 90 'x' ++ c!"\n", 0, false, false⟩⟩

set_option maxRecDepth 20000 in
theorem junk_run : call.q.run years call.J call.cospar 1 junk = .ok ((1, [], none), ⟨some 2, .mixed, ⟨c!"..no record\n", 12, false, false⟩⟩) := by rfl

set_option maxRecDepth 20000 in
theorem long_run : call.q.run years call.J call.cospar 1 long =
    .ok ((1, [], none), ⟨some 2, .mixed, ⟨c!".." ++ List.replicate 90 'x' ++ c!"\n", 86, false, true⟩⟩) := by rfl

example : ¬ Spoils years 1 junk call := by
  rintro ⟨a, g, h1, h2⟩
  rw [junk_run] at h1
  cases h1
  cases h2

example : Spoils years 1 long call := ⟨_, _, long_run, rfl⟩

/-- After the query on the object with the long line everything is refused. -/
example (c : AtxCall) (hc : c.OK) : ∃ g g', atxHistory years 1 [call] long = .ok g ∧ c.q.run years c.J c.cospar 1 g = .ok ((1, [], none), g') := by
  have hr : atxHistory years 1 [call] long = .ok ⟨some 2, .mixed, ⟨c!".." ++ List.replicate 90 'x' ++ c!"\n", 86, false, true⟩⟩ := by
    rw [atxHistory, long_run, Res.bind_ok]; rfl
  rcases C36_history_iff (fuel := 0) rfl (by decide) (fun x hx => by rw [List.mem_singleton.1 hx]; exact call_ok) hr with ⟨h, _⟩ | ⟨_, h⟩
  · exact absurd ⟨_, _, long_run, rfl⟩ (h call (by simp))
  · obtain ⟨g, h1, h2⟩ := h [] (by simp)
    cases h1
    obtain ⟨g', h3⟩ := h2 c hc
    exact ⟨_, g', hr, h3⟩

end AntexHistAnyEx
end Ggnss
