import Verif.Props.HeadEnd
import Verif.Props.ObsHeadExample
import Verif.Props.AntexExample
import Verif.Props.NavTabExample
/-!
# Examples for C90
-/
namespace Ggnss

set_option maxRecDepth 20000 in
/-- **C90 needs its proviso**: the file is opened because of what the memory held. -/
theorem C90_stale_memory : ∃ f, navOpen tinyJunk tinyFile = .ok f := by
  refine ⟨⟨304/100, .gps, some 45, ⟨tinyFile, 45, false, false⟩⟩, ?_⟩
  rfl

namespace HeadEndEx

theorem linesText_len (ls : List (List Char)) : (linesText ls).length = (ls.map (fun l => l.length + 1)).sum := by
  induction ls with
  | nil => rfl
  | cons l ls ih => rw [show linesText (l :: ls) = l ++ '\n' :: linesText ls by simp [linesText], List.length_append, List.length_cons, ih]; simp; omega

set_option maxRecDepth 20000 in
/-- The header of C56's example, cut anywhere from char 60 to the last char of the label. -/
example (junk : List Char) (hJ : junk.length = 85) (k : Nat) (h60 : 60 ≤ k) (hk : k < (linesText NavHeadExample.hdr.lines).length - 1) :
    navOpen junk ((linesText NavHeadExample.hdr.lines).take k) = .throw .runtime_error := by
  have hlen : (linesText NavHeadExample.hdr.lines).length = 319 := by rw [linesText_len]; decide
  refine C90_navigation_cut hJ NavHeadExample.hdr_wf (p := (linesText NavHeadExample.hdr.lines).take k) ?_ (by rw [List.length_take]; omega)
  have e : linesText NavHeadExample.hdr.lines = (linesText (NavHeadExample.hdr.first :: NavHeadExample.hdr.others) ++ NavHeadExample.hdr.last.take 72) ++
      (NavHeadExample.hdr.last.drop 72 ++ ['\n']) := by rfl
  have hl : (linesText (NavHeadExample.hdr.first :: NavHeadExample.hdr.others) ++ NavHeadExample.hdr.last.take 72).length = 317 := by
    rw [List.length_append, linesText_len]; decide
  rw [e, List.take_append_of_le_length (by omega)]
  exact List.take_prefix _ _

set_option maxRecDepth 20000 in
/-- The ANTEX header of the examples, all but the last char of its label. -/
example : atxOpen AntexExample.J (linesText (AntexExample.hdr.first :: AntexExample.hdr.second :: AntexExample.hdr.others) ++ AntexExample.hdr.last.take 72) =
    .throw .runtime_error :=
  C90_antex_cut AntexExample.J_wf AntexExample.hdr_wf (by decide) (by decide) (List.prefix_refl _) (by rw [List.length_append, linesText_len]; decide)

set_option maxRecDepth 20000 in
/-- The observation header of the examples, without its last line. -/
example (gAnt : Nat → List Char) (g0 junk : List Char) (buf0 : Nat → List Char) :
    ¬ ∃ r, obsOpen ObsHeadEx.years gAnt false g0 junk buf0
      (linesText (ObsHeadEx.first :: ObsHeadEx.second :: (ObsHeadEx.items.map (·.lines)).flatten)) = .ok r :=
  C90_observation_cut (h := ObsHeadEx.header) ObsHeadEx.header_wf (by decide) (List.prefix_append _ _) (by rw [linesText_len]; decide)

/-- The same file cut in the line after the last list of observation types ends the process. -/
example (gAnt : Nat → List Char) (hgA : ∀ k, (gAnt k).length = 41) (g0 : List Char) (hg0 : g0.length = 41) (junk : List Char) (buf0 : Nat → List Char) :
    obsOpen ObsHeadEx.years gAnt false g0 junk buf0
      (linesText (prefixLines ObsHeadEx.first ObsHeadEx.second (ObsHeadEx.items.take 7 ++ [.types ObsHeadEx.eE])) ++ c!"    30.0") = .terminate :=
  C90_observation_cut_terminates hgA hg0 junk buf0 (ObsHeadEx.prefix_ok 8) (by decide) (by decide) (by intro q; cases q <;> decide)

end HeadEndEx
end Ggnss
