import Verif.Props.ObsHeadBad
import Verif.Props.ObsHeadExample
/-! # Concrete headers meeting the hypotheses of the refusal theorems of C60 -/
namespace Ggnss.ObsHeadEx

variable {gAnt : Nat → List Char} (hgA : ∀ k, (gAnt k).length = 41) {g0 : List Char} (hg0 : g0.length = 41) (junk : List Char)
  (buf0 : Nat → List Char) (t : List Char)
include hg0

set_option maxRecDepth 20000 in
example : obsOpen years gAnt false g0 junk buf0 (c!"  hello" ++ '\n' :: t) = .throw .runtime_error :=
  C60_no_version_refused false hg0 junk buf0 (by decide) ⟨2, 'h', c!"ello", rfl, by decide, by decide, by decide⟩ t

set_option maxRecDepth 20000 in
example : obsOpen years gAnt false g0 junk buf0 (c!"     3.04           NAVIGATION DATA     M" ++ '\n' :: t) = .throw .runtime_error :=
  C60_wrong_type_refused false hg0 junk buf0 (by decide) (version := version) (numCheck_sound (by decide)) (c := 'N') rfl (by decide) t

set_option maxRecDepth 20000 in
example : obsOpen years gAnt false g0 junk buf0 (c!"     3.04           OBSERVATION DATA    X" ++ '\n' :: t) = .throw .runtime_error :=
  C60_unknown_system_refused false hg0 junk buf0 (by decide) (version := version) (numCheck_sound (by decide)) rfl (c := 'X') rfl
    (by intro q; cases q <;> decide) t

include hgA

set_option maxRecDepth 20000 in
example : obsOpen years gAnt false g0 junk buf0 (linesText (prefixLines first second (items.take 6)) ++
    (lab c!"  XXXX" c!"TIME OF FIRST OBS" ++ '\n' :: t)) = .throw .runtime_error := by
  refine C60_bad_date_refused hgA hg0 junk buf0 (prefix_ok 6) (by decide) ?_ t
  intro line
  unfold years fillLine
  rw [List.take_append_of_le_length (by decide), if_neg (by decide)]

set_option maxRecDepth 20000 in
example : obsOpen years gAnt false g0 junk buf0 (linesText (prefixLines first second (items.take 6)) ++
    (lab c!" unknown" c!"APPROX POSITION XYZ" ++ '\n' :: t)) = .throw .runtime_error :=
  C60_bad_position_refused hgA hg0 junk buf0 (prefix_ok 6) (by decide) ⟨1, 'u', _, rfl, by decide, by decide, by decide⟩ t

set_option maxRecDepth 20000 in
example : obsOpen years gAnt false g0 junk buf0 (linesText (prefixLines first second (items.take 6)) ++
    (lab c!" unknown" c!"ANTENNA: DELTA H/E/N" ++ '\n' :: t)) = .throw .runtime_error :=
  C60_bad_eccentricity_refused hgA hg0 junk buf0 (prefix_ok 6) (by decide) ⟨1, 'u', _, rfl, by decide, by decide, by decide⟩ t

set_option maxRecDepth 20000 in
example : obsOpen years gAnt false g0 junk buf0 (linesText (prefixLines first second (items.take 6)) ++
    (lab c!"     2" c!"RCV CLOCK OFFS APPL" ++ '\n' :: t)) = .throw .runtime_error :=
  C60_bad_clock_flag_refused hgA hg0 junk buf0 (prefix_ok 6) (by decide) (n := 2) (natCheck_sound (k := 5) (ds := c!"2") (by decide))
    (by decide) t

end Ggnss.ObsHeadEx
