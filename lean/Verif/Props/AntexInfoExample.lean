import Verif.Props.AntexInfo
import Verif.Props.AntexSatBadExample
import Verif.Props.AntexDamageExample
/-! # A concrete file meeting the hypotheses of C105 -/
namespace Ggnss
namespace AntexInfoEx
open AntexExample AntexDamageEx AntexSatBadEx
open BernExample (years)

set_option maxRecDepth 20000 in
/-- `C105_pco` on the file with four damaged records of G01 and an intact one. -/
example (cospar : List Char) : ∃ f list sat f', atxPcoSatellite dates J cospar (f.strm.content.length + 1) f 1 .gps ep = .ok (0, list, some sat, f') ∧
    ∃ pre start type suf, InfoFrom dates cospar ((sats.map (·.raw)).map (·.lines)).flatten .gps 1 ep sat pre start type suf := by
  obtain ⟨f, p, h1, _, h3, h4, h5, h6, h7⟩ := C52_open_before J hdr_wf (atxRawText (sats.map (·.raw)))
  have hf : AtxOnRaw (sats.map (·.raw)) f := ⟨⟨p, h4, h5⟩, h6⟩
  obtain ⟨l, sv, f', e1, e2, _⟩ := C88_offsets_partial J_wf sats_wf hf J_nul cospar first b3_dates (E := []) (by rw [List.append_nil]; rfl)
      (AtxSays.intact b3.last (by decide)) (Nat.lt_succ_self _)
  have hw : ∀ x ∈ ((sats.map (·.raw)).map (·.lines)).flatten, GridLine x := by decide
  exact ⟨f, l, sv, f', e1, C105_pco h6 h4 h5 hw e1⟩

set_option maxRecDepth 20000 in
/-- `C105_info` and `C105_own` on the same file: a satellite is found, and when the line of its record has SVN and COSPAR id they are reported. -/
example (cospar : List Char) : ∃ f sat f', atxSatInfo dates J cospar (f.strm.content.length + 1) f 1 .gps ep = .ok (0, some sat, f') ∧
    ∃ pre start type suf, InfoFrom dates cospar ((sats.map (·.raw)).map (·.lines)).flatten .gps 1 ep sat pre start type suf ∧
      (¬ BlankColumns type 40 10 → ¬ BlankColumns type 50 10 → IntBegins ((type.drop 41).take 5) sat.svn) := by
  obtain ⟨f, p, h1, _, h3, h4, h5, h6, h7⟩ := C52_open_before J hdr_wf (atxRawText (sats.map (·.raw)))
  have hf : AtxOnRaw (sats.map (·.raw)) f := ⟨⟨p, h4, h5⟩, h6⟩
  obtain ⟨st, sv, f', e1, _, _, e4⟩ := C88_satellite_partial (eph := ep) J_wf (by simp [sats]) sats_wf hf J_nul cospar (Nat.lt_succ_self _)
  have hw : ∀ l ∈ ((sats.map (·.raw)).map (·.lines)).flatten, GridLine l := by decide
  rcases e4 with ⟨i, r, s, x1, x2, x3, _⟩ | ⟨x1, _⟩
  · subst x2
    obtain ⟨sat, pre, start, type, suf, rfl, hi⟩ := C105_info h6 h4 h5 hw e1
    exact ⟨f, sat, f', e1, pre, start, type, suf, hi, fun a b => (C105_own hi a b).1⟩
  · exact absurd s5_for (x1 s5 (by simp [sats]))

end AntexInfoEx
end Ggnss
