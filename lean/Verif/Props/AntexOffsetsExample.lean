import Verif.Props.AntexOffsets
import Verif.Props.AntexSatBadExample
import Verif.Props.AntexDamageExample
/-! # Concrete files meeting the hypotheses of C97 -/
namespace Ggnss
namespace AntexOffsetsEx
open AntexExample AntexDamageEx AntexSatBadEx
open BernExample (years)

set_option maxRecDepth 20000 in
/-- `C97_receiver_partial` on the file with two damaged records: the antenna with serial number 12345 gets one offset, and the theorem says where it stands. -/
example (a : List Char) (ha : AntReach a kc [c!"12345"]) : ∃ f list f', atxPcoReceiver J (f.strm.content.length + 1) f a true = .ok (0, list, f') ∧
    list.length = 1 ∧ ∃ pre start type suf n, (rs.map (·.lines)).flatten = pre ++ start :: type :: suf ∧ ExactType kc [c!"12345"] type ∧ RecordGives suf n list := by
  obtain ⟨f, p, h1, _, h3, h4, h5, h6, h7⟩ := C52_open_before J hdr_wf (atxRawText rs)
  have hf : AtxOnRaw rs f := ⟨⟨p, h4, h5⟩, h6⟩
  obtain ⟨l, f', e1, e2, _⟩ := C80_damaged_records_partial J_wf rs_wf hf ha (must := true) (r := r2)
      (Or.inl ⟨1, rfl, r2_exact, by
        intro j hj q hq
        have : j = 0 := by omega
        subst this
        simp only [rs, List.getElem?_cons_zero, Option.some.injEq] at hq
        subst hq
        exact r1_no _⟩) b2_wf (E := []) (by rw [List.append_nil]; rfl) (AtxSays.intact b2.last (by decide)) (Nat.lt_succ_self _)
  have hw : ∀ x ∈ (rs.map (·.lines)).flatten, GridLine x := by decide
  have hlen : l.length = 1 := by
    have := congrArg List.length e2
    simpa [AtxBlock.offsets, b2, mk] using this
  rcases C97_receiver_partial J_wf h6 h4 h5 hw h7 ha e1 with ⟨h, _⟩ | ⟨pre, start, type, suf, n, q1, _, _, q2, q3, _⟩
  · exact absurd rfl h
  · rcases q2 with q2 | ⟨q2, _⟩
    · exact ⟨f, l, f', e1, hlen, pre, start, type, suf, n, q1, q2, q3⟩
    · cases q2

set_option maxRecDepth 20000 in
/-- `C97_satellite_partial` on the file with four damaged records of G01 and an intact one. -/
example (cospar : List Char) : ∃ f list sv f', atxPcoSatellite dates J cospar (f.strm.content.length + 1) f 1 .gps ep = .ok (0, list, sv, f') ∧
    list.length = 1 ∧ ∃ pre start type suf n, ((sats.map (·.raw)).map (·.lines)).flatten = pre ++ start :: type :: suf ∧
      SatRecord dates .gps 1 ep type suf ∧ RecordGives suf n list := by
  obtain ⟨f, p, h1, _, h3, h4, h5, h6, h7⟩ := C52_open_before J hdr_wf (atxRawText (sats.map (·.raw)))
  have hf : AtxOnRaw (sats.map (·.raw)) f := ⟨⟨p, h4, h5⟩, h6⟩
  obtain ⟨l, sv, f', e1, e2, _⟩ := C88_offsets_partial J_wf sats_wf hf J_nul cospar first b3_dates (E := []) (by rw [List.append_nil]; rfl)
      (AtxSays.intact b3.last (by decide)) (Nat.lt_succ_self _)
  have hw : ∀ x ∈ ((sats.map (·.raw)).map (·.lines)).flatten, GridLine x := by decide
  have hlen : l.length = 1 := by
    have := congrArg List.length e2
    simpa [AtxBlock.offsets, b3, mk] using this
  rcases C97_satellite_partial h6 h4 h5 hw e1 with ⟨h, _⟩ | ⟨pre, start, type, suf, n, q1, _, _, q2, q3, _⟩
  · exact absurd rfl h
  · exact ⟨f, l, some sv, f', e1, hlen, pre, start, type, suf, n, q1, q2, q3⟩

/-- The record of the receiver antenna with serial number 12345, without its frequency. -/
def lost : AtxRaw := ⟨b2.start, b2.type, [b2.meth, b2.dazi, b2.zen, b2.num], b2.last⟩

set_option maxRecDepth 20000 in
theorem lost_wf : lost.WF := ⟨by decide, by decide, by decide, by decide, by decide⟩

set_option maxRecDepth 20000 in
/-- `C97_borrowed_offsets`: before the record of the satellite G01, the receiver antenna gets the satellite's offsets, and status 0. -/
example (a : List Char) (ha : AntReach a kc [c!"12345"]) : ∃ f l f', atxOpen J (hdr.text ++ linesText (lost.lines ++ b3.lines)) = .ok f ∧
    atxPcoReceiver J (f.strm.content.length + 1) f a true = .ok (0, l, f') ∧ l.map Pco.flat = b3.offsets := by
  obtain ⟨f, p, h1, _, h3, h4, h5, h6, h7⟩ := C52_open_before J hdr_wf (linesText (lost.lines ++ b3.lines))
  obtain ⟨l, f', e1, e2⟩ := C97_borrowed_offsets J_wf lost_wf b3_dates (opts := []) (meth := b2.meth) (dazi := b2.dazi) (zen := b2.zen) (num := b2.num) rfl
    b2_wf.meth b2_wf.dazi b2_wf.zen b2_wf.num b2_wf.numVal (by simp) ha (b2_exact : lost.Exact kc [c!"12345"]) h6 h4 (t := []) (by rw [h5]; simp) true (Nat.lt_succ_self _)
  exact ⟨f, l, f', h1, e1, e2⟩

end AntexOffsetsEx
end Ggnss
