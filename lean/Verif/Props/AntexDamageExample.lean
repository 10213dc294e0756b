import Verif.Props.AntexCut
import Verif.Props.AntexExample
/-! # Concrete damaged and truncated ANTEX files meeting the hypotheses of C80 and C81 -/
namespace Ggnss
namespace AntexDamageEx
open AntexExample
open BernExample (years)

/-- The record `b1` without its `DAZI` line. -/
def r1 : AtxRaw := ⟨b1.start, b1.type, [b1.meth, b1.zen, b1.num] ++ (b1.freqs.map (·.lines)).flatten, b1.last⟩
/-- The record `b2`, intact. -/
def r2 : AtxRaw := ⟨b2.start, b2.type, b2.top ++ (b2.freqs.map (·.lines)).flatten, b2.last⟩
/-- A line of offsets with a letter in the second one. -/
def badNeu : List Char := lab c!"      0.00     x0.00     60.25" c!"NORTH / EAST / UP"
/-- `b2` for another serial number, with that line. -/
def r3 : AtxRaw := ⟨b2.start, lab c!"ASH700228A      NONE54321" c!"TYPE / SERIAL NO", b2.top ++ [f2.start, badNeu, f2.stop], b2.last⟩

set_option maxRecDepth 20000 in
theorem r1_wf : r1.WF := ⟨by decide, by decide, by decide, by decide, by decide⟩
set_option maxRecDepth 20000 in
theorem r2_wf : r2.WF := ⟨by decide, by decide, by decide, by decide, by decide⟩
set_option maxRecDepth 20000 in
theorem r3_wf : r3.WF := ⟨by decide, by decide, by decide, by decide, by decide⟩

def rs : List AtxRaw := [r1, r2, r3]
theorem rs_wf : ∀ r ∈ rs, r.WF := by
  intro b hb
  simp only [rs, List.mem_cons, List.not_mem_nil, or_false] at hb
  rcases hb with rfl | rfl | rfl
  exacts [r1_wf, r2_wf, r3_wf]

set_option maxRecDepth 20000 in
theorem r1_no (ss : List (List Char)) : ¬ r1.Exact kc ss := by
  rintro ⟨_, h, _⟩
  revert h; decide
set_option maxRecDepth 20000 in
theorem r2_exact : r2.Exact kc [c!"12345"] := b2_exact
set_option maxRecDepth 20000 in
theorem r3_exact : r3.Exact kc [c!"54321"] := ⟨by decide, by decide, c!"54321", rfl, by decide, by decide⟩
theorem raw_serial {r : AtxRaw} {s : List Char} (h : r.Exact kc [s]) : r.name.serial = padTo 20 s := by
  obtain ⟨_, _, s', h1, _, h3⟩ := h
  simp only [List.getLast?_singleton, Option.some.injEq] at h1
  rw [h1]; exact h3

set_option maxRecDepth 20000 in
/-- The file is opened.  The antenna with serial number 12345 gets the offsets of its (intact) record; the
antenna with serial number 777, for which the damaged first record is used, gets status 2 and no offsets; if
its serial number must match, status 10. -/
example : ∃ f, atxOpen J (hdr.text ++ atxRawText rs) = .ok f ∧
    (∀ a, AntReach a kc [c!"12345"] → ∀ must, ∃ l f', atxPcoReceiver J (f.strm.content.length + 1) f a must = .ok (0, l, f') ∧
      l.map Pco.flat = b2.offsets) ∧
    (∀ a, AntReach a kc [c!"777"] → ∃ f', atxPcoReceiver J (f.strm.content.length + 1) f a false = .ok (2, [], f')) ∧
    (∀ a, AntReach a kc [c!"777"] → ∃ f', atxPcoReceiver J (f.strm.content.length + 1) f a true = .ok (10, [], f')) := by
  obtain ⟨f, p, h1, _, h3, h4, h5, h6, h7⟩ := C52_open_before J hdr_wf (atxRawText rs)
  have hf : AtxOnRaw rs f := ⟨⟨p, h4, h5⟩, h6⟩
  have h777 : ∀ q ∈ rs, ¬ q.Exact kc [c!"777"] := by
    intro q hq
    simp only [rs, List.mem_cons, List.not_mem_nil, or_false] at hq
    rcases hq with rfl | rfl | rfl
    · exact r1_no _
    · intro h; have := raw_serial h; revert this; decide
    · intro h; have := raw_serial h; revert this; decide
  refine ⟨f, h1, ?_, ?_, ?_⟩
  · intro a ha must
    obtain ⟨l, f', e1, e2, _⟩ := C80_damaged_records_partial J_wf rs_wf hf ha (must := must) (r := r2)
      (Or.inl ⟨1, rfl, r2_exact, by
        intro j hj q hq
        have : j = 0 := by omega
        subst this
        simp only [rs, List.getElem?_cons_zero, Option.some.injEq] at hq
        subst hq
        exact r1_no _⟩) b2_wf (E := []) (by rw [List.append_nil]; rfl) (AtxSays.intact b2.last (by decide)) (Nat.lt_succ_self _)
    exact ⟨l, f', e1, e2⟩
  · intro a ha
    obtain ⟨l, f', e1, e2, _⟩ := C80_damaged_records_partial J_wf rs_wf hf ha (must := false) (r := r1)
      (Or.inr ⟨h777, rfl, 0, rfl, b1_close, by
        intro j hj q hq
        match j, hj with
        | 1, _ =>
          simp only [rs, List.getElem?_cons_succ, List.getElem?_cons_zero, Option.some.injEq] at hq
          subst hq
          rintro ⟨_, h⟩; revert h; decide
        | 2, _ =>
          simp only [rs, List.getElem?_cons_succ, List.getElem?_cons_zero, Option.some.injEq] at hq
          subst hq
          rintro ⟨_, h⟩; revert h; decide
        | j + 3, _ => simp [rs] at hq⟩) b1_wf (D := [b1.meth, b1.zen]) (E := b1.num :: (b1.freqs.map (·.lines)).flatten ++ [b1.last]) rfl
      (AtxSays.dazi b1.zen (by decide)) (Nat.lt_succ_self _)
    rw [List.map_eq_nil_iff.1 e2] at e1
    exact ⟨f', e1⟩
  · intro a ha
    obtain ⟨f', e1, _⟩ := C80_no_record J_wf (by simp [rs]) rs_wf hf h7 ha h777 (must := true) (by simp) (Nat.lt_succ_self _)
    exact ⟨f', e1⟩

set_option maxRecDepth 20000 in
/-- The third record has an offset that is no number: asking for it terminates the program. -/
example {f : AtxFile} (hf : AtxOnRaw rs f) {a : List Char} (ha : AntReach a kc [c!"54321"]) (must : Bool) :
    atxPcoReceiver J (f.strm.content.length + 1) f a must = .terminate := by
  refine C80_bad_offset_terminates J_wf rs_wf hf ha (r := r3) (Or.inl ⟨2, rfl, r3_exact, ?_⟩) b2_wf (fs := []) (q := f2) (qs := []) rfl (l := badNeu)
    (by decide) (Or.inr (Or.inl ⟨f2.north, f2_wf.north, Or.inl (Or.inr ⟨5, 'x', c!"0.00", by decide, by decide, by decide, by decide⟩)⟩))
    (E := [f2.stop, b2.last]) (by decide) (Nat.lt_succ_self _)
  intro j hj q hq
  match j, hj with
  | 0, _ =>
    simp only [rs, List.getElem?_cons_zero, Option.some.injEq] at hq
    subst hq
    exact r1_no _
  | 1, _ =>
    simp only [rs, List.getElem?_cons_succ, List.getElem?_cons_zero, Option.some.injEq] at hq
    subst hq
    intro h; have := raw_serial h; revert this; decide

/-- C81: the file ends in the middle of the line with the offsets of the second frequency of the record
`b2`-like with both frequencies: whatever is returned, the offsets are a beginning of those of the record. -/
def b4 : AtxBlock := mk c!"ASH700228A      NONE12345" none c!"     2" [] [f1, f2]

set_option maxRecDepth 20000 in
theorem b4_wf : b4.WF years := by
  refine mk_wf (by decide) (sat_none (c := '1') (by decide) (by intro s; cases s <;> decide)) (by decide)
    (natCheck_sound (k := 5) (ds := c!"2") (by decide)) (by simp) (by simp) (by decide) (by decide) ?_ (by decide)
  intro f hf
  simp only [List.mem_cons, List.not_mem_nil, or_false] at hf
  rcases hf with rfl | rfl
  exacts [f1_wf, f2_wf]

/-- What is left of `b4` after its `METH` line: the file ends inside the offsets of the second frequency. -/
def cut4 : List Char := linesText ([b4.dazi, b4.zen, b4.num] ++ f1.lines ++ [f2.start]) ++ c!"      0.00      0.0"

set_option maxRecDepth 20000 in
example : ∃ f, atxOpen J (hdr.text ++ (atxRawText [r1, r3] ++ (linesText [b4.start, b4.type] ++ (linesText [b4.meth] ++ cut4)))) = .ok f ∧
    ∀ a, AntReach a kc [c!"12345"] → ∀ must, ∃ st l f', atxPcoReceiver J (f.strm.content.length + 1) f a must = .ok (st, l, f') ∧
      l.map Pco.flat <+: b4.offsets ∧ (st = 0 → l.map Pco.flat = b4.offsets) := by
  obtain ⟨f, p, h1, _, h3, h4, h5, h6, h7⟩ := C52_open_before J hdr_wf
    (atxRawText [r1, r3] ++ (linesText [b4.start, b4.type] ++ (linesText [b4.meth] ++ cut4)))
  refine ⟨f, h1, ?_⟩
  intro a ha must
  refine C81_truncated_file_partial J_wf (pre := [r1, r3]) (k := kc) (ss := [c!"12345"]) ?_ b4_wf ⟨by decide, by decide, c!"12345", rfl, by decide, by decide⟩
    (u := cut4) ?_ h4 h6 h5 ha must (Nat.lt_succ_self _)
  · intro r hr
    simp only [List.mem_cons, List.not_mem_nil, or_false] at hr
    rcases hr with rfl | rfl
    · exact ⟨r1_wf, r1_no _⟩
    · exact ⟨r3_wf, by intro h; have := raw_serial h; revert this; decide⟩
  · decide

end AntexDamageEx
end Ggnss
