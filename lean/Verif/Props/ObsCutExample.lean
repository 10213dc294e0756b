import Verif.Props.ObsCut
import Verif.Props.ObsBadExample
/-!
# A concrete observation file that ends early: the hypotheses of C83 are met
-/
namespace Ggnss.ObsEx

theorem mmap_order : ColumnsInOrder mmap := by
  unfold ColumnsInOrder mmap
  simp

/-- G12 with its second value lost. -/
def cutG12 : List Char := c!"G12  23456789.012 4 1232654"
def seenG12 : SatVals := ((.gps, 12), [hC1.num.value, missingMark, missingMark])

theorem cutG12_line : CutLine mmap cutG12 [seenG12] := by
  have c1 : seenG12 = ((.gps, ((12 : Nat) : Int)), [[(some hC1.num.value, (1 : Rat))], [(some hC1.num.value, 5 / 2), (none, -3 / 2)],
      [(none, 1)]].map (codeSum · 0)) := by
    simp [seenG12, codeSum]
  have v0 : Got cutG12 0 (some hC1.num.value) 0 := by
    have : hC1.readValue = hC1.num.value := by simp [ObsField.readValue, ObsField.spill, hC1]
    rw [← this]
    exact .value hC1 hC1_wf (by decide) (by rw [this]; exact not_marker hC1_wf.num rfl rfl)
  rw [c1]
  refine .sat .gps 12 _ _ rfl rfl (natCheck_sound (k := 0) (ds := c!"12") (by decide)) (by decide) (by decide) ?_
  exact .cons (.cons ⟨⟨0, by decide, v0⟩, rfl⟩ .nil) (.cons (.cons ⟨⟨0, by decide, v0⟩, rfl⟩ (.cons ⟨⟨0, by decide, .short (by decide)⟩, rfl⟩ .nil))
    (.cons (.cons ⟨⟨0, by decide, .short (by decide)⟩, rfl⟩ .nil) .nil))

/-- A good epoch, then one of which the last line is cut.  Four calls: the first epoch with status 0, then -1 three
times; the first of these delivers two satellites, the second of them without its phase. -/
example (raw0 : RawRnxObs) (s : Stream) (hg : s.good = true)
    (hr : s.rest = block.text ++ (linesText [head.line, lineG05, lineE11] ++ cutG12)) :
    ∃ (m : Nat) (rs : List (Int × Nat × Option EpochHead × List SatVals)) (ov1 : List SatVals) (s' : Stream),
      EpochResults (initEpochVector mmap) ([(hd, [outG05, outG12]), (hd, [outG05, outG12])].take m) rs ov1 ∧ s'.content = s.content ∧ AtEnd s' := by
  obtain ⟨m, rs, ov1, s', a, b, c, _⟩ := C83_sequence (mjdOf := mjdOf) (mmap := mmap) raw0 2 [block, block] [(hd, [outG05, outG12]), (hd, [outG05, outG12])]
    (initEpochVector mmap) buf s (.cons block_says.sees (.cons block_says.sees .nil)) (by decide) hg
    (by
      rw [hr]
      refine ⟨lineG12.drop cutG12.length ++ ['\n'], ?_⟩
      simp only [List.map_cons, List.map_nil, List.flatten_cons, List.flatten_nil, List.append_assoc, List.append_nil]
      congr 1)
    (by rw [(C42_initial mmap).1]; decide) (C42_initial mmap).2.1
  exact ⟨m, rs, ov1, s', a, b, c⟩

theorem got_pre : EpochGot mmap [lineG05, lineE11] [outG05] := by
  have c1 : outG05 = ((.gps, ((5 : Nat) : Int)), [[(some gC1.num.value, (1 : Rat))], [(some gC1.num.value, 5 / 2), (some gC2.num.value, -3 / 2)],
      [(some gL1.num.value, 1)]].map combination) := by
    simp [outG05, combination]
  rw [c1]
  apply EpochGives.got
  refine .sat .gps 5 _ _ rfl rfl (natCheck_sound (k := 0) (ds := c!"05") (by decide)) (by decide) (by decide) (by decide) ?_ ?_ (.skip .galileo rfl rfl .nil)
  · exact .cons (.cons ⟨g0, rfl⟩ .nil) (.cons (.cons ⟨g0, rfl⟩ (.cons ⟨g2, rfl⟩ .nil)) (.cons (.cons ⟨g1, rfl⟩ .nil) .nil))
  · intro xs hxs
    simp only [List.mem_cons, List.not_mem_nil, or_false] at hxs
    rcases hxs with rfl | rfl | rfl <;> simp

theorem got12 : EpochGot mmap [lineG12] [outG12] := by
  obtain ⟨o1, o, o2, e, a1, a2, a3⟩ := EpochGot.split (ls := [lineG05, lineE11]) (l := lineG12) (rest := []) gives.got
  rw [a1.unique got_pre] at e
  cases a3
  simp only [List.append_nil, List.cons_append, List.nil_append, List.cons.injEq, true_and] at e
  rw [e]; exact a2

/-- The cut line is delivered with the value that is there. -/
example (raw0 : RawRnxObs) (s : Stream) (hg : s.good = true) (hr : s.rest = linesText [head.line, lineG05, lineE11] ++ cutG12) :
    ∃ st ov' buf' s', readNextEpoch mjdOf raw0 mmap (initEpochVector mmap) buf s 0 = .ok ⟨st, 2, some hd, ov', buf', s', 0⟩ ∧ st ≠ 0 ∧
      Holds (initEpochVector mmap) ov' [outG05, seenG12] := by
  obtain ⟨st, ov', buf', s', a, b, c, _⟩ := C83_cut_line (out1 := [outG05]) (o := [outG12]) (out2 := []) (pre := [lineG05, lineE11]) (l := lineG12) (rest := [])
    raw0 (by simpa using block_says.sees) (by decide) rfl (q := cutG12) (by decide) got_pre got12 cutG12_line (by simp) hg hr
    (by rw [(C42_initial mmap).1]; decide) (C42_initial mmap).2.1
  exact ⟨st, ov', buf', s', a, by rcases b with ⟨rfl, _⟩ | ⟨rfl, _⟩ <;> decide, c⟩

/-- **C83** witness: a file that ends after the first digit of a satellite number (12) delivers another satellite
(1), without values, and status -1. -/
theorem C83_number_cut (raw0 : RawRnxObs) (s : Stream) (hg : s.good = true) (hr : s.rest = linesText [head.line, lineG05, lineE11] ++ c!"G1") :
    ∃ ov' buf' s', readNextEpoch mjdOf raw0 mmap (initEpochVector mmap) buf s 0 = .ok ⟨-1, 2, some hd, ov', buf', s', 0⟩ ∧
      Holds (initEpochVector mmap) ov' [outG05, ((.gps, 1), [missingMark, missingMark, missingMark])] := by
  have hc : CutLine mmap c!"G1" [((.gps, 1), [missingMark, missingMark, missingMark])] :=
    .sat .gps 1 _ [[(none, (1 : Rat))], [(none, 5 / 2), (none, -3 / 2)], [(none, 1)]] rfl rfl (natCheck_sound (k := 0) (ds := c!"1") (by decide)) (by decide) (by decide)
      (.cons (.cons ⟨⟨0, by decide, .short (by decide)⟩, rfl⟩ .nil) (.cons (.cons ⟨⟨0, by decide, .short (by decide)⟩, rfl⟩
        (.cons ⟨⟨0, by decide, .short (by decide)⟩, rfl⟩ .nil)) (.cons (.cons ⟨⟨0, by decide, .short (by decide)⟩, rfl⟩ .nil) .nil)))
  obtain ⟨st, ov', buf', s', a, b, c, _⟩ := C83_cut_line (out1 := [outG05]) (o := [outG12]) (out2 := []) (pre := [lineG05, lineE11]) (l := lineG12) (rest := [])
    raw0 (by simpa using block_says.sees) (by decide) rfl (q := c!"G1") (by decide) got_pre got12 hc (by simp) hg hr
    (by rw [(C42_initial mmap).1]; decide) (C42_initial mmap).2.1
  rcases b with ⟨rfl, h | h⟩ | ⟨rfl, _⟩
  · exact absurd rfl h
  · cases h
  · exact ⟨ov', buf', s', a, c⟩

end Ggnss.ObsEx
