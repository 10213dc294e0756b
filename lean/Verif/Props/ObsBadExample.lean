import Verif.Props.ObsBad
import Verif.Props.ObsExample
/-!
# A concrete observation file with malformed lines: the hypotheses of C82 are met
-/
namespace Ggnss.ObsEx

/-- The calendar of the example as a partial function. -/
def dayOf (y m d : Nat) : Option Int := if y = 2019 ∧ m = 1 ∧ d = 1 then some 58484 else none

theorem calendar : Calendar mjdOf dayOf := by
  intro y mo d day h
  unfold dayOf at h
  split at h
  · rename_i hh
    obtain ⟨rfl, rfl, rfl⟩ := hh
    injection h with h; subst h; rfl
  · cases h

/-- The second value (L1C) begins with letters. -/
def lineBad : List Char := c!"G12  23456789.012 4 ??3265432.100  "
/-- A satellite number that is none, an unknown system. -/
def lineNoNum : List Char := c!"G-1  23456789.012 4 123265432.100  "
def lineNoSys : List Char := c!"X12  23456789.012 4 123265432.100  "

theorem lineBad_bad : BadLine mmap lineBad :=
  .value .gps _ 12 rfl rfl (by decide) (natCheck_sound (k := 0) (ds := c!"12") (by decide)) (by decide) (by decide)
    ⟨[(1, 1)], by simp, (1, 1), by simp, by decide, by decide, Or.inl (Or.inr ⟨1, '?', c!"?3265432.100  ", by decide, by decide, by decide, by decide⟩)⟩

example : BadLine mmap lineNoNum := .number .gps _ rfl rfl (Or.inr (Or.inr ⟨'1', by decide, by decide⟩))
example : BadLine mmap lineNoSys := .system (by intro sys; cases sys <;> decide)

/-- An epoch of three satellites whose second data line is malformed. -/
def brokenB : BrokenBlock := ⟨head, [lineG05], lineBad⟩

theorem got05 : EpochGot mmap [lineG05] [outG05] := by
  have c1 : outG05 = ((.gps, ((5 : Nat) : Int)), [[(some gC1.num.value, (1 : Rat))], [(some gC1.num.value, 5 / 2), (some gC2.num.value, -3 / 2)],
      [(some gL1.num.value, 1)]].map combination) := by
    simp [outG05, combination]
  rw [c1]
  apply EpochGives.got
  refine .sat .gps 5 _ _ rfl rfl (natCheck_sound (k := 0) (ds := c!"05") (by decide)) (by decide) (by decide) (by decide) ?_ ?_ .nil
  · exact .cons (.cons ⟨g0, rfl⟩ .nil) (.cons (.cons ⟨g0, rfl⟩ (.cons ⟨g2, rfl⟩ .nil)) (.cons (.cons ⟨g1, rfl⟩ .nil) .nil))
  · intro xs hxs
    simp only [List.mem_cons, List.not_mem_nil, or_false] at hxs
    rcases hxs with rfl | rfl | rfl <;> simp

theorem broken_sees : BrokenSees mjdOf mmap buf.length brokenB hd [outG05] where
  head := ⟨2019, 1, 1, 0, 30, 0, 3, 0, head_says, rfl, by simp [hd]; norm_num, rfl, rfl, by decide⟩
  gives := got05
  bad := lineBad_bad
  fit := ⟨by decide, by decide, by decide⟩

/-- A header with an unreadable month. -/
def headBad : List Char := c!"> 2019 x1 01 00 30  0.0000000  0  3"

theorem headBad_bad : BadHead dayOf headBad 2 :=
  .date [(c!"2019", 2019)] (c!"x1 01 00 30  0.0000000  0  3") (by decide) (by decide)
    (by simp only [List.mem_singleton, forall_eq]; exact ⟨4, by decide, head_says.year⟩) (by decide)
    (Or.inl ⟨0, none, _, rfl, by intro c hc; cases hc; exact ⟨by decide, fun _ => ⟨by decide, by decide, by decide⟩⟩⟩) (by decide)

/-- A header whose number of satellites does not fit. -/
def headCount : List Char := c!"> 2019 01 01 00 30  0.0000000  099999999999999999999"
example : BadHead dayOf headCount 4 :=
  .count 2019 1 1 58484 secNum c!"  099999999999999999999"
    ⟨by decide, by decide, c!"2019", c!"01", c!"01", c!"00", c!"30", 0, 30, head_says.year, head_says.month, head_says.day, head_says.hour,
      head_says.min, by decide⟩ rfl secNum_wf (by intro c hc; cases hc; decide) ⟨0, [], c!"99999999999999999999", [], by decide, Or.inl rfl, by decide, by decide, by decide⟩

/-- The file: a good epoch; an epoch broken off at its second satellite, whose third line is left over; a
header that cannot be read; a good epoch.  Seven calls return 0, 31, 21, 22, 0, -1, -1. -/
example (raw0 : RawRnxObs) (s : Stream) (hg : s.good = true)
    (hr : s.rest = block.text ++ (brokenB.text ++ (linesText [lineE11] ++ (linesText [headBad] ++ block.text)))) :
    ∃ rs ov' s', obsReadEpochs mjdOf raw0 mmap 7 (initEpochVector mmap) buf s 0 = .ok (rs ++ List.replicate 2 (-1, 0, none, ov'), s') ∧
      PieceResults (initEpochVector mmap)
        [(0, some hd, [outG05, outG12]), (31, some hd, [outG05]), (21, none, []), (22, none, []), (0, some hd, [outG05, outG12])] rs ov' := by
  obtain ⟨rs, ov', s', e1, e2, _⟩ := C82_sequence calendar (mmap := mmap) raw0 2
    [.epoch block, .broken brokenB, .line lineE11, .line headBad, .epoch block]
    [(0, some hd, [outG05, outG12]), (31, some hd, [outG05]), (21, none, []), (22, none, []), (0, some hd, [outG05, outG12])]
    (initEpochVector mmap) buf s
    (.cons (.epoch block_says.sees) (.cons (.broken broken_sees) (.cons (.line (st := 1) (.noHead (Or.inl (by decide))) (by decide))
      (.cons (.line (st := 2) headBad_bad (by decide)) (.cons (.epoch block_says.sees) .nil))))) (by decide) hg
    (by rw [hr]; simp [ObsPiece.text]) (by rw [(C42_initial mmap).1]; decide) (C42_initial mmap).2.1
  exact ⟨rs, ov', s', e1, e2⟩

end Ggnss.ObsEx
