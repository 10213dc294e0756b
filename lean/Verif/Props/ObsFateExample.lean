import Verif.Props.ObsFate
import Verif.Props.ObsLinesExample
import Verif.Props.ObsHeadTextExample
/-! # A concrete epoch meeting the hypotheses of C111 -/
namespace Ggnss
namespace ObsFateEx

/-- A calendar that knows one day. -/
def cal (y m d : Int) : Res Int := if y = 2019 ∧ m = 1 ∧ d = 1 then .ok 58484 else .throw .invalid_argument

theorem cal_ok (y m d : Int) : (∃ k, cal y m d = .ok k) ∨ ∃ e, cal y m d = .throw e := by
  unfold cal
  split
  · exact Or.inl ⟨_, rfl⟩
  · exact Or.inr ⟨_, rfl⟩

/-- Three data lines announced. -/
def l0 : List Char := c!"> +2019/01/01:00_30 1.5E1 secs 4 3 sats"
/-- Two GPS lines, one of GLONASS. -/
def ls : List (List Char) := [ObsLinesEx.l1', ObsLinesEx.l2, ObsLinesEx.l1']
def slot : SatVals := ((.mixed, -1), [0, 0])
def ov1 : List SatVals := [slot]
def ov2 : List SatVals := [slot, slot]

theorem room1 : Room ObsLinesEx.mmap ov1 := by unfold Room; decide
theorem room2 : Room ObsLinesEx.mmap ov2 := by unfold Room; decide

theorem date : DateIn l0 [2019, 1, 1, 0, 30] (l0.drop 20) := by
  refine ⟨?_, by decide⟩
  refine .cons _ _ (l0.drop 7) _ _ ⟨[], ['+'], c!"2019", by decide, by decide, by decide, by decide, by decide, by decide, by decide⟩ ?_
  refine .cons _ _ (l0.drop 10) _ _ ⟨[], [], c!"01", by decide, by decide, by decide, by decide, by decide, by decide, by decide⟩ ?_
  refine .cons _ _ (l0.drop 13) _ _ ⟨[], [], c!"01", by decide, by decide, by decide, by decide, by decide, by decide, by decide⟩ ?_
  refine .cons _ _ (l0.drop 16) _ _ ⟨[], [], c!"00", by decide, by decide, by decide, by decide, by decide, by decide, by decide⟩ ?_
  exact .cons _ _ (l0.drop 19) _ _ ⟨[], [], c!"30", by decide, by decide, by decide, by decide, by decide, by decide, by decide⟩ (.nil _)

theorem inPlace : DateInPlace l0 := dateInPlace_of date (Or.inl (by decide)) (by decide)

theorem plain : PlainReals l0 := by
  refine ⟨fun vs rest h5 h => ?_, not_odd (by decide)⟩
  obtain ⟨_, rfl⟩ := date.unique h (by rw [h5]; rfl)
  exact not_odd (by decide)

theorem gives : HeaderGives cal l0 ⟨58484, 1815, 4, 3, none⟩ where
  mark := rfl
  long := by decide
  time := by
    refine ⟨2019, 1, 1, 0, 30, 15, _, date, ?_, ?_, rfl, ?_⟩
    · rw [← ObsHeadTextEx.n1_value]
      exact ⟨[], ObsHeadTextEx.n1, 'E', c!" secs 4 3 sats", by decide, by decide, ObsHeadTextEx.n1_shape, Or.inr rfl, rfl, by decide, by simp [ObsHeadTextEx.n1],
        by simp [ObsHeadTextEx.n1]⟩
    · rw [← ObsHeadTextEx.n1_value]
      exact fits_of_shape ObsHeadTextEx.n1_shape (by decide) (by decide) (by rintro s ds ⟨⟩; decide)
    · rw [show toInt32 0 = 0 by decide, show toInt32 30 = 30 by decide]; norm_num
  flag := ⟨'4', by decide, by decide⟩
  count := Or.inl ⟨3, ⟨⟨[' '], [], ['3'], c!" sats", by decide, by decide, by decide, by decide, by decide, by decide, by decide⟩, by decide⟩, by decide⟩
  clock := Or.inl ⟨by decide, rfl⟩

theorem lines2 : LinesGive ObsLinesEx.mmap (ls.take 2) [((.gps, 7), [1500, missingMark])] := ObsLinesEx.gives

theorem lines3 : LinesGive ObsLinesEx.mmap (ls.take 3) [((.gps, 7), [1500, missingMark]), ((.gps, 7), [1500, missingMark])] := by
  have e : [[(some 1500, 1)], [(none, 2)]].map (codeSum · 0) = [1500, missingMark] := by simp [codeSum]
  have h1 : List.Forall₂ (PartsGive ObsLinesEx.l1') [[(0, 1)], [(1, 2)]] [[(some 1500, 1)], [(none, 2)]] :=
    .cons (.cons ⟨ObsLinesEx.g1, rfl⟩ .nil) (.cons (.cons ⟨ObsLinesEx.g2, rfl⟩ .nil) .nil)
  have : LinesGive ObsLinesEx.mmap (ls.take 3) [((.gps, 7), [[(some 1500, 1)], [(none, 2)]].map (codeSum · 0)), ((.gps, 7), [[(some 1500, 1)], [(none, 2)]].map (codeSum · 0))] :=
    .sat .gps 7 [[(0, 1)], [(1, 2)]] _ (by decide) (by decide) ObsLinesEx.sat7 h1 (.skip .glonass (by decide) (by decide)
      (.sat .gps 7 [[(0, 1)], [(1, 2)]] _ (by decide) (by decide) ObsLinesEx.sat7 h1 .nil))
  rwa [e] at this

/-- With one element in the vector: undefined. -/
theorem fate1 : ObsFate cal ObsLinesEx.mmap l0 ls ov1.length .undefined :=
  .data _ _ gives (.full _ 2 ObsLinesEx.l1' (by decide) lines2 rfl rfl ⟨.gps, _, by decide, rfl⟩)

/-- With two elements: the call returns. -/
theorem fate2 : ObsFate cal ObsLinesEx.mmap l0 ls ov2.length .returns := .data _ _ gives (.complete _ lines3 (by decide))

theorem plainLines : ∀ l ∈ ls, PlainLine ObsLinesEx.mmap l := by
  intro l hl sys sysobs h1 h2 prs hp pr hpr
  have hm : (sys, sysobs) ∈ ObsLinesEx.mmap := lookup_mem h1
  simp only [ObsLinesEx.mmap, List.mem_singleton, Prod.mk.injEq] at hm
  obtain ⟨rfl, rfl⟩ := hm
  simp only [List.mem_cons, List.not_mem_nil, or_false] at hp
  simp only [ls, List.mem_cons, List.not_mem_nil, or_false] at hl
  rcases hp with rfl | rfl <;> simp only [List.mem_cons, List.not_mem_nil, or_false] at hpr <;> subst hpr <;> rcases hl with rfl | rfl | rfl <;> exact not_odd (by decide)

/-- The call is undefined with one element in the vector. -/
example (raw0 : RawRnxObs) (buf : List Char) (hb : buf.length = 71) (t : List Char) :
    readNextEpoch cal raw0 ObsLinesEx.mmap ov1 buf ⟨linesText (l0 :: ls) ++ t, 0, false, false⟩ 0 = .ub :=
  (C111_fate cal_ok raw0 (t := t) (by rw [hb]; decide) (by omega) inPlace plain plainLines rfl (by rfl)
    (Or.inr fun h hh => by rw [hh.unique gives]; decide) room1).2.1.2 fate1

/-- ... and returns with two. -/
example (raw0 : RawRnxObs) (buf : List Char) (hb : buf.length = 71) (t : List Char) :
    ∃ o, readNextEpoch cal raw0 ObsLinesEx.mmap ov2 buf ⟨linesText (l0 :: ls) ++ t, 0, false, false⟩ 0 = .ok o :=
  (C111_fate cal_ok raw0 (t := t) (by rw [hb]; decide) (by omega) inPlace plain plainLines rfl (by rfl)
    (Or.inr fun h hh => by rw [hh.unique gives]; decide) room2).1.2 fate2

end ObsFateEx
end Ggnss
