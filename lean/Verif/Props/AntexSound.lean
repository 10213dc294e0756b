import Verif.Props.AntexAny
/-!
# C37 for arbitrary bytes: a satellite that is found is the one asked for
-/
namespace Ggnss

theorem atxSatTest_true {strptime : List Char → Res DateTime} {J : AtxJunk} {fuel : Nat} {prn : Int} {ss : SatSys} {eph : DateTime}
    {c : List Char} {sat : AtxSat} {s : Stream} {m : Bool × AtxSat × Stream} (h : atxSatTest strptime J fuel prn ss eph c sat s = .ok m)
    (ht : m.1 = true) :
    m.2.1.prn = prn ∧ m.2.1.sys = ss ∧ atxResolve c sat = .ok (0, m.2.1) ∧ checkTimeInterval strptime J fuel eph s = .ok (0, m.2.2) := by
  unfold atxSatTest at h
  obtain ⟨r, hr, h⟩ := Res.bind_eq_ok.1 h
  split at h
  · rename_i hc
    obtain ⟨t, e, h⟩ := Res.bind_eq_ok.1 h
    cases h
    simp only [decide_eq_true_eq] at ht
    refine ⟨hc.2.1, hc.2.2, ?_, ?_⟩
    · rw [hr, ← hc.1]
    · rw [e, ← ht]
  · cases h; simp at ht

theorem atxSatEnd_ne {st : Int} {st2 : Option Int} {pos : Option Nat} {sat : AtxSat} {s : Stream} {o : AtxSatOut}
    (h : atxSatEnd st st2 pos sat s = .ok o) : o.status ≠ 0 := by
  unfold atxSatEnd at h
  split at h
  · cases h; simp
  · split at h
    · cases h
    · split at h <;> cases h <;> simp

theorem atxSatLoop_sound {strptime : List Char → Res DateTime} {J : AtxJunk} {prn : Int} {ss : SatSys} {eph : DateTime} :
    ∀ (fuel : Nat) (cur c : List Char) (sat : AtxSat) (pos : Option Nat) (st2 : Option Int) (s : Stream) (o : AtxSatOut),
      atxSatLoop strptime J prn ss eph fuel cur c sat pos st2 s = .ok o → o.status = 0 →
      o.sat.prn = prn ∧ o.sat.sys = ss ∧
        ∃ (cur' c' : List Char) (sat' : AtxSat) (s' : Stream) (r : AtxType) (n : Nat), atxReadType J cur' c' s' = .ok r ∧ r.status = 0 ∧
          o.pos = r.strm.tellg.1 ∧ atxResolve r.c sat' = .ok (0, o.sat) ∧ checkTimeInterval strptime J n eph r.strm.tellg.2 = .ok (0, o.strm) := by
  intro fuel
  induction fuel with
  | zero => intro cur c sat pos st2 s o h; cases h
  | succ fuel ih =>
    intro cur c sat pos st2 s o h h0
    unfold atxSatLoop at h
    obtain ⟨r, hr, h⟩ := Res.bind_eq_ok.1 h
    split at h
    · exact absurd h0 (atxSatEnd_ne h)
    · rename_i hst
      obtain ⟨m, hm, h⟩ := Res.bind_eq_ok.1 h
      split at h
      · rename_i ht
        obtain ⟨h1, h2, h3, h4⟩ := atxSatTest_true hm ht
        cases h
        exact ⟨h1, h2, cur, c, _, s, r, fuel, hr, by simpa using hst, rfl, h3, h4⟩
      · obtain ⟨k, hk, h⟩ := Res.bind_eq_ok.1 h
        split at h
        · exact absurd h0 (atxSatEnd_ne h)
        · exact ih _ _ _ _ _ _ _ h h0

/-- **C37**, arbitrary bytes.  When the reader reports a satellite (status 0), it is the one asked for, it was read from a TYPE line, and
the interval of that block, checked right after the line, holds the epoch asked for — whatever the file, the memory and the calls before. -/
theorem C37_sound {strptime : List Char → Res DateTime} {J : AtxJunk} {cospar : List Char} {fuel : Nat} {f f' : AtxFile} {prn : Int}
    {ss : SatSys} {eph : DateTime} {sv : Option AtxSat} (h : atxSatInfo strptime J cospar fuel f prn ss eph = .ok (0, sv, f')) :
    ∃ sat, sv = some sat ∧ sat.prn = prn ∧ sat.sys = ss ∧
      ∃ (cur c : List Char) (sat' : AtxSat) (s : Stream) (r : AtxType) (n : Nat), atxReadType J cur c s = .ok r ∧ r.status = 0 ∧
        atxResolve r.c sat' = .ok (0, sat) ∧ checkTimeInterval strptime J n eph r.strm.tellg.2 = .ok (0, f'.strm) := by
  unfold atxSatInfo at h
  obtain ⟨o, ho, h⟩ := Res.bind_eq_ok.1 h
  have h := Res.ok.inj h
  simp only [Prod.mk.injEq] at h
  obtain ⟨h0, h1, h2⟩ := h
  rw [if_pos h0] at h1
  unfold atxFindSat at ho
  have ho := Res.noexcept_eq_ok.1 ho
  obtain ⟨cur, _, ho⟩ := Res.bind_eq_ok.1 ho
  obtain ⟨k1, k2, cur', c', sat', s', r, n, e1, e2, e3, e4, e5⟩ := atxSatLoop_sound _ _ _ _ _ _ _ _ ho h0
  refine ⟨_, h1.symm, k1, k2, cur', c', sat', s', r, n, e1, e2, e4, ?_⟩
  rw [← h2]; exact e5

end Ggnss
