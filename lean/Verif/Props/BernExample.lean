import Verif.Props.BernAny
/-! # A concrete SATELLIT file meeting the hypotheses of C34 and C49 -/
namespace Ggnss
namespace BernExample

/-- A reader of dates for the example: it looks at the four digits of the year only. -/
def years (t : List Char) : Res DateTime := .ok ⟨365 * (digitsVal (t.take 4) : Int), 0⟩

theorem years_at {l : List Char} {off : Nat} {d : DateTime} (h : off + 4 ≤ l.length)
    (hd : d = ⟨365 * (digitsVal ((l.drop off).take 4) : Int), 0⟩) : DateAt years l off d := by
  intro tail
  unfold years
  rw [List.drop_append_of_le_length (by omega), List.take_append_of_le_length (by simp; omega), hd]

theorem intCheck {l : List Char} {off k : Nat} {neg : Bool} {ds rest : List Char} {v : Int}
    (h0 : off ≤ l.length)
    (h1 : l.drop off = List.replicate k ' ' ++ ((if neg then ['-'] else []) ++ (ds ++ rest)))
    (h2 : allDigits ds) (h3 : ds ≠ []) (h4 : ∀ c, rest.head? = some c → c.isDigit = false)
    (h5 : v = (if neg then -(Nat.ofDigitChars 10 ds 0 : Int) else (Nat.ofDigitChars 10 ds 0 : Int)))
    (h6 : -2147483648 ≤ v ∧ v < 2147483648) : IntAt l off v := ⟨h0, k, neg, ds, rest, h1, h2, h3, h4, h5, h6⟩

def gap (n : Nat) : List Char := List.replicate n ' '

/-- Satellite 701, channel -4, in force from 2003 to 2009. -/
def r1 : BernRec := ⟨c!"101  MW    GLONASS-M        701    ----  2003 12 10 00 00 00  2009 06 17 23 59 59" ++ gap 112 ++ c!" -4  G1", 
  some (701, ⟨365 * 2003, 0⟩, some ⟨365 * 2009, 0⟩, 101, -4)⟩
/-- A laser reflector: no number in the SVN columns. -/
def r2 : BernRec := ⟨c!"101  SLR   GLONASS-M", none⟩
/-- The same satellite with channel 7 from 2009 on. -/
def r3 : BernRec := ⟨c!"108  MW    GLONASS-M        701    ----  2009 12 10 00 00 00                      " ++ gap 111 ++ c!"  7  G1", 
  some (701, ⟨365 * 2009, 0⟩, none, 108, 7)⟩

set_option maxRecDepth 20000 in
theorem r1_wf : r1.WF years := by
  refine ⟨by decide, by decide, by decide, by simp [r1], ?_⟩
  intro svn start stop prn chan h
  simp only [r1, Option.some.injEq, Prod.mk.injEq] at h
  obtain ⟨rfl, rfl, rfl, rfl, rfl⟩ := h
  refine ⟨rfl, rfl, natCheck_sound (k := 0) (ds := c!"701") (by decide), years_at (by decide) (by decide),
    ⟨⟨62, '2', by decide, by decide, rfl, by decide⟩, years_at (by decide) (by decide)⟩, by decide,
    natCheck_sound (k := 0) (ds := c!"101") (by decide), 
    intCheck (k := 1) (neg := true) (ds := c!"4") (rest := c!"  G1") (by decide) (by decide) (by decide) (by decide) (by simp) (by decide) (by decide)⟩

set_option maxRecDepth 20000 in
theorem r2_wf : r2.WF years := by
  refine ⟨by decide, by decide, by decide, by intro _; decide, ?_⟩
  intro svn start stop prn chan h
  simp [r2] at h

theorem blank_dec {l : List Char} {a b : Nat} (h : ((List.range b).all fun i => decide (i < a) || decide (l[i]? = some ' ')) = true) :
    BlankCols l a b := by
  intro i hi hb
  rw [List.all_eq_true] at h
  have := h i (by simpa using hb)
  simpa [Nat.not_lt.2 hi] using this

set_option maxRecDepth 20000 in
theorem r3_wf : r3.WF years := by
  refine ⟨by decide, by decide, by decide, by simp [r3], ?_⟩
  intro svn start stop prn chan h
  simp only [r3, Option.some.injEq, Prod.mk.injEq] at h
  obtain ⟨rfl, rfl, rfl, rfl, rfl⟩ := h
  refine ⟨rfl, rfl, natCheck_sound (k := 0) (ds := c!"701") (by decide), years_at (by decide) (by decide),
    blank_dec (by decide), by decide,
    natCheck_sound (k := 0) (ds := c!"108") (by decide), 
    intCheck (k := 2) (neg := false) (ds := c!"7") (rest := c!"  G1") (by decide) (by decide) (by decide) (by decide) (by simp) (by decide) (by decide)⟩

def recs : List BernRec := [r1, r2, r3]
theorem recs_wf : ∀ r ∈ recs, r.WF years := by
  intro r hr
  simp only [recs, List.mem_cons, List.not_mem_nil, or_false] at hr
  rcases hr with rfl | rfl | rfl
  exacts [r1_wf, r2_wf, r3_wf]

def hdr : BernHeader := ⟨bernLine1 ++ c!" 09-DEC-19", [c!"", c!"PART 1: PHYSICAL SATELLITE PARAMETERS"], bernPart2,
  c!"------------------------", bernHead1, bernHead2, c!""⟩

set_option maxRecDepth 20000 in
theorem hdr_wf : hdr.WF := by
  refine ⟨⟨by decide, ⟨c!" 09-DEC-19", rfl⟩⟩, ?_, by decide, ⟨by decide, ⟨[], rfl⟩⟩, by decide, ⟨by decide, ⟨[], rfl⟩⟩, 
    ⟨by decide, ⟨[], rfl⟩⟩, by decide⟩
  intro l hl
  simp only [hdr, List.mem_cons, List.not_mem_nil, or_false] at hl
  rcases hl with rfl | rfl
  · exact ⟨by decide, by decide⟩
  · exact ⟨by decide, by decide⟩

def theEnd : BernEnd := .short c!"" c!"PART 3: "
theorem theEnd_wf : theEnd.WF := by exact ⟨by decide, by decide⟩
def noise : List Char := List.replicate 256 '?'

/-- The whole session: the file is opened; a lookup in 2005 gives channel -4, one in 2015 channel 7,
one in 2001 nothing, and all this in any order. -/
example : ∃ f p, bernOpen noise (hdr.text ++ bernText recs theEnd) = .ok f ∧ f.part2 = some p ∧
    (∃ s', getFrequencyChannel years noise p 701 ⟨365 * 2005, 0⟩ 99 98 f.strm 0 = .ok ⟨0, -4, 101, s', 0⟩) ∧
    (∃ s', getFrequencyChannel years noise p 701 ⟨365 * 2015, 0⟩ 99 98 f.strm 0 = .ok ⟨0, 7, 108, s', 0⟩) ∧
    (∃ s', getFrequencyChannel years noise p 701 ⟨365 * 2001, 0⟩ 99 98 f.strm 0 = .ok ⟨-1, 99, 98, s', 0⟩) ∧
    (∀ (qs : List BernQuery) (q : BernQuery), ∃ s', bernRuns years p qs f.strm 0 = .ok (s', 0) ∧ q.run years p s' 0 = q.run years p f.strm 0) := by
  obtain ⟨f, p, h1, h2, h3, h4⟩ := C34_open_partial hdr hdr_wf (bernText recs theEnd) noise
  have he : (0 : Int) ≠ ERANGE := by decide
  have hne : recs ≠ [] := by simp [recs]
  have in1 : ∀ t, r1.InForce 701 t ↔ 365 * 2003 * 86400 ≤ t.total ∧ t.total < 365 * 2009 * 86400 := by
    intro t
    constructor
    · rintro ⟨v, st, sp, pr, ch, h, _, h5, h6⟩
      simp only [r1, Option.some.injEq, Prod.mk.injEq] at h
      obtain ⟨rfl, rfl, rfl, rfl, rfl⟩ := h
      have := h6 _ rfl
      simp [DateTime.total] at h5 this
      simp only [DateTime.total]
      omega
    · rintro ⟨h5, h6⟩
      refine ⟨_, _, _, _, _, rfl, rfl, ?_, ?_⟩
      · simp only [DateTime.total] at *; omega
      · rintro e he
        simp only [Option.some.injEq] at he
        subst he
        simp only [DateTime.total] at *; omega
  have in2 : ∀ t, ¬ r2.InForce 701 t := by
    rintro t ⟨v, st, sp, pr, ch, h, _⟩
    simp [r2] at h
  have in3 : ∀ t, r3.InForce 701 t ↔ 365 * 2009 * 86400 ≤ t.total := by
    intro t
    constructor
    · rintro ⟨v, st, sp, pr, ch, h, _, h5, h6⟩
      simp only [r3, Option.some.injEq, Prod.mk.injEq] at h
      obtain ⟨rfl, rfl, rfl, rfl, rfl⟩ := h
      simp only [DateTime.total] at *; omega
    · intro h5
      refine ⟨_, _, _, _, _, rfl, rfl, ?_, by simp⟩
      simp only [DateTime.total] at *; omega
  have t1 : (DateTime.mk (365 * 2005) 0).total = 365 * 2005 * 86400 := by decide
  have t2 : (DateTime.mk (365 * 2015) 0).total = 365 * 2015 * 86400 := by decide
  have t3 : (DateTime.mk (365 * 2001) 0).total = 365 * 2001 * 86400 := by decide
  refine ⟨f, p, h1, h2, ?_, ?_, ?_, ?_⟩
  · obtain ⟨st, fr, pr, s', k1, k2, _⟩ := C34_lookup_partial recs hne recs_wf theEnd_wf 701 ⟨365 * 2005, 0⟩ 99 98 noise p f.strm h3 h4 he
    refine ⟨s', ?_⟩
    rcases k2 with ⟨i, r, v, a, b, c, d, _, hr, hin, hb, hm, rfl, rfl, rfl⟩ | ⟨hno, _⟩
    · match i with
      | 0 =>
        simp only [recs, List.getElem?_cons_zero, Option.some.injEq] at hr
        subst hr
        simp only [r1, Option.some.injEq, Prod.mk.injEq] at hm
        obtain ⟨rfl, rfl, rfl, rfl, rfl⟩ := hm
        exact k1
      | i + 1 => exact absurd ((in1 _).2 (by rw [t1]; omega)) (hb 0 (by omega) r1 rfl)
    · exact absurd ((in1 _).2 (by rw [t1]; omega)) (hno 0 (by omega) r1 rfl)
  · obtain ⟨st, fr, pr, s', k1, k2, _⟩ := C34_lookup_partial recs hne recs_wf theEnd_wf 701 ⟨365 * 2015, 0⟩ 99 98 noise p f.strm h3 h4 he
    refine ⟨s', ?_⟩
    rcases k2 with ⟨i, r, v, a, b, c, d, _, hr, hin, hb, hm, rfl, rfl, rfl⟩ | ⟨hno, _⟩
    · match i with
      | 0 =>
        simp only [recs, List.getElem?_cons_zero, Option.some.injEq] at hr
        subst hr
        rw [in1, t2] at hin
        omega
      | 1 =>
        simp only [recs, List.getElem?_cons_succ, List.getElem?_cons_zero, Option.some.injEq] at hr
        subst hr
        exact absurd hin (in2 _)
      | 2 =>
        simp only [recs, List.getElem?_cons_succ, List.getElem?_cons_zero, Option.some.injEq] at hr
        subst hr
        simp only [r3, Option.some.injEq, Prod.mk.injEq] at hm
        obtain ⟨rfl, rfl, rfl, rfl, rfl⟩ := hm
        exact k1
      | i + 3 => simp [recs] at hr
    · exact absurd ((in3 _).2 (by rw [t2]; omega)) (hno 2 (by omega) r3 rfl)
  · obtain ⟨st, fr, pr, s', k1, k2, _⟩ := C34_lookup_partial recs hne recs_wf theEnd_wf 701 ⟨365 * 2001, 0⟩ 99 98 noise p f.strm h3 h4 he
    refine ⟨s', ?_⟩
    rcases k2 with ⟨i, r, v, a, b, c, d, _, hr, hin, _⟩ | ⟨_, rfl, rfl, rfl⟩
    · match i with
      | 0 =>
        simp only [recs, List.getElem?_cons_zero, Option.some.injEq] at hr
        subst hr
        rw [in1, t3] at hin
        omega
      | 1 =>
        simp only [recs, List.getElem?_cons_succ, List.getElem?_cons_zero, Option.some.injEq] at hr
        subst hr
        exact absurd hin (in2 _)
      | 2 =>
        simp only [recs, List.getElem?_cons_succ, List.getElem?_cons_zero, Option.some.injEq] at hr
        subst hr
        rw [in3, t3] at hin
        omega
      | i + 3 => simp [recs] at hr
    · exact k1
  · intro qs q
    exact C49_history_independent_partial recs hne recs_wf theEnd_wf (by simp [theEnd]) p qs q f.strm h3 h4 he

/-- The hypotheses of `C49_failed_lookup_spoils_object` are met: after a lookup of a satellite the
file does not know, the lookup of 2005 that gave -4 above finds nothing. -/
example : ∃ s1 s2, (BernQuery.mk noise 5 ⟨365 * 2005, 0⟩ 99 98).run years 0 ⟨bernText recs .eof, 0, false, false⟩ 0 =
      .ok ⟨-1, 99, 98, s1, 0⟩ ∧
    (BernQuery.mk noise 701 ⟨365 * 2005, 0⟩ 99 98).run years 0 s1 0 = .ok ⟨-1, 99, 98, s2, 0⟩ := by
  refine C49_failed_lookup_spoils_object recs (by simp [recs]) (by simp [recs]) recs_wf 0 ⟨noise, 5, _, 99, 98⟩
    ⟨noise, 701, _, 99, 98⟩ _ rfl ?_ rfl (by decide) ⟨'?', rfl, by decide⟩ (by show 6 < noise.length; rw [show noise.length = 256 from List.length_replicate]; decide)
  rintro r hr ⟨v, st, sp, pr, ch, h, h2, _⟩
  simp only [recs, List.mem_cons, List.not_mem_nil, or_false] at hr
  rcases hr with rfl | rfl | rfl
  · simp only [r1, Option.some.injEq, Prod.mk.injEq] at h
    obtain ⟨rfl, _⟩ := h
    simp at h2
  · simp [r2] at h
  · simp only [r3, Option.some.injEq, Prod.mk.injEq] at h
    obtain ⟨rfl, _⟩ := h
    simp at h2

end BernExample
end Ggnss
