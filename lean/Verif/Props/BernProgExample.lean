import Verif.Props.BernProg
import Verif.Props.BernBad
/-! # Concrete SATELLIT files for C94 -/
namespace Ggnss

/-- A file tells one answer. -/
theorem BernTells.unique {recs : List BernRec} {svn : Int} {t : DateTime} {a b : Option (Int × Int)} (ha : BernTells recs svn t a) (hb : BernTells recs svn t b) : a = b := by
  have no : ∀ {p c}, BernFirst recs svn t p c → ¬ BernNone recs svn t := by
    rintro p c ⟨pre, r, post, _, _, _, _, rfl, _, h, _⟩ hn
    exact hn r (by simp) h
  match a, b, ha, hb with
  | none, none, _, _ => rfl
  | none, some (p, c), ha, hb => exact absurd ha (no hb)
  | some (p, c), none, ha, hb => exact absurd hb (no ha)
  | some (p, c), some (p', c'), ha, hb =>
    obtain ⟨i, r, v, st, sp, q, h1, h2, h3, h4, rfl⟩ := BernFirst.index ha
    obtain ⟨i', r', v', st', sp', q', h1', h2', h3', h4', rfl⟩ := BernFirst.index hb
    have hi : i = i' := by
      rcases Nat.lt_trichotomy i i' with h | h | h
      · exact absurd h2 (h3' i h r h1)
      · exact h
      · exact absurd h2' (h3 i' h r' h1')
    subst hi
    rw [h1, Option.some.injEq] at h1'
    subst h1'
    rw [h4, Option.some.injEq] at h4'
    simp only [Prod.mk.injEq] at h4'
    obtain ⟨-, -, -, rfl, rfl⟩ := h4'
    rfl

/-- Two lists of right lines are the same. -/
theorem Right.get {recs : List BernRec} {qs : List (Int × DateTime)} {ls : List BernShown} (h : List.Forall₂ (BernShown.Right recs) qs ls) {i : Nat}
    {q : Int × DateTime} (hq : qs[i]? = some q) {a : Option (Int × Int)} (ha : BernTells recs q.1 q.2 a) : ls[i]? = some ⟨q.1, q.2, a⟩ := by
  induction h generalizing i with
  | nil => simp at hq
  | @cons x l xs ls h1 h2 ih =>
    cases i with
    | zero =>
      simp only [List.getElem?_cons_zero, Option.some.injEq] at hq ⊢
      subst hq
      obtain ⟨s, e, f⟩ := l
      obtain ⟨e1, e2, e3⟩ := h1
      simp only at e1 e2 e3
      rw [e1, e2, e3.unique ha]
    | succ i =>
      simp only [List.getElem?_cons_succ] at hq ⊢
      exact ih hq

namespace BernProgEx
open BernExample

/-- A reader of dates: the year only, as Modified Julian Day (roughly). -/
def days (t : List Char) : Res DateTime := .ok ⟨365 * (digitsVal (t.take 4) : Int) - 678000, 0⟩

theorem days_at {l : List Char} {off : Nat} {d : DateTime} (h : off + 4 ≤ l.length)
    (hd : d = ⟨365 * (digitsVal ((l.drop off).take 4) : Int) - 678000, 0⟩) : DateAt days l off d := by
  intro tail
  unfold days
  rw [List.drop_append_of_le_length (by omega), List.take_append_of_le_length (by simp; omega), hd]

/-- Satellite 714 with channel 2 from 2003 on. -/
def s1 : BernRec := ⟨c!"119  MW    GLONASS-M        714    ----  2003 12 10 00 00 00                      " ++ gap 111 ++ c!"  2  G1",
  some (714, ⟨365 * 2003 - 678000, 0⟩, none, 119, 2)⟩
/-- Satellite 701 with channel -4 from 2003 to 2009. -/
def s2 : BernRec := ⟨r1.line, some (701, ⟨365 * 2003 - 678000, 0⟩, some ⟨365 * 2009 - 678000, 0⟩, 101, -4)⟩
/-- Satellite 701 with channel 7 from 2009 on. -/
def s3 : BernRec := ⟨r3.line, some (701, ⟨365 * 2009 - 678000, 0⟩, none, 108, 7)⟩

set_option maxRecDepth 20000 in
theorem s1_wf : s1.WF days := by
  refine ⟨by decide, by decide, by decide, by simp [s1], ?_⟩
  intro svn start stop prn chan h
  simp only [s1, Option.some.injEq, Prod.mk.injEq] at h
  obtain ⟨rfl, rfl, rfl, rfl, rfl⟩ := h
  refine ⟨rfl, rfl, natCheck_sound (k := 0) (ds := c!"714") (by decide), days_at (by decide) (by decide),
    blank_dec (by decide), by decide,
    natCheck_sound (k := 0) (ds := c!"119") (by decide),
    intCheck (k := 2) (neg := false) (ds := c!"2") (rest := c!"  G1") (by decide) (by decide) (by decide) (by decide) (by simp) (by decide) (by decide)⟩

set_option maxRecDepth 20000 in
theorem s2_wf : s2.WF days := by
  refine ⟨by decide, by decide, by decide, by simp [s2], ?_⟩
  intro svn start stop prn chan h
  simp only [s2, Option.some.injEq, Prod.mk.injEq] at h
  obtain ⟨rfl, rfl, rfl, rfl, rfl⟩ := h
  refine ⟨rfl, rfl, natCheck_sound (k := 0) (ds := c!"701") (by decide), days_at (by decide) (by decide),
    ⟨⟨62, '2', by decide, by decide, rfl, by decide⟩, days_at (by decide) (by decide)⟩, by decide,
    natCheck_sound (k := 0) (ds := c!"101") (by decide),
    intCheck (k := 1) (neg := true) (ds := c!"4") (rest := c!"  G1") (by decide) (by decide) (by decide) (by decide) (by simp) (by decide) (by decide)⟩

set_option maxRecDepth 20000 in
theorem s3_wf : s3.WF days := by
  refine ⟨by decide, by decide, by decide, by simp [s3], ?_⟩
  intro svn start stop prn chan h
  simp only [s3, Option.some.injEq, Prod.mk.injEq] at h
  obtain ⟨rfl, rfl, rfl, rfl, rfl⟩ := h
  refine ⟨rfl, rfl, natCheck_sound (k := 0) (ds := c!"701") (by decide), days_at (by decide) (by decide),
    blank_dec (by decide), by decide,
    natCheck_sound (k := 0) (ds := c!"108") (by decide),
    intCheck (k := 2) (neg := false) (ds := c!"7") (rest := c!"  G1") (by decide) (by decide) (by decide) (by decide) (by simp) (by decide) (by decide)⟩

def srecs : List BernRec := [s1, s2, s3]
theorem srecs_wf : ∀ r ∈ srecs, r.WF days := by
  intro r hr
  simp only [srecs, List.mem_cons, List.not_mem_nil, or_false] at hr
  rcases hr with rfl | rfl | rfl
  exacts [s1_wf, s2_wf, s3_wf]

/-- The first epoch of the program. -/
def d1 : DateTime := ⟨57695, 46743⟩

theorem s1_in : s1.InForce 714 d1 := ⟨714, _, none, 119, 2, rfl, rfl, by decide, by intro e h; simp at h⟩
theorem s1_not (svn : Int) (h : svn ≠ 714) (t : DateTime) : ¬ s1.InForce svn t := by
  rintro ⟨v, st, sp, pr, ch, h1, h2, _⟩
  simp only [s1, Option.some.injEq, Prod.mk.injEq] at h1
  obtain ⟨rfl, _⟩ := h1
  exact h h2.symm
theorem s2_not : ∀ svn, ¬ s2.InForce svn d1 := by
  rintro svn ⟨v, st, sp, pr, ch, h1, h2, _, h4⟩
  simp only [s2, Option.some.injEq, Prod.mk.injEq] at h1
  obtain ⟨_, _, rfl, _⟩ := h1
  exact absurd (h4 _ rfl) (by decide)
theorem s3_in : s3.InForce 701 d1 := ⟨701, _, none, 108, 7, rfl, rfl, by decide, by intro e h; simp at h⟩
theorem s3_not (svn : Int) (h : svn ≠ 701) (t : DateTime) : ¬ s3.InForce svn t := by
  rintro ⟨v, st, sp, pr, ch, h1, h2, _⟩
  simp only [s3, Option.some.injEq, Prod.mk.injEq] at h1
  obtain ⟨rfl, _⟩ := h1
  exact h h2.symm

theorem first_714 : BernFirst srecs 714 d1 119 2 := ⟨[], s1, [s2, s3], _, _, _, _, rfl, by simp, s1_in, rfl, rfl⟩
theorem first_701 : BernFirst srecs 701 d1 108 7 := by
  refine ⟨[s1, s2], s3, [], _, _, _, _, rfl, ?_, s3_in, rfl, rfl⟩
  intro q hq
  simp only [List.mem_cons, List.not_mem_nil, or_false] at hq
  rcases hq with rfl | rfl
  exacts [s1_not _ (by decide) _, s2_not _]
theorem none_769 : BernNone srecs 769 d1 := by
  intro q hq
  simp only [srecs, List.mem_cons, List.not_mem_nil, or_false] at hq
  rcases hq with rfl | rfl | rfl
  exacts [s1_not _ (by decide) _, s2_not _, s3_not _ (by decide) _]

/-- The world: one file, `S`. -/
def world (body : List Char) : BernWorld := ⟨fun a => if a = c!"S" then some (hdr.text ++ body) else none, days, noise, fun _ => noise, 0, 0⟩

theorem given (body : List Char) : BernGiven (world body) c!"S" hdr body := ⟨hdr_wf, rfl⟩

theorem asked0 : bernAsked[0]? = some (714, d1) := by decide
theorem asked1 : bernAsked[1]? = some (769, d1) := by decide
theorem asked6 : bernAsked[6]? = some (701, d1) := by decide

/-- The hypotheses of `C94_answers_partial` are met: satellite 714 has channel 2, 769 is not matched, 701 has channel 7. -/
example : ∃ ls, bernMain (world (bernText srecs theEnd)) [c!"prog", c!"S"] = .ok (0, ls) ∧ ls.length = 24 ∧
    ls[0]? = some ⟨714, d1, some (119, 2)⟩ ∧ ls[1]? = some ⟨769, d1, none⟩ ∧ ls[6]? = some ⟨701, d1, some (108, 7)⟩ := by
  obtain ⟨ls, h1, h2⟩ := C94_answers_partial (a0 := c!"prog") (given (bernText srecs theEnd)) (by simp [srecs]) (by simp [srecs]) srecs_wf theEnd_wf (by simp [theEnd])
  exact ⟨ls, h1, by rw [← h2.length_eq]; decide, Right.get h2 asked0 (a := some (119, 2)) first_714, Right.get h2 asked1 (a := none) none_769,
    Right.get h2 asked6 (a := some (108, 7)) first_701⟩

/-- The same records at the very end of the file: satellite 701 is "not matched" although its record is there, because 769 was asked before. -/
example : ∃ ls, bernMain (world (bernText srecs .eof)) [c!"prog", c!"S"] = .ok (0, ls) ∧ ls.length = 24 ∧
    ls[0]? = some ⟨714, d1, some (119, 2)⟩ ∧ ls[6]? = some ⟨701, d1, none⟩ ∧ BernTells srecs 701 d1 (some (108, 7)) := by
  obtain ⟨ls, h1, h2⟩ := C94_records_to_the_end (a0 := c!"prog") (given (bernText srecs .eof)) (by simp [srecs]) (by simp [srecs]) srecs_wf
    (fun _ => ⟨⟨'?', rfl, by decide⟩, by show 6 < noise.length; rw [show noise.length = 256 from List.length_replicate]; decide⟩)
  refine ⟨ls, h1, by rw [h2.length]; decide, ?_⟩
  have hq : bernAsked = (714, d1) :: (769, d1) :: bernAsked.drop 2 := by decide
  have get : ∀ {qs : List (Int × DateTime)} {ls : List BernShown}, List.Forall₂ BernShown.Unmatched qs ls → ∀ {i : Nat} {q : Int × DateTime}, qs[i]? = some q →
      ls[i]? = some ⟨q.1, q.2, none⟩ := by
    intro qs ls h
    induction h with
    | nil => intro i q h; simp at h
    | cons h1 h2 ih =>
      intro i q h
      cases i with
      | zero => simp only [List.getElem?_cons_zero, Option.some.injEq] at h ⊢; subst h; exact h1
      | succ i => simp only [List.getElem?_cons_succ] at h ⊢; exact ih h
  rw [hq] at h2
  cases h2 with
  | unmatched h _ => exact absurd s1_in (h s1 (by simp [srecs]))
  | found hl hrest =>
    obtain ⟨p, c, hf, rfl⟩ := hl
    have e : some (p, c) = some ((119 : Int), (2 : Int)) := BernTells.unique (recs := srecs) (svn := 714) (t := d1) hf first_714
    rw [e]
    cases hrest with
    | found hl _ =>
      obtain ⟨p', c', hf', rfl⟩ := hl
      have := BernTells.unique (recs := srecs) (svn := 769) (t := d1) (a := some (p', c')) (b := none) hf' none_769
      simp at this
    | unmatched _ h =>
      refine ⟨rfl, ?_, first_701⟩
      have := get h (i := 5) (q := (701, d1)) (by decide)
      simpa using this

/-- A record without readable SVN after these: the program ends with code 2 at satellite 769. -/
example : ∃ ls, bernMain (world (blockText srecs BernBadEx.noSvn c!"more")) [c!"prog", c!"S"] = .ok (2, ls) ∧ ls = [⟨714, d1, some (119, 2)⟩] := by
  obtain ⟨code, ls, h1, h2⟩ := C94_damaged (a0 := c!"prog") (given (blockText srecs BernBadEx.noSvn c!"more")) (by simp [srecs]) srecs_wf
    BernBadEx.noSvn_mw BernBadEx.noSvn_bad
  have hq : bernAsked = (714, d1) :: (769, d1) :: bernAsked.drop 2 := by decide
  rw [hq] at h2
  cases h2 with
  | stop h => exact absurd s1_in (h s1 (by simp [srecs]))
  | found hl hrest =>
    obtain ⟨p, c, hf, rfl⟩ := hl
    have e : some (p, c) = some ((119 : Int), (2 : Int)) := BernTells.unique (recs := srecs) (svn := 714) (t := d1) hf first_714
    rw [e] at h1
    cases hrest with
    | found hl _ =>
      obtain ⟨p', c', hf', rfl⟩ := hl
      have := BernTells.unique (recs := srecs) (svn := 769) (t := d1) (a := some (p', c')) (b := none) hf' none_769
      simp at this
    | stop _ => exact ⟨_, h1, rfl⟩

end BernProgEx
end Ggnss
