import Verif.Props.Sp3Flag
import Verif.Props.NavSearch
import Verif.Lemmas.Columns
import Mathlib.Data.Rat.Floor
import Mathlib.Tactic.Linarith
/-! # C31 - C33, C48: SP3 records and epochs -/
namespace Ggnss

/-! ## C33: position records -/

theorem charToSatsys_letter (sys : SatSys) : charToSatsys (satsysToChar sys) = .ok sys := by
  cases sys <;> decide

theorem getAt_of {l tail : List Char} {i : Nat} {c : Char} (h : l[i]? = some c) :
    getAt (l ++ tail) i = .ok c := by
  have hi : i < l.length := (List.getElem?_eq_some_iff.1 h).1
  rw [getAt_append_left hi]
  rw [List.getElem?_eq_getElem hi] at h
  injection h with h; rw [h]

theorem sp3Cols_wf {p : PosLine} (h : p.WF) (tail : List Char) {errno : Int} (he : errno ≠ ERANGE) :
    sp3Cols errno (p.line ++ NUL :: tail) 4 0 =
      .ok ([p.x.value, p.y.value, p.z.value, p.clk.value], none) := by
  obtain ⟨r0, h0⟩ := strtodA_num (tail := tail) h.x
  obtain ⟨r1, h1⟩ := strtodA_num (tail := tail) h.y
  obtain ⟨r2, h2⟩ := strtodA_num (tail := tail) h.z
  obtain ⟨r3, h3⟩ := strtodA_num (tail := tail) h.clk
  simp [sp3Cols, h0, h1, h2, h3, he]

/-- The flags as computed, whatever stands in the bytes read. -/
theorem sp3Flags_get (vals : List Rat) (line : List Char) (hl : 80 ≤ line.length) :
    ∃ fl, sp3Flags vals line = .ok fl ∧ ∀ e, fl.isSet e = true ↔
      match e with
      | .bad_abscent_position => ∃ v ∈ vals.take 3, v = 0
      | .bad_abscent_clock => 999999 ≤ vals.getD 3 0
      | .clock_event => line[74]? = some 'E'
      | .clock_prediction => line[75]? = some 'P'
      | .maneuver => line[78]? = some 'M'
      | .orbit_prediction => line[79]? = some 'E' := by
  unfold sp3Flags
  simp only [getAt_lt (show 74 < line.length by omega), getAt_lt (show 75 < line.length by omega),
    getAt_lt (show 78 < line.length by omega), getAt_lt (show 79 < line.length by omega), Res.bind_ok, Res.pure_eq]
  refine ⟨_, rfl, ?_⟩
  have setIf : ∀ (f : Sp3Flag) (c : Bool) (e e' : Sp3Event),
      (f.setIf c e).isSet e' = ((c && decide (e = e')) || f.isSet e') := by
    intro f c e e'
    cases c <;> simp [Sp3Flag.setIf, C30_set]
  have e74 := List.getElem?_eq_getElem (show 74 < line.length by omega)
  have e75 := List.getElem?_eq_getElem (show 75 < line.length by omega)
  have e78 := List.getElem?_eq_getElem (show 78 < line.length by omega)
  have e79 := List.getElem?_eq_getElem (show 79 < line.length by omega)
  have hf : ∀ e, ({} : Sp3Flag).isSet e = false := fun e => (C30_reset {} e).2
  intro e
  simp only [setIf, hf, e74, e75, e78, e79]
  cases e <;> simp

theorem position_decoded {p : PosLine} (h : p.WF) (tail : List Char) (r0 : Sp3Rec) {errno : Int}
    (he : errno ≠ ERANGE) (hl : 80 ≤ (p.line ++ NUL :: tail).length) :
    ∃ r, getNextPosition (p.line ++ NUL :: tail) r0 errno = .ok ⟨0, r, errno⟩ ∧ p.SaysIn r ∧
      ∀ e, r.flag.isSet e = true ↔
        match e with
        | .bad_abscent_position => p.x.value = 0 ∨ p.y.value = 0 ∨ p.z.value = 0
        | .bad_abscent_clock => 999999 ≤ p.clk.value
        | .clock_event => (p.line ++ NUL :: tail)[74]? = some 'E'
        | .clock_prediction => (p.line ++ NUL :: tail)[75]? = some 'P'
        | .maneuver => (p.line ++ NUL :: tail)[78]? = some 'M'
        | .orbit_prediction => (p.line ++ NUL :: tail)[79]? = some 'E' := by
  obtain ⟨rp, hp⟩ := strtol_nat (tail := tail) h.prn
  obtain ⟨fl, hf1, hf2⟩ := sp3Flags_get [p.x.value * 1000, p.y.value * 1000, p.z.value * 1000, p.clk.value]
    (p.line ++ NUL :: tail) hl
  have hprn : p.prn < 2147483648 := by obtain ⟨_, _, _, _, _, _, _, _, _, hh⟩ := h.prn; exact hh
  unfold getNextPosition
  simp only [getAt_of h.letter, getAt_of h.satellite, Res.bind_ok, ne_eq, not_true_eq_false, if_false,
    charToSatsys_letter, hp, strtolErr, strtolVal, he, Bool.false_eq_true, reduceCtorEq, or_self, sp3Cols_wf h tail he, sp3Scale, hf1, Res.pure_eq]
  refine ⟨_, rfl, ⟨rfl, toInt32_nat hprn, ?_⟩, ?_⟩
  · simp only [mul_comm]
  · intro e
    rw [hf2 e]
    cases e <;> simp

/-- C33: a well formed position line with all its 80 columns decodes to satellite, metres and
microseconds, and each event flag except the orbit prediction is set exactly when its column (or
its number) says so.  Missing: the orbit prediction flag, and lines with fewer than 80 columns, for
which the statement is false (next two theorems). -/
theorem C33_position_partial {p : PosLine} (h : p.WF) (tail : List Char) (r0 : Sp3Rec) {errno : Int}
    (he : errno ≠ ERANGE) (hl : 80 ≤ p.line.length) :
    ∃ r, getNextPosition (p.line ++ NUL :: tail) r0 errno = .ok ⟨0, r, errno⟩ ∧ p.SaysIn r ∧
      ∀ e, e ≠ .orbit_prediction → (r.flag.isSet e = true ↔ p.Signals e) := by
  obtain ⟨r, h1, h2, h3⟩ := position_decoded h tail r0 he (by simp; omega)
  refine ⟨r, h1, h2, ?_⟩
  intro e hne
  rw [h3 e]
  cases e <;>
    simp only [PosLine.Signals, List.getElem?_append_left (show 74 < p.line.length by omega),
      List.getElem?_append_left (show 75 < p.line.length by omega),
      List.getElem?_append_left (show 78 < p.line.length by omega)]
  exact absurd rfl hne

/-- C33, what the code does instead with the orbit prediction column: it looks for 'E', so a record
that the SP3 format marks as predicted ('P' in column 80) is never flagged. -/
theorem C33_predicted_orbit_never_flagged {p : PosLine} (h : p.WF) (tail : List Char) (r0 : Sp3Rec) {errno : Int}
    (he : errno ≠ ERANGE) (hs : p.Signals .orbit_prediction) :
    ∃ r, getNextPosition (p.line ++ NUL :: tail) r0 errno = .ok ⟨0, r, errno⟩ ∧
      r.flag.isSet .orbit_prediction = false := by
  have hs' : p.line[79]? = some 'P' := hs
  have hl : 79 < p.line.length := (List.getElem?_eq_some_iff.1 hs').1
  obtain ⟨r, h1, _, h3⟩ := position_decoded h tail r0 he (by simp; omega)
  refine ⟨r, h1, ?_⟩
  rw [Bool.eq_false_iff, ne_eq, h3]
  simp only [List.getElem?_append_left hl, hs']
  decide

/-- C33, short lines: the flags of a record whose line ends before column 75 are taken from the bytes
that happen to stand behind its end in the line buffer (an earlier line): any bytes that show an 'E'
there make it a clock event. -/
theorem C33_short_line_flags_from_stale_bytes {p : PosLine} (h : p.WF) (hl : p.line.length < 74) (r0 : Sp3Rec)
    {errno : Int} (he : errno ≠ ERANGE) :
    ∃ old1 old2 : List Char, old1.length = 128 ∧ old2.length = 128 ∧
      (∃ r, getNextPosition (fillLine old1 p.line) r0 errno = .ok ⟨0, r, errno⟩ ∧ r.flag.isSet .clock_event = true) ∧
      (∃ r, getNextPosition (fillLine old2 p.line) r0 errno = .ok ⟨0, r, errno⟩ ∧ r.flag.isSet .clock_event = false) := by
  have key : ∀ c : Char, (fillLine (List.replicate 128 c) p.line)[74]? = some c := by
    intro c
    unfold fillLine
    rw [List.getElem?_append_right (by omega)]
    obtain ⟨m, hm⟩ : ∃ m, 74 - p.line.length = m + 1 := ⟨73 - p.line.length, by omega⟩
    rw [hm, List.getElem?_cons_succ, List.getElem?_drop, List.getElem?_replicate, if_pos (by omega)]
  have len : ∀ c : Char, 80 ≤ (p.line ++ NUL :: (List.replicate 128 c).drop (p.line.length + 1)).length := by
    intro c; simp; omega
  refine ⟨List.replicate 128 'E', List.replicate 128 ' ', by simp, by simp, ?_, ?_⟩
  · obtain ⟨r, h1, _, h3⟩ := position_decoded h _ r0 he (len 'E')
    exact ⟨r, h1, (h3 .clock_event).2 (key 'E')⟩
  · obtain ⟨r, h1, _, h3⟩ := position_decoded h _ r0 he (len ' ')
    refine ⟨r, h1, ?_⟩
    rw [Bool.eq_false_iff, ne_eq, h3]
    have := key ' '
    unfold fillLine at this
    simp only [this]
    decide

/-! ## The loop over the lines of an epoch -/

theorem fillLine_length (buf l : List Char) (k : Nat) (h : k ≤ buf.length) : k ≤ (fillLine buf l).length := by
  unfold fillLine; simp; omega

/-- One line that does not end the epoch. -/
theorem sp3Loop_step (t : Sp3Epoch) (sr : Int) (fuel : Nat) (buf : List Char) (vec : List Sp3Rec) (n : Nat)
    (s : Stream) (errno : Int) {l tail : List Char} (hg : s.good = true) (hr : s.rest = l ++ '\n' :: tail)
    (hok : LineOK l) (hend : l.head? ≠ some '*') :
    sp3Loop t sr (fuel + 1) buf vec n s errno =
      match sp3Line (fillLine buf l) vec n errno with
        | .ok (.inl (vec, n, errno)) => sp3Loop t sr fuel (fillLine buf l) vec n (s.adv (l.length + 1)) errno
        | .ok (.inr (st, errno)) =>
            if st = -1 then .ok ⟨-1, t, vec, n, s.adv (l.length + 1), errno⟩
            else .ok ⟨st, t, vec, sr, s.adv (l.length + 1), errno⟩
        | .throw e => .throw e
        | .terminate => .terminate
        | .ub => .ub
        | .diverge => .diverge := by
  have hp : ∃ c, s.peek = (some c, s) ∧ c ≠ '*' := by
    cases l with
    | nil => exact ⟨'\n', Stream.peek_cons hg hr, by decide⟩
    | cons c l => exact ⟨c, Stream.peek_cons hg hr, by simpa using hend⟩
  obtain ⟨c, hp, hc⟩ := hp
  have hgl := Stream.getline_line (n := MAX_RECORD_CHARS) hg hr hok.1 (by simpa [MAX_RECORD_CHARS] using hok.2.2)
  conv_lhs => unfold sp3Loop
  simp only [hp, peekedStar, hc, decide_false, Bool.false_eq_true, if_false, hgl]
  rfl

theorem getAt_head (buf l : List Char) : getAt (fillLine buf l) 0 = .ok (l.head?.getD NUL) := by
  cases l <;> rfl

theorem sp3Line_other (buf l : List Char) (vec : List Sp3Rec) (n : Nat) (errno : Int) (hok : LineOK l)
    (hp : isPLine l = false) :
    sp3Line (fillLine buf l) vec n errno =
      if l.take 3 = c!"EOF" then .ok (.inr (-1, errno)) else .ok (.inl (vec, n, errno)) := by
  have h0 : l.head?.getD NUL ≠ 'P' := by
    cases l with
    | nil => decide
    | cons c l => simpa [isPLine] using hp
  have hcmp := strncmpEq_cstr 3 l c!"EOF" (buf.drop (l.length + 1)) [] hok.2.1 (by decide)
  unfold sp3Line
  simp only [getAt_head, Res.bind_ok, if_neg h0]
  unfold fillLine cArr
  rw [hcmp]
  by_cases h : l.take 3 = c!"EOF"
  · simp [h]
  · simp [h]

/-- What a record in the vector says about its line. -/
def Decoded (p : PosLine) (r : Sp3Rec) : Prop :=
  p.SaysIn r ∧ (80 ≤ p.line.length → ∀ e, e ≠ .orbit_prediction → (r.flag.isSet e = true ↔ p.Signals e))

theorem sp3Line_pos (buf : List Char) {p : PosLine} (h : p.WF) (vec : List Sp3Rec) (n : Nat) {errno : Int}
    (he : errno ≠ ERANGE) (hb : 80 ≤ buf.length) :
    ∃ r, Decoded p r ∧ sp3Line (fillLine buf p.line) vec n errno =
      (if n < vec.length then .ok (.inl (vec.set n r, n + 1, errno)) else .ub) := by
  obtain ⟨r, h1, h2, h3⟩ := position_decoded h (buf.drop (p.line.length + 1)) {} he
    (fillLine_length buf p.line 80 hb)
  have hd : Decoded p r := by
    refine ⟨h2, fun hl => ?_⟩
    obtain ⟨r', h1', _, h3'⟩ := C33_position_partial h (buf.drop (p.line.length + 1)) {} he hl
    rw [h1] at h1'
    injection h1' with h1'
    injection h1' with _ h1'
    rw [h1']; exact h3'
  refine ⟨r, hd, ?_⟩
  have h0 : p.line.head?.getD NUL = 'P' := by
    have := h.letter
    rw [← List.head?_eq_getElem?] at this
    simp [this]
  have h1' : getNextPosition (fillLine buf p.line) {} errno = .ok ⟨0, r, errno⟩ := h1
  unfold sp3Line
  simp only [getAt_head, Res.bind_ok, h0, if_true, h1', vecStore]
  by_cases hn : n < vec.length <;> simp [hn]

theorem body_cons {l : List Char} {ls : List (List Char)} {ps : List PosLine} (h : IsEpochBody (l :: ls) ps) :
    LineOK l ∧ endsEpoch l = false ∧
      ((isPLine l = false ∧ IsEpochBody ls ps) ∨
        ∃ p ps', ps = p :: ps' ∧ p.line = l ∧ p.WF ∧ IsEpochBody ls ps') := by
  refine ⟨h.ok l (by simp), h.inside l (by simp), ?_⟩
  have ht1 : ∀ x ∈ ls, LineOK x := fun x hx => h.ok x (by simp [hx])
  have ht2 : ∀ x ∈ ls, endsEpoch x = false := fun x hx => h.inside x (by simp [hx])
  cases hp : isPLine l with
  | false =>
    left
    refine ⟨rfl, ht1, ht2, ?_, h.wf⟩
    have := h.records
    rwa [List.filter_cons_of_neg (by simp [hp])] at this
  | true =>
    right
    have := h.records
    rw [List.filter_cons_of_pos hp] at this
    cases ps with
    | nil => simp at this
    | cons p ps' =>
      simp at this
      exact ⟨p, ps', rfl, this.1.symm, h.wf p (by simp), ht1, ht2, this.2, fun q hq => h.wf q (by simp [hq])⟩

theorem ends_false {l : List Char} (h : endsEpoch l = false) : l.head? ≠ some '*' ∧ l.take 3 ≠ c!"EOF" := by
  simpa [endsEpoch] using h

/-- The loop runs through the lines of an epoch body and stores its records. -/
theorem sp3Loop_body (t : Sp3Epoch) (sr : Int) (fuel : Nat) (errno : Int) (he : errno ≠ ERANGE) (tail : List Char) :
    ∀ (ls : List (List Char)) (ps : List PosLine) (buf : List Char) (pre suf : List Sp3Rec) (s : Stream),
      IsEpochBody ls ps → s.good = true → s.rest = linesText ls ++ tail → 80 ≤ buf.length →
      ps.length ≤ suf.length →
      ∃ recs buf', List.Forall₂ Decoded ps recs ∧ 80 ≤ buf'.length ∧
        sp3Loop t sr (ls.length + fuel) buf (pre ++ suf) pre.length s errno =
          sp3Loop t sr fuel buf' (pre ++ recs ++ suf.drop ps.length) (pre.length + ps.length)
            (s.adv (linesText ls).length) errno := by
  intro ls
  induction ls with
  | nil =>
    intro ps buf pre suf s hb hg hr hbuf hsz
    have : ps = [] := by simpa using hb.records.symm
    subst this
    exact ⟨[], buf, .nil, hbuf, by simp [linesText]⟩
  | cons l ls ih =>
    intro ps buf pre suf s hb hg hr hbuf hsz
    obtain ⟨hok, hend, hcase⟩ := body_cons hb
    have hr' : s.rest = l ++ '\n' :: (linesText ls ++ tail) := by
      rw [hr, linesText_cons]; simp
    have hstep := sp3Loop_step t sr (ls.length + fuel) buf (pre ++ suf) pre.length s errno hg hr' hok (ends_false hend).1
    have hrest : (s.adv (l.length + 1)).rest = linesText ls ++ tail := by
      have := Stream.adv_rest_append (s := s) (a := l ++ ['\n']) (b := linesText ls ++ tail) (by rw [hr']; simp)
      simpa using this
    have hlen : (linesText (l :: ls)).length = l.length + 1 + (linesText ls).length := by
      rw [linesText_cons]; simp; omega
    have hf : (l :: ls).length + fuel = ls.length + fuel + 1 := by simp; omega
    rw [hf, hstep]
    rcases hcase with ⟨hnp, hbody⟩ | ⟨p, ps', rfl, hpl, hwf, hbody⟩
    · rw [sp3Line_other buf l _ _ errno hok hnp, if_neg (ends_false hend).2]
      obtain ⟨recs, buf', h1, h2, h3⟩ := ih ps (fillLine buf l) pre suf (s.adv (l.length + 1)) hbody hg hrest
        (fillLine_length buf l 80 hbuf) hsz
      refine ⟨recs, buf', h1, h2, ?_⟩
      simp only
      rw [h3, Stream.adv_adv, hlen]
    · subst hpl
      obtain ⟨r, hd, hline⟩ := sp3Line_pos buf hwf (pre ++ suf) pre.length he hbuf
      rw [hline, if_pos (by simp at hsz ⊢; omega)]
      cases suf with
      | nil => simp at hsz
      | cons x suf =>
        obtain ⟨recs, buf', h1, h2, h3⟩ := ih ps' (fillLine buf p.line) (pre ++ [r]) suf (s.adv (p.line.length + 1)) hbody hg hrest
          (fillLine_length buf p.line 80 hbuf) (by simpa using hsz)
        refine ⟨r :: recs, buf', .cons hd h1, h2, ?_⟩
        have hset : (pre ++ x :: suf).set pre.length r = pre ++ [r] ++ suf := by
          simp
        simp only
        rw [hset, show pre.length + 1 = (pre ++ [r]).length by simp, h3, Stream.adv_adv, hlen]
        simp [Nat.add_comm, Nat.add_left_comm]

/-- With more records than places the loop writes behind the end of the vector. -/
theorem sp3Loop_overflow (t : Sp3Epoch) (sr : Int) (fuel : Nat) (errno : Int) (he : errno ≠ ERANGE) (tail : List Char) :
    ∀ (ls : List (List Char)) (ps : List PosLine) (buf : List Char) (vec : List Sp3Rec) (n : Nat) (s : Stream),
      IsEpochBody ls ps → s.good = true → s.rest = linesText ls ++ tail → 80 ≤ buf.length →
      n ≤ vec.length → vec.length < n + ps.length →
        sp3Loop t sr (ls.length + fuel) buf vec n s errno = .ub := by
  intro ls
  induction ls with
  | nil =>
    intro ps buf vec n s hb hg hr hbuf hn hsz
    have : ps = [] := by simpa using hb.records.symm
    subst this
    simp at hsz; omega
  | cons l ls ih =>
    intro ps buf vec n s hb hg hr hbuf hn hsz
    obtain ⟨hok, hend, hcase⟩ := body_cons hb
    have hr' : s.rest = l ++ '\n' :: (linesText ls ++ tail) := by
      rw [hr, linesText_cons]; simp
    have hstep := sp3Loop_step t sr (ls.length + fuel) buf vec n s errno hg hr' hok (ends_false hend).1
    have hrest : (s.adv (l.length + 1)).rest = linesText ls ++ tail := by
      have := Stream.adv_rest_append (s := s) (a := l ++ ['\n']) (b := linesText ls ++ tail) (by rw [hr']; simp)
      simpa using this
    have hf : (l :: ls).length + fuel = ls.length + fuel + 1 := by simp; omega
    rw [hf, hstep]
    rcases hcase with ⟨hnp, hbody⟩ | ⟨p, ps', rfl, hpl, hwf, hbody⟩
    · rw [sp3Line_other buf l _ _ errno hok hnp, if_neg (ends_false hend).2]
      exact ih ps (fillLine buf l) vec n _ hbody hg hrest (fillLine_length buf l 80 hbuf) hn hsz
    · subst hpl
      obtain ⟨r, hd, hline⟩ := sp3Line_pos buf hwf vec n he hbuf
      rw [hline]
      by_cases hlt : n < vec.length
      · rw [if_pos hlt]
        exact ih ps' (fillLine buf p.line) (vec.set n r) (n + 1) _ hbody hg hrest (fillLine_length buf p.line 80 hbuf)
          (by simp; omega) (by simp at hsz ⊢; omega)
      · rw [if_neg hlt]

/-! ## The header of an epoch -/

theorem truncRat_bounds {q : Rat} (h : 0 ≤ q) : (truncRat q : Rat) ≤ q ∧ q < truncRat q + 1 := by
  have h0 : 0 ≤ q.num := Rat.num_nonneg.2 h
  have e : truncRat q = ⌊q⌋ := by
    unfold truncRat
    rw [Int.tdiv_eq_ediv_of_nonneg h0, Rat.floor_def']
  rw [e]
  exact ⟨Int.floor_le q, Int.lt_floor_add_one q⟩

theorem castLong_micros {q : Rat} (h0 : 0 ≤ q) (h1 : q < 100000000) : castLong q = .ok (truncRat q) := by
  have hb := truncRat_bounds h0
  have hlt : (truncRat q : Rat) < (100000000 : Int) := by
    refine lt_of_le_of_lt hb.1 ?_
    simpa using h1
  have hge : ((-1 : Int) : Rat) < truncRat q := by
    have := hb.2
    push_cast
    linarith
  have hlt' := Int.cast_lt.1 hlt
  have hge' := Int.cast_lt.1 hge
  unfold castLong LONG_MIN LONG_MAX
  rw [if_pos (by omega)]

theorem sp3Header_eq {buf : List Char} {errno y us : Int} {p : Option (Int × List Char × Bool)} {m d hh mi : Int}
    {v : Rat × List Char × Bool} (h0 : getAt buf 0 = .ok '*') (h1 : getAt buf 1 = .ok ' ')
    (hp : strtolA (buf.drop 3) = .ok p) (hpe : strtolErr p = false) (hy : toInt32 (strtolVal p) = y) (hy0 : y ≠ 0)
    (he : errno ≠ ERANGE) (hd : sp3Date errno buf 4 1 = .ok ([m, d, hh, mi], none))
    (hv : strtodA (buf.drop 20) = .ok (some v)) (hv0 : v.2.2 = false) (hc : castLong (v.1 * 1000000) = .ok us) :
    sp3Header buf errno = .ok (.ok ⟨y, m, d, hh, mi, us⟩, errno) := by
  unfold sp3Header
  simp [h0, h1, hp, hpe, hy, hy0, he, hd, hv, hv0, hc]

theorem sp3Header_wf {h : EpochLine} (hw : h.WF) (tail : List Char) {errno : Int} (he : errno ≠ ERANGE) :
    ∃ t, sp3Header (h.line ++ NUL :: tail) errno = .ok (.ok t, errno) ∧ h.Is t := by
  obtain ⟨r0, h0⟩ := strtol_nat (tail := tail) hw.year
  obtain ⟨r1, h1⟩ := strtol_nat (tail := tail) hw.month
  obtain ⟨r2, h2⟩ := strtol_nat (tail := tail) hw.day
  obtain ⟨r3, h3⟩ := strtol_nat (tail := tail) hw.hour
  obtain ⟨r4, h4⟩ := strtol_nat (tail := tail) hw.minute
  obtain ⟨r5, h5⟩ := strtodA_num (tail := tail) hw.sec
  have lt : ∀ {off v}, NatAt h.line off v → v < 2147483648 := by
    rintro off v ⟨_, _, _, _, _, _, _, _, _, hh⟩; exact hh
  have y0 : (h.year : Int) ≠ 0 := by exact_mod_cast hw.yearPos
  have hq0 : 0 ≤ h.sec.value * 1000000 := by linarith [hw.secRange.1]
  have hq1 : h.sec.value * 1000000 < 100000000 := by linarith [hw.secRange.2]
  have hb := truncRat_bounds hq0
  have hc := castLong_micros hq0 hq1
  have e1 : toInt32 (h.year : Int) = h.year := toInt32_nat (lt hw.year)
  have e2 : toInt32 (h.month : Int) = h.month := toInt32_nat (lt hw.month)
  have e3 : toInt32 (h.day : Int) = h.day := toInt32_nat (lt hw.day)
  have e4 : toInt32 (h.hour : Int) = h.hour := toInt32_nat (lt hw.hour)
  have e5 : toInt32 (h.minute : Int) = h.minute := toInt32_nat (lt hw.minute)
  have hd : sp3Date errno (h.line ++ NUL :: tail) 4 1 = .ok ([(h.month : Int), h.day, h.hour, h.minute], none) := by
    simp [sp3Date, h1, h2, h3, h4, strtolErr, strtolVal, he, e2, e3, e4, e5]
  refine ⟨⟨h.year, h.month, h.day, h.hour, h.minute, truncRat (h.sec.value * 1000000)⟩, ?_, rfl, rfl, rfl, rfl, rfl,
    hb.1, hb.2⟩
  exact sp3Header_eq (getAt_of hw.star) (getAt_of hw.blank) h0 rfl e1 y0 he hd h5 rfl hc

/-! ## C31: a whole epoch -/

theorem getNextEpoch_head {h : EpochLine} (hw : h.WF) (junk : List Char) (fuel : Nat) (t0 : Sp3Epoch)
    (vec : List Sp3Rec) (sr : Int) (s : Stream) {errno : Int} (he : errno ≠ ERANGE) {tail : List Char}
    (hg : s.good = true) (hr : s.rest = h.line ++ '\n' :: tail) :
    ∃ t, h.Is t ∧ getNextEpoch junk fuel t0 vec sr s errno =
        Res.noexcept (sp3Loop t sr fuel (fillLine junk h.line) vec 0 (s.adv (h.line.length + 1)) errno) ∧
      (s.adv (h.line.length + 1)).rest = tail := by
  have hgl := Stream.getline_line (n := MAX_RECORD_CHARS) hg hr hw.ok.1 (by simpa [MAX_RECORD_CHARS] using hw.ok.2.2)
  obtain ⟨t, h1, h2⟩ := sp3Header_wf hw (junk.drop (h.line.length + 1)) he
  refine ⟨t, h2, ?_, ?_⟩
  · unfold getNextEpoch
    have h1' : sp3Header (fillLine junk h.line) errno = .ok (.ok t, errno) := h1
    simp only [hg, Bool.not_true, Bool.false_eq_true, if_false, hgl, h1', Res.bind_ok]
  · have := Stream.adv_rest_append (s := s) (a := h.line ++ ['\n']) (b := tail) (by rw [hr]; simp)
    simpa using this

/-- C31: an epoch that is followed by the header of the next one: status 0, the epoch of the header,
the records of the position lines in file order at the beginning of the vector (the rest of it
untouched), their number, and the stream right before the next header. -/
theorem C31_epoch_before_header {h : EpochLine} (hw : h.WF) {ls : List (List Char)} {ps : List PosLine}
    (hb : IsEpochBody ls ps) (junk : List Char) (hj : junk.length = 128) (fuel : Nat) (hfuel : ls.length < fuel)
    (t0 : Sp3Epoch) (vec : List Sp3Rec) (hsz : ps.length ≤ vec.length) (sr : Int) (s : Stream) (tail : List Char)
    {errno : Int} (he : errno ≠ ERANGE) (hg : s.good = true)
    (hr : s.rest = h.line ++ '\n' :: (linesText ls ++ '*' :: tail)) :
    ∃ t recs, getNextEpoch junk fuel t0 vec sr s errno =
        .ok ⟨0, t, recs ++ vec.drop ps.length, ps.length, s.adv (h.line.length + 1 + (linesText ls).length), errno⟩ ∧
      h.Is t ∧ List.Forall₂ Decoded ps recs := by
  obtain ⟨t, h1, h2, h3⟩ := getNextEpoch_head hw junk fuel t0 vec sr s he hg hr
  obtain ⟨f, rfl⟩ : ∃ f, fuel = ls.length + (f + 1) := ⟨fuel - ls.length - 1, by omega⟩
  obtain ⟨recs, buf', h4, h5, h6⟩ := sp3Loop_body t sr (f + 1) errno he ('*' :: tail) ls ps (fillLine junk h.line) []
    vec (s.adv (h.line.length + 1)) hb hg h3 (fillLine_length _ _ _ (by omega)) hsz
  refine ⟨t, recs, ?_, h1, h4⟩
  rw [h2]
  simp only [List.nil_append, List.length_nil, Nat.zero_add] at h6
  rw [h6]
  have hrest : ((s.adv (h.line.length + 1)).adv (linesText ls).length).rest = '*' :: tail := Stream.adv_rest_append h3
  have hpk := Stream.peek_cons (s := (s.adv (h.line.length + 1)).adv (linesText ls).length) hg hrest
  rw [Stream.adv_adv] at hpk
  unfold sp3Loop
  simp [hpk, peekedStar, Stream.adv_adv]

/-- C31: the last epoch, followed by the line "EOF" (with or without newline behind it): status -1,
otherwise the same. -/
theorem C31_epoch_before_eof {h : EpochLine} (hw : h.WF) {ls : List (List Char)} {ps : List PosLine}
    (hb : IsEpochBody ls ps) (junk : List Char) (hj : junk.length = 128) (fuel : Nat) (hfuel : ls.length < fuel)
    (t0 : Sp3Epoch) (vec : List Sp3Rec) (hsz : ps.length ≤ vec.length) (sr : Int) (s : Stream) (e tail : List Char)
    {errno : Int} (he : errno ≠ ERANGE) (hg : s.good = true) (hok : LineOK e) (heof : e.take 3 = c!"EOF")
    (htail : tail = [] ∨ ∃ r, tail = '\n' :: r)
    (hr : s.rest = h.line ++ '\n' :: (linesText ls ++ (e ++ tail))) :
    ∃ t recs s', getNextEpoch junk fuel t0 vec sr s errno =
        .ok ⟨-1, t, recs ++ vec.drop ps.length, ps.length, s', errno⟩ ∧
      h.Is t ∧ List.Forall₂ Decoded ps recs ∧ s'.rest = tail.drop 1 ∧ s'.content = s.content ∧
        s'.fail = false ∧ (s'.eof = true ↔ tail = []) := by
  obtain ⟨t, h1, h2, h3⟩ := getNextEpoch_head hw junk fuel t0 vec sr s he hg hr
  obtain ⟨f, rfl⟩ : ∃ f, fuel = ls.length + (f + 1) := ⟨fuel - ls.length - 1, by omega⟩
  obtain ⟨recs, buf', h4, h5, h6⟩ := sp3Loop_body t sr (f + 1) errno he (e ++ tail) ls ps (fillLine junk h.line) []
    vec (s.adv (h.line.length + 1)) hb hg h3 (fillLine_length _ _ _ (by omega)) hsz
  simp only [List.nil_append, List.length_nil, Nat.zero_add] at h6
  have hrest : ((s.adv (h.line.length + 1)).adv (linesText ls).length).rest = e ++ tail := Stream.adv_rest_append h3
  have hE : ∃ e', e = 'E' :: e' := by
    cases e with
    | nil => simp at heof
    | cons c e' => simp at heof; exact ⟨e', by rw [heof.1]⟩
  obtain ⟨e', hE⟩ := hE
  have hnp : isPLine e = false := by rw [hE]; simp [isPLine]
  have hline := sp3Line_other buf' e (recs ++ vec.drop ps.length) ps.length errno hok hnp
  rw [if_pos heof] at hline
  generalize hS : (s.adv (h.line.length + 1)).adv (linesText ls).length = S at *
  have hgS : S.good = true := by rw [← hS]; exact hg
  have hcS : S.content = s.content := by rw [← hS]; rfl
  have hpk : S.peek = (some 'E', S) := Stream.peek_cons hgS (by rw [hrest, hE]; rfl)
  have hloop : ∀ s', S.getline MAX_RECORD_CHARS = (e, s') →
      sp3Loop t sr (f + 1) buf' (recs ++ vec.drop ps.length) ps.length S errno =
        .ok ⟨-1, t, recs ++ vec.drop ps.length, ps.length, s', errno⟩ := by
    intro s' hgl
    unfold sp3Loop
    simp only [hpk, peekedStar, hgl]
    rw [hline]
    rfl
  rcases htail with rfl | ⟨r, rfl⟩
  · have hgl := Stream.getline_last (n := MAX_RECORD_CHARS) hgS (by simpa using hrest) hok.1
      (by simpa [MAX_RECORD_CHARS] using hok.2.2)
    refine ⟨t, recs, { S with pos := S.pos + e.length, eof := true, fail := e.isEmpty }, ?_, h1, h4, ?_, hcS, by simp [hE], by simp⟩
    · rw [h2, h6, hloop _ hgl]; rfl
    · have := Stream.adv_rest_append (s := S) (a := e) (b := []) hrest
      simpa [Stream.adv, Stream.rest] using this
  · have hgl := Stream.getline_line (n := MAX_RECORD_CHARS) hgS hrest hok.1
      (by simpa [MAX_RECORD_CHARS] using hok.2.2)
    have hgd := (Stream.good_iff S).1 hgS
    refine ⟨t, recs, S.adv (e.length + 1), ?_, h1, h4, ?_, hcS, hgd.2, by simp [Stream.adv, hgd.1]⟩
    · rw [h2, h6, hloop _ hgl]; rfl
    · have := Stream.adv_rest_append (s := S) (a := e ++ ['\n']) (b := r) (by rw [hrest]; simp)
      simpa using this

/-- An epoch of a file. -/
structure EpochBlock where
  header : EpochLine
  lines : List (List Char)
  records : List PosLine

/-- The bytes of an epoch. -/
def EpochBlock.text (b : EpochBlock) : List Char := b.header.line ++ '\n' :: linesText b.lines

/-- An epoch is well formed and fits `sz` records and `fuel` lines. -/
structure EpochBlock.WF (sz fuel : Nat) (b : EpochBlock) : Prop where
  header : b.header.WF
  body : IsEpochBody b.lines b.records
  size : b.records.length ≤ sz
  short : b.lines.length < fuel

/-- A caller reading epochs into one and the same vector until the status is not 0; at most `calls`
calls.  (Not code of /repo: the loop of its test programs.) -/
def readEpochs (junk : Nat → List Char) (fuel : Nat) : (calls : Nat) → Sp3Epoch → List Sp3Rec → Int → Stream → Int →
    Res (List Sp3Out)
  | 0, _, _, _, _, _ => .ok []
  | k + 1, t, vec, sr, s, errno => do
      let o ← getNextEpoch (junk s.pos) fuel t vec sr s errno
      if o.status ≠ 0 then pure [o]
      else
        let r ← readEpochs junk fuel k o.t o.vec o.satsRead o.strm o.errno
        pure (o :: r)

/-- What one call delivered is epoch `b`. -/
def Delivers (b : EpochBlock) (o : Sp3Out) : Prop :=
  b.header.Is o.t ∧ o.satsRead = b.records.length ∧
    ∃ recs, recs <+: o.vec ∧ List.Forall₂ Decoded b.records recs

/-- C31: reading a file of any number of epochs closed by the line "EOF" delivers every epoch, in
file order, each exactly once; all calls but the last return 0, the last one -1. -/
theorem C31_file (junk : Nat → List Char) (hj : ∀ k, (junk k).length = 128) (fuel : Nat) {errno : Int}
    (he : errno ≠ ERANGE) (e tail : List Char) (hok : LineOK e) (heof : e.take 3 = c!"EOF")
    (htail : tail = [] ∨ ∃ r, tail = '\n' :: r) :
    ∀ (bs : List EpochBlock) (calls : Nat) (t0 : Sp3Epoch) (vec : List Sp3Rec) (sr : Int) (s : Stream),
      bs ≠ [] → bs.length ≤ calls → (∀ b ∈ bs, b.WF vec.length fuel) → s.good = true →
      s.rest = (bs.map EpochBlock.text).flatten ++ (e ++ tail) →
      ∃ outs, readEpochs junk fuel calls t0 vec sr s errno = .ok outs ∧ List.Forall₂ Delivers bs outs ∧
        outs.map Sp3Out.status = List.replicate (bs.length - 1) 0 ++ [-1] := by
  intro bs
  induction bs with
  | nil => intro _ _ _ _ _ h; exact absurd rfl h
  | cons b bs ih =>
    intro calls t0 vec sr s _ hcalls hwf hg hr
    obtain ⟨k, rfl⟩ : ∃ k, calls = k + 1 := ⟨calls - 1, by simp at hcalls; omega⟩
    have hb := hwf b (by simp)
    cases bs with
    | nil =>
      have hr' : s.rest = b.header.line ++ '\n' :: (linesText b.lines ++ (e ++ tail)) := by
        rw [hr]; simp [EpochBlock.text]
      obtain ⟨t, recs, s', h1, h2, h3, _⟩ := C31_epoch_before_eof hb.header hb.body (junk s.pos) (hj _) fuel hb.short
        t0 vec hb.size sr s e tail he hg hok heof htail hr'
      refine ⟨[⟨-1, t, recs ++ vec.drop b.records.length, b.records.length, s', errno⟩], ?_, .cons ⟨h2, rfl, recs, ?_, h3⟩ .nil, rfl⟩
      · unfold readEpochs; rw [h1]; rfl
      · exact List.prefix_append _ _
    | cons b2 bs =>
      have hb2 := hwf b2 (by simp)
      have hstar : ∃ r, b2.header.line = '*' :: r := by
        have := hb2.header.star
        cases hl : b2.header.line with
        | nil => rw [hl] at this; simp at this
        | cons c r => rw [hl] at this; simp at this; exact ⟨r, by rw [this]⟩
      obtain ⟨r, hstar⟩ := hstar
      have hr' : ∃ T, s.rest = b.header.line ++ '\n' :: (linesText b.lines ++ '*' :: T) ∧
          '*' :: T = ((b2 :: bs).map EpochBlock.text).flatten ++ (e ++ tail) := by
        refine ⟨r ++ '\n' :: linesText b2.lines ++ ((bs.map EpochBlock.text).flatten ++ (e ++ tail)), ?_, ?_⟩
        · rw [hr]; simp [EpochBlock.text, hstar]
        · simp [EpochBlock.text, hstar]
      obtain ⟨T, hr', hT⟩ := hr'
      obtain ⟨t, recs, h1, h2, h3⟩ := C31_epoch_before_header hb.header hb.body (junk s.pos) (hj _) fuel hb.short
        t0 vec hb.size sr s T he hg hr'
      have hlen : (recs ++ vec.drop b.records.length).length = vec.length := by
        have := h3.length_eq; have := hb.size; simp; omega
      have hrest : (s.adv (b.header.line.length + 1 + (linesText b.lines).length)).rest =
          ((b2 :: bs).map EpochBlock.text).flatten ++ (e ++ tail) := by
        rw [← hT]
        have := Stream.adv_rest_append (s := s) (a := b.header.line ++ '\n' :: linesText b.lines) (b := '*' :: T)
          (by rw [hr']; simp)
        rw [← this]; congr 2; simp; omega
      obtain ⟨outs, o1, o2, o3⟩ := ih k t (recs ++ vec.drop b.records.length) b.records.length
        (s.adv (b.header.line.length + 1 + (linesText b.lines).length)) (by simp) (by simpa using hcalls)
        (fun x hx => by rw [hlen]; exact hwf x (by simp at hx ⊢; tauto)) hg hrest
      refine ⟨⟨0, t, recs ++ vec.drop b.records.length, b.records.length,
        s.adv (b.header.line.length + 1 + (linesText b.lines).length), errno⟩ :: outs, ?_, .cons ⟨h2, rfl, recs, List.prefix_append _ _, h3⟩ o2, ?_⟩
      · unfold readEpochs
        rw [h1]
        simp only [Res.bind_ok, ne_eq, not_true_eq_false, if_false, o1, Res.pure_eq]
      · simp only [List.map_cons, o3, List.length_cons, Nat.add_one_sub_one]
        rw [List.replicate_succ]; rfl

/-! ## C32: the caller's vector -/

/-- C32 is false as it stands: an epoch with more position records than the vector has elements is
written past its end. -/
theorem C32_overflow {h : EpochLine} (hw : h.WF) {ls : List (List Char)} {ps : List PosLine}
    (hb : IsEpochBody ls ps) (junk : List Char) (hj : junk.length = 128) (fuel : Nat) (hfuel : ls.length ≤ fuel)
    (t0 : Sp3Epoch) (vec : List Sp3Rec) (hsz : vec.length < ps.length) (sr : Int) (s : Stream) (tail : List Char)
    {errno : Int} (he : errno ≠ ERANGE) (hg : s.good = true)
    (hr : s.rest = h.line ++ '\n' :: (linesText ls ++ tail)) :
    getNextEpoch junk fuel t0 vec sr s errno = .ub := by
  obtain ⟨t, h1, h2, h3⟩ := getNextEpoch_head hw junk fuel t0 vec sr s he hg hr
  obtain ⟨f, rfl⟩ : ∃ f, fuel = ls.length + f := ⟨fuel - ls.length, by omega⟩
  rw [h2, sp3Loop_overflow t sr f errno he tail ls ps _ vec 0 (s.adv (h.line.length + 1)) hb hg h3 (fillLine_length _ _ _ (by omega)) (by omega)
    (by omega)]
  rfl

end Ggnss
