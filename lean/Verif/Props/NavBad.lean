import Verif.Spec.NavBad
import Verif.Lemmas.Nav
import Verif.Lemmas.BadField
import Verif.Props.NavSearch
/-!
# C75: unreadable numbers of a navigation record are reported
-/
namespace Ggnss

/-- A conversion that starts with `errno` set fails. -/
theorem char2double_flag (M : Nat) : ∀ (N : Nat) (arr : List Char), (∀ k < N, NUL ∈ arr.drop (M * k)) →
    ∃ vs, char2double true M N arr = .ok (false, vs) := by
  intro N
  induction N with
  | zero => intro arr _; exact ⟨[], rfl⟩
  | succ N ih =>
    intro arr h
    have h0 := h 0 (by omega)
    simp only [Nat.mul_zero, List.drop_zero] at h0
    obtain ⟨vs, hv⟩ := ih (arr.drop M) (fun k hk => by
      rw [List.drop_drop]; have := h (k + 1) (by omega)
      rwa [show M * (k + 1) = M + M * k by ring] at this)
    unfold char2double
    simp only [strtodA, h0, if_true, Res.bind_ok]
    rcases strtod arr with _ | ⟨v, r, er⟩
    · exact ⟨_, rfl⟩
    · simp only [Bool.true_or, hv, Res.bind_ok, Res.pure_eq]; exact ⟨_, rfl⟩

/-- One bad field makes the conversion of a line fail. -/
theorem char2double_badFields (M : Nat) : ∀ (N : Nat) (arr : List Char),
    (∀ k < N, NUL ∈ arr.drop (M * k)) →
    (∃ k < N, strtod (arr.drop (M * k)) = none ∨ ∃ v r, strtod (arr.drop (M * k)) = some (v, r, true)) →
    ∃ vs, char2double false M N arr = .ok (false, vs) := by
  intro N
  induction N with
  | zero => intro arr _ ⟨k, hk, _⟩; omega
  | succ N ih =>
    intro arr h hbad
    have h0 := h 0 (by omega)
    simp only [Nat.mul_zero, List.drop_zero] at h0
    have hn : ∀ k < N, NUL ∈ (arr.drop M).drop (M * k) := fun k hk => by
      rw [List.drop_drop]; have := h (k + 1) (by omega)
      rwa [show M * (k + 1) = M + M * k by ring] at this
    unfold char2double
    simp only [strtodA, h0, if_true, Res.bind_ok]
    obtain ⟨k, hk, hb⟩ := hbad
    cases k with
    | zero =>
      simp only [Nat.mul_zero, List.drop_zero] at hb
      rcases hb with hb | ⟨v, r, hb⟩
      · rw [hb]; exact ⟨_, rfl⟩
      · obtain ⟨vs, hv⟩ := char2double_flag M N _ hn
        rw [hb]
        simp only [Bool.or_true, hv, Res.bind_ok, Res.pure_eq]; exact ⟨_, rfl⟩
    | succ k =>
      rcases strtod arr with _ | ⟨v, r, er⟩
      · exact ⟨_, rfl⟩
      · have hrest : ∃ vs, char2double er M N (arr.drop M) = .ok (false, vs) := by
          cases er with
          | true => exact char2double_flag M N _ hn
          | false => exact ih _ hn ⟨k, by omega, by
              rw [List.drop_drop]; rwa [show M * (k + 1) = M + M * k by ring] at hb⟩
        obtain ⟨vs, hv⟩ := hrest
        simp only [Bool.false_or, hv, Res.bind_ok, Res.pure_eq]; exact ⟨_, rfl⟩

/-- A line with an unreadable number is refused. -/
theorem char2double_badLine (l tail : List Char) (off N : Nat)
    (h : ∀ k < N, off + 19 * k ≤ l.length) (hb : ∃ k < N, FieldBad l (off + 19 * k)) :
    ∃ vs, char2double false 19 N ((l.map d2e ++ NUL :: tail).drop off) = .ok (false, vs) ∧ vs.length ≤ N := by
  have hd : ∀ k < N, ((l.map d2e ++ NUL :: tail).drop off).drop (19 * k)
      = (l.drop (off + 19 * k)).map d2e ++ NUL :: tail := by
    intro k hk
    rw [List.drop_drop, List.drop_append_of_le_length (by simpa using h k hk), List.map_drop]
  obtain ⟨vs, hv⟩ := char2double_badFields 19 N ((l.map d2e ++ NUL :: tail).drop off)
    (fun k hk => by rw [hd k hk]; simp)
    (by
      obtain ⟨k, hk, hb⟩ := hb
      exact ⟨k, hk, by rw [hd k hk]; exact strtod_badReal hb.2 tail⟩)
  exact ⟨vs, hv, char2double_len hv⟩

theorem FieldGood.le {l : List Char} {off : Nat} (h : FieldGood l off) : off ≤ l.length := by
  obtain ⟨n, hn⟩ := h; exact hn.1

/-- The orbit lines up to an unreadable one. -/
theorem orbitLines_bad (sys : SatSys) (tail : List Char) (lb : List Char) (hlb : LineOK lb) :
    ∀ (ls : List (List Char)) (n ln : Nat) (buf : List Char) (f : NavFrame) (s : Stream),
      s.good = true → s.rest = linesText (ls ++ [lb]) ++ tail → (∀ l ∈ ls, LineOK l) →
      (∀ i l, ls[i]? = some l → ∀ k < recsOnLine sys (ln + i), FieldGood l (4 + 19 * k)) →
      (∀ k < recsOnLine sys (ln + ls.length), 4 + 19 * k ≤ lb.length) →
      (∃ k < recsOnLine sys (ln + ls.length), FieldBad lb (4 + 19 * k)) →
      ls.length < n → f.data.length = 31 → 3 + 4 * (ln + n) ≤ 31 →
      ∃ buf' d', orbitLines sys 0 n ln buf f s =
          .ok (some 6, buf', { f with data := d' }, s.adv (linesText (ls ++ [lb])).length) ∧ d'.length = 31 := by
  intro ls
  induction ls with
  | nil =>
    intro n ln buf f s hg hr _ _ hlen hbad hn hd hb
    obtain ⟨n, rfl⟩ : ∃ m, n = m + 1 := ⟨n - 1, by simp at hn; omega⟩
    simp only [List.nil_append, linesText_cons] at hr
    have hgl := Stream.getline_line (n := MAX_RECORD_CHARS) hg
      (l := lb) (tail := tail) (by rw [hr]; simp [linesText]) hlb.1 (by simpa [MAX_RECORD_CHARS] using hlb.2.2)
    have hfail : (s.adv (lb.length + 1)).fail = false := by
      rw [Stream.adv_fail]; exact ((Stream.good_iff s).1 hg).2
    obtain ⟨vs, hv, hvl⟩ := char2double_badLine lb (buf.drop (lb.length + 1)) 4 (recsOnLine sys ln)
      (by simpa using hlen) (by simpa using hbad)
    have hrec : recsOnLine sys ln ≤ 4 := by unfold recsOnLine; split <;> simp
    have hst := storeAt_ok (d := f.data) (vals := vs) (off := 3 + ln * 4) (by omega)
    have hl := (storeAt_get hst).1
    refine ⟨lb.map d2e ++ NUL :: buf.drop (lb.length + 1),
      f.data.take (3 + ln * 4) ++ vs ++ f.data.drop (3 + ln * 4 + vs.length), ?_, hl.trans hd⟩
    simp only [orbitLines, hgl, hfail, Bool.false_eq_true, if_false, fillLine_eq]
    rw [for2cpp_line _ _ hlb.2.1]
    simp only [Res.bind_ok, ne_eq, not_true_eq_false, decide_false, hv, hst, Bool.false_eq_true, if_false, Res.pure_eq,
      List.nil_append, linesText, List.map_cons, List.map_nil, List.flatten_cons, List.flatten_nil, List.append_nil,
      List.length_append, List.length_cons, List.length_nil]
  | cons l ls ih =>
    intro n ln buf f s hg hr hok hfld hlen hbad hn hd hb
    obtain ⟨n, rfl⟩ : ∃ m, n = m + 1 := ⟨n - 1, by simp at hn; omega⟩
    have hl := hok l (by simp)
    rw [List.cons_append, linesText_cons] at hr
    have hgl := Stream.getline_line (n := MAX_RECORD_CHARS) hg
      (l := l) (tail := linesText (ls ++ [lb]) ++ tail) (by rw [hr]; simp) hl.1 (by simpa [MAX_RECORD_CHARS] using hl.2.2)
    have hfield : ∀ k, ∃ n : Numeral, k < recsOnLine sys ln → FieldAt l (4 + 19 * k) n := by
      intro k
      by_cases hk : k < recsOnLine sys ln
      · obtain ⟨n, hn⟩ := hfld 0 l (by simp) k (by simpa using hk)
        exact ⟨n, fun _ => hn⟩
      · exact ⟨⟨0, none, [], none, none⟩, fun h => absurd h hk⟩
    choose num hnum using hfield
    have hc2d := char2double_line l (buf.drop (l.length + 1)) 4 (recsOnLine sys ln) num (fun k hk => hnum k hk)
    have hrec : recsOnLine sys ln ≤ 4 := by unfold recsOnLine; split <;> simp
    have hst := storeAt_ok (d := f.data) (vals := (List.range (recsOnLine sys ln)).map (fun k => (num k).value))
      (off := 3 + ln * 4) (by simp only [List.length_map, List.length_range]; omega)
    have hsl := (storeAt_get hst).1
    have hfail : (s.adv (l.length + 1)).fail = false := by
      rw [Stream.adv_fail]; exact ((Stream.good_iff s).1 hg).2
    have hrest' : (s.adv (l.length + 1)).rest = linesText (ls ++ [lb]) ++ tail := by
      have : s.rest = (l ++ ['\n']) ++ (linesText (ls ++ [lb]) ++ tail) := by rw [hr]; simp
      have := Stream.adv_rest_append this
      simpa using this
    have hidx : ln + (l :: ls).length = ln + 1 + ls.length := by simp; omega
    rw [hidx] at hlen hbad
    obtain ⟨buf', d', e1, e2⟩ := ih n (ln + 1) ((l.map d2e) ++ NUL :: buf.drop (l.length + 1))
      { f with data := f.data.take (3 + ln * 4) ++ (List.range (recsOnLine sys ln)).map (fun k => (num k).value) ++
          f.data.drop (3 + ln * 4 + ((List.range (recsOnLine sys ln)).map (fun k => (num k).value)).length) }
      (s.adv (l.length + 1)) (by simpa using hg) hrest'
      (fun x hx => hok x (by simp [hx]))
      (fun i x hx k hk => hfld (i + 1) x (by simpa using hx) k (by rwa [show ln + (i + 1) = ln + 1 + i by omega]))
      hlen hbad (by simp at hn; omega) (hsl.trans hd) (by omega)
    refine ⟨buf', d', ?_, e2⟩
    simp only [orbitLines, hgl, hfail, Bool.false_eq_true, if_false, fillLine_eq]
    rw [for2cpp_line _ _ hl.2.1]
    simp only [Res.bind_ok, ne_eq, not_true_eq_false, decide_false, hc2d, hst, if_true]
    rw [e1, List.cons_append, linesText_cons]
    simp only [Stream.adv_adv, List.length_append, List.length_cons]
    congr 5
    omega

/-- What `readBlock` does behind its first line. -/
def blockRest (sys : SatSys) (buf : List Char) (f : NavFrame) (s : Stream) : Res NavOut :=
  let lines := (linesPerSatsys sys).1 - 1
  if lines < 0 then pure ⟨4, f, s, 0⟩
  else do
    let n := (lines - 1).toNat
    let o ← orbitLines sys 0 n 0 buf f s
    match o.1 with
    | some 5 => pure ⟨5, o.2.2.1, o.2.2.2, 0⟩
    | some e => pure ⟨e, o.2.2.1, o.2.2.2, 0⟩
    | none =>
      let g := o.2.2.2.getline MAX_RECORD_CHARS
      if g.2.fail then pure ⟨7, o.2.2.1, g.2, 0⟩
      else do
        let buf ← for2cpp (fillLine o.2.1 g.1)
        let r ← char2double false 19 (linesPerSatsys sys).2 (buf.drop 4)
        let d ← storeAt o.2.2.1.data (3 + n * 4) r.2
        if !r.1 then pure ⟨8, { o.2.2.1 with data := d }, g.2, 0⟩
        else pure ⟨0, { o.2.2.1 with data := if sys = .glonass then gloScale d else d }, g.2, 0⟩

/-- The first line of a block. -/
theorem readBlock_first (strptime : List Char → Res DateTime) (junk : List Char) (f : NavFrame)
    (s : Stream) (sys : SatSys) (prn : Int) (l0 tail : List Char) (toc : DateTime) (r : Bool × List Rat)
    (hsys : sys ≠ .mixed) (ok0 : LineOK l0) (hlet : l0.head? = some (satsysToChar sys)) (hp : PrnAt l0 prn)
    (h23 : 23 ≤ l0.length) (htoc : strptime (l0.drop 3) = .ok toc)
    (hc0 : char2double false 19 3 ((l0.map d2e ++ NUL :: junk.drop (l0.length + 1)).drop 23) = .ok r)
    (hrl : r.2.length ≤ 3)
    (hg : s.good = true) (hr : s.rest = l0 ++ '\n' :: tail) (hlen : f.data.length = 31) :
    ∃ buf d, (d.length = 31 ∧ ∀ k < r.2.length, d[k]? = r.2[k]?) ∧ readBlock strptime junk f s 0 =
      if r.1 then blockRest sys buf { f with sys := sys, toc := toc, prn := prn, data := d } (s.adv (l0.length + 1))
      else .ok ⟨3, { f with sys := sys, toc := toc, prn := prn, data := d }, s.adv (l0.length + 1), 0⟩ := by
  have hne : l0 ≠ [] := by intro h; rw [h] at hlet; simp at hlet
  have hg0 := Stream.getline_line (n := MAX_RECORD_CHARS) hg (l := l0) (tail := tail) hr ok0.1
    (by simpa [MAX_RECORD_CHARS] using ok0.2.2)
  have hf0 : (s.adv (l0.length + 1)).fail = false := by
    rw [Stream.adv_fail]; exact ((Stream.good_iff s).1 hg).2
  have hget0 : getAt (fillLine junk l0) 0 = .ok (satsysToChar sys) := by
    unfold getAt fillLine
    cases l0 with
    | nil => exact absurd rfl hne
    | cons a b => simp at hlet; simp [hlet]
  have hsys' : charToSatsys (satsysToChar sys) = .ok sys := by cases sys <;> rfl
  have hcstr : cstrOf ((fillLine junk l0).drop 3) = .ok (l0.drop 3) := by
    unfold fillLine
    rw [List.drop_append_of_le_length (by omega)]
    exact cstrOf_append (IsCStr.drop ok0.2.1 3) _
  obtain ⟨r1, hprn⟩ := strtol_prn l0 (junk.drop (l0.length + 1)) prn hne hp
  obtain ⟨_, _, _, _, _, _, _, _, hp0, hp1⟩ := hp
  have hstl : strtolA ((fillLine junk l0).drop 1) = .ok (some (prn, r1, false)) := by
    unfold strtolA fillLine
    rw [if_pos (by
      rw [List.drop_append_of_le_length (by omega)]; simp), hprn]
  have hprn32 : toInt32 prn = prn := toInt32_small (by omega) (by omega)
  have hf2c : for2cpp ((fillLine junk l0).drop 23) = .ok ((l0.drop 23).map d2e ++ NUL :: junk.drop (l0.length + 1)) := by
    unfold fillLine
    rw [List.drop_append_of_le_length (by omega)]
    exact for2cpp_line _ _ (IsCStr.drop ok0.2.1 23)
  have htake : ((fillLine junk l0).take 23).length = 23 := by
    unfold fillLine; rw [List.length_take]; simp; omega
  have hdrop23 : ((fillLine junk l0).take 23 ++ ((l0.drop 23).map d2e ++ NUL :: junk.drop (l0.length + 1))).drop 23
      = (l0.map d2e ++ NUL :: junk.drop (l0.length + 1)).drop 23 := by
    rw [List.drop_append_of_le_length (by omega), List.drop_of_length_le (by omega), List.nil_append,
      List.drop_append_of_le_length (by simpa using h23), List.map_drop]
  have hd0 := storeAt_ok (d := f.data) (vals := r.2) (off := 0) (by omega)
  obtain ⟨hd1, -, hd2, -⟩ := storeAt_get hd0
  simp only [Nat.zero_add] at hd2
  refine ⟨(fillLine junk l0).take 23 ++ ((l0.drop 23).map d2e ++ NUL :: junk.drop (l0.length + 1)),
    f.data.take 0 ++ r.2 ++ f.data.drop (0 + r.2.length), ⟨hd1.trans hlen, by simpa using hd2⟩, ?_⟩
  unfold readBlock
  simp only [hg0, hf0, Bool.false_eq_true, if_false, hget0, Res.bind_ok, hsys', hcstr, htoc, hstl, strtolVal, strtolErr, hprn32]
  rw [if_neg (by
    intro h; rcases h with h | h
    · omega
    · simp [ERANGE] at h)]
  simp only [hf2c, Res.bind_ok, hdrop23, ne_eq, not_true_eq_false, decide_false, hc0, hd0]
  cases r.1
  · rfl
  · rfl

theorem nav_peek_line {s : Stream} {sys : SatSys} {l : List Char} {t : List Char} (hg : s.good = true)
    (hr : s.rest = l ++ t) (h : l.head? = some (satsysToChar sys)) : s.peek = (some (satsysToChar sys), s) := by
  cases l with
  | nil => simp at h
  | cons a l =>
    simp at h; subst h
    exact Stream.peek_cons hg (by rw [hr]; rfl)

theorem peakSatsys_line {s : Stream} {sys : SatSys} {l : List Char} {t : List Char} (hg : s.good = true)
    (hr : s.rest = l ++ t) (h : l.head? = some (satsysToChar sys)) : peakSatsys s = (0, sys, s) := by
  have hff : peekedEof (some (satsysToChar sys)) = false := by cases sys <;> rfl
  unfold peakSatsys
  simp only [nav_peek_line hg hr h, hff, Bool.false_eq_true, if_false, Option.getD_some, charToSatsys_toChar]

/-- A block refused by `readBlock` is refused by `read_next_record`. -/
theorem readNextRecord_refused {strptime : List Char → Res DateTime} {junk : List Char} {f : NavFrame} {s : Stream}
    {o : NavOut} {c : Char} (hp : s.peek = (some c, s)) (h : readBlock strptime junk f s 0 = .ok o) (hs : o.status ≠ 0) :
    readNextRecord strptime junk f s 0 = .ok o := by
  unfold readNextRecord
  rw [hp]
  simp only
  unfold setFromRnx3
  rw [h]
  simp [hs]

theorem choose_fields {l : List Char} {off N : Nat} (h : ∀ k < N, FieldGood l (off + 19 * k)) :
    ∃ num : Nat → Numeral, ∀ k < N, FieldAt l (off + 19 * k) (num k) := by
  have : ∀ k, ∃ n : Numeral, k < N → FieldAt l (off + 19 * k) n := by
    intro k
    by_cases hk : k < N
    · obtain ⟨n, hn⟩ := h k hk; exact ⟨n, fun _ => hn⟩
    · exact ⟨⟨0, none, [], none, none⟩, fun h => absurd h hk⟩
  choose num hnum using this
  exact ⟨num, fun k hk => hnum k hk⟩

/-- The first line of a record whose first line is good. -/
theorem readBlock_first_good (strptime : List Char → Res DateTime) (junk : List Char) (f : NavFrame)
    (s : Stream) (sys : SatSys) (prn : Int) (l0 tail : List Char) (toc : DateTime)
    (hsys : sys ≠ .mixed) (ok0 : LineOK l0) (hlet : l0.head? = some (satsysToChar sys)) (hp : PrnAt l0 prn)
    (htoc : strptime (l0.drop 3) = .ok toc) (hf : ∀ k < 3, FieldGood l0 (23 + 19 * k))
    (hg : s.good = true) (hr : s.rest = l0 ++ '\n' :: tail) (hlen : f.data.length = 31) :
    ∃ buf d, d.length = 31 ∧ readBlock strptime junk f s 0 =
      blockRest sys buf { f with sys := sys, toc := toc, prn := prn, data := d } (s.adv (l0.length + 1)) := by
  obtain ⟨num, hnum⟩ := choose_fields hf
  have hc := char2double_line l0 (junk.drop (l0.length + 1)) 23 3 num hnum
  obtain ⟨buf, d, hd, h⟩ := readBlock_first strptime junk f s sys prn l0 tail toc _ hsys ok0 hlet hp
    (hnum 0 (by omega)).1 htoc hc (by simp) hg hr hlen
  exact ⟨buf, d, hd.1, by rw [h]; rfl⟩

theorem adv_next {s : Stream} {l tail : List Char} (hg : s.good = true) (hr : s.rest = l ++ '\n' :: tail) :
    (s.adv (l.length + 1)).good = true ∧ (s.adv (l.length + 1)).rest = tail := by
  refine ⟨by simpa using hg, ?_⟩
  have : s.rest = (l ++ ['\n']) ++ tail := by rw [hr]; simp
  simpa using Stream.adv_rest_append this

/-- C75: a record with an unreadable number - columns that hold no number, or a number that does not
fit a `double` - is refused, with the status that tells which line is to blame: 3 for the first, 8
for the last, 6 for those between.  Reading stops behind that line; whatever follows it is not looked at. -/
theorem C75_number_refused (dateOf : List Char → Res DateTime) (junk : List Char) (f : NavFrame) (s : Stream)
    (sys : SatSys) (prn : Int) (j : Nat) (ls : List (List Char)) (tail : List Char) (toc : DateTime)
    (h : BadRecord sys prn j ls) (hdate : ∀ l, ls.head? = some l → dateOf (l.drop 3) = .ok toc)
    (hg : s.good = true) (hrest : s.rest = linesText ls ++ tail) (hlen : f.data.length = 31) :
    ∃ f', readNextRecord dateOf junk f s 0 = .ok ⟨badStatus sys j, f', s.adv (linesText ls).length, 0⟩ ∧
      f'.sys = sys ∧ f'.prn = prn ∧ f'.toc = toc ∧ f'.data.length = 31 := by
  have hmix : sys ≠ .mixed := by rintro rfl; have := h.inside; simp [specLines] at this
  obtain ⟨n, c, hlps, hsl, hc4, hbnd, hcnt, hlast⟩ := layout sys hmix
  have hin := h.inside
  have hcount := h.count
  obtain ⟨l0, rest, rfl⟩ : ∃ l0 rest, ls = l0 :: rest := by
    cases ls with
    | nil => simp at hcount
    | cons a b => exact ⟨a, b, rfl⟩
  have ok0 := h.fits l0 (by simp)
  have hlet := h.letter l0 rfl
  have hp := h.prn l0 rfl
  have hr0 : s.rest = l0 ++ '\n' :: (linesText rest ++ tail) := by rw [hrest, linesText_cons]; simp
  have hpk := nav_peek_line (t := '\n' :: (linesText rest ++ tail)) hg hr0 hlet
  obtain ⟨hg1, hr1⟩ := adv_next hg hr0
  have hne : badStatus sys j ≠ 0 := by unfold badStatus; split <;> [decide; (split <;> decide)]
  rcases Nat.eq_zero_or_pos j with rfl | hj
  · -- the first line
    have : rest = [] := by simpa using hcount
    subst this
    obtain ⟨hall, hb⟩ := h.line l0 rfl
    have hle : ∀ k < 3, 23 + 19 * k ≤ l0.length := fun k hk => (hall k hk).elim FieldGood.le (fun h => h.1)
    obtain ⟨vs, hv, hvl⟩ := char2double_badLine l0 (junk.drop (l0.length + 1)) 23 3 hle hb
    obtain ⟨buf, d, hd, hrun⟩ := readBlock_first dateOf junk f s sys prn l0 _ toc _ hmix ok0 hlet hp
      (hle 0 (by omega)) (hdate l0 rfl) hv hvl hg hr0 hlen
    simp only [Bool.false_eq_true, if_false] at hrun
    refine ⟨_, readNextRecord_refused hpk (o := ⟨badStatus sys 0, { f with sys := sys, toc := toc, prn := prn, data := d },
      s.adv (linesText [l0]).length, 0⟩) ?_ hne, rfl, rfl, rfl, hd.1⟩
    rw [hrun]; simp [linesText, badStatus]
  · have hgood0 : ∀ k < 3, FieldGood l0 (23 + 19 * k) := fun k hk => h.before 0 l0 hj rfl k hk
    obtain ⟨buf, d, hd, hrun⟩ := readBlock_first_good dateOf junk f s sys prn l0 _ toc hmix ok0 hlet hp (hdate l0 rfl)
      hgood0 hg hr0 hlen
    obtain ⟨mid, lb, rfl⟩ : ∃ mid lb, rest = mid ++ [lb] := by
      have : rest ≠ [] := by intro h; subst h; simp at hcount; omega
      exact ⟨rest.dropLast, rest.getLast this, (List.dropLast_append_getLast this).symm⟩
    have hmid : mid.length + 1 = j := by simp at hcount; omega
    have okb := h.fits lb (by simp)
    have hlb : (l0 :: (mid ++ [lb]))[j]? = some lb := by
      rw [← hmid, List.getElem?_cons_succ, List.getElem?_append_right (by omega)]; simp
    obtain ⟨hall, hb⟩ := h.line lb hlb
    have hcol : ∀ i k, navCol (i + 1) k = 4 + 19 * k := fun i k => by simp [navCol]
    have hmidget : ∀ i l, mid[i]? = some l → i < mid.length ∧ (l0 :: (mid ++ [lb]))[i + 1]? = some l := by
      intro i l hl
      have hi : i < mid.length := by rw [List.getElem?_eq_some_iff] at hl; exact hl.1
      exact ⟨hi, by rw [List.getElem?_cons_succ, List.getElem?_append_left hi]; exact hl⟩
    rw [← hmid] at hall hb
    simp only [hcol] at hall hb
    by_cases hend : j + 1 = specLines sys
    · -- the last line
      have hmn : mid.length = n := by omega
      rw [hmn, hlast] at hall hb
      have hall' : ∀ i, ∃ num : Nat → Numeral, ∀ l, mid[i]? = some l → ∀ k < recsOnLine sys i, FieldAt l (4 + 19 * k) (num k) := by
        intro i
        rcases hl : mid[i]? with _ | l
        · exact ⟨fun _ => ⟨0, none, [], none, none⟩, fun l hl => by cases hl⟩
        · obtain ⟨hi, hget⟩ := hmidget i l hl
          obtain ⟨num, hnum⟩ := choose_fields (l := l) (off := 4) (N := recsOnLine sys i) (fun k hk => by
            have := h.before (i + 1) l (by omega) hget k (by rw [hcnt i (by omega)]; exact hk)
            rwa [hcol] at this)
          exact ⟨num, fun l' hl' => by cases hl'; exact hnum⟩
      choose num hnum using hall'
      obtain ⟨buf', d', e1, e2, -, -⟩ := orbitLines_ok sys (fun i => num (i - 1)) (linesText [lb] ++ tail) mid 0 buf
        { f with sys := sys, toc := toc, prn := prn, data := d } (s.adv (l0.length + 1)) hg1
        (by rw [hr1, linesText_append]; simp) (fun l hl => h.fits l (by simp [hl]))
        (fun i l hl k hk => by
          simp only [Nat.zero_add] at hk ⊢
          rw [show 1 + i - 1 = i by omega]
          exact hnum i l hl k hk) hd (by omega)
      have hgm : ((s.adv (l0.length + 1)).adv (linesText mid).length).good = true := by simpa using hg
      have hrm : ((s.adv (l0.length + 1)).adv (linesText mid).length).rest = lb ++ '\n' :: tail := by
        have : (s.adv (l0.length + 1)).rest = linesText mid ++ (lb ++ '\n' :: tail) := by
          rw [hr1, linesText_append]; simp [linesText]
        rw [Stream.adv_rest_append this]
      have hgl := Stream.getline_line (n := MAX_RECORD_CHARS) hgm hrm okb.1 (by simpa [MAX_RECORD_CHARS] using okb.2.2)
      have hfl : (((s.adv (l0.length + 1)).adv (linesText mid).length).adv (lb.length + 1)).fail = false := by
        simp only [Stream.adv_fail]; exact ((Stream.good_iff s).1 hg).2
      obtain ⟨vs, hv, hvl⟩ := char2double_badLine lb (buf'.drop (lb.length + 1)) 4 c
        (fun k hk => (hall k hk).elim FieldGood.le (fun h => h.1)) hb
      have hst := storeAt_ok (d := d') (vals := vs) (off := 3 + n * 4) (by omega)
      have hstl := (storeAt_get hst).1
      refine ⟨_, readNextRecord_refused hpk (o := ⟨badStatus sys j, { f with sys := sys, toc := toc, prn := prn, data := d'.take (3 + n * 4) ++ vs ++ d'.drop (3 + n * 4 + vs.length) },
        s.adv (linesText (l0 :: (mid ++ [lb]))).length, 0⟩) ?_ hne, rfl, rfl, rfl, hstl.trans e2⟩
      rw [hrun]
      unfold blockRest
      rw [hlps]
      simp only
      rw [if_neg (by omega)]
      have hn : ((n : Int) + 2 - 1 - 1).toNat = n := by omega
      rw [hn]
      rw [hmn] at e1
      rw [e1]
      simp only [Res.bind_ok, hgl, hfl, Bool.false_eq_true, if_false, fillLine_eq]
      rw [for2cpp_line _ _ okb.2.1]
      simp only [Res.bind_ok, hv, hst, Bool.not_false, if_true, Res.pure_eq]
      unfold badStatus
      rw [if_neg (by omega), if_pos hend, linesText_cons, linesText_append]
      simp only [Stream.adv_adv, List.length_append, List.length_cons]
      congr 3
      simp [linesText]; omega
    · -- a line between
      have hin' : mid.length < n := by omega
      rw [hcnt _ hin'] at hall hb
      obtain ⟨buf', d', e1, e2⟩ := orbitLines_bad sys tail lb okb mid n 0 buf
        { f with sys := sys, toc := toc, prn := prn, data := d } (s.adv (l0.length + 1)) hg1 hr1
        (fun l hl => h.fits l (by simp [hl]))
        (fun i l hl k hk => by
          obtain ⟨hi, hget⟩ := hmidget i l hl
          have := h.before (i + 1) l (by omega) hget k (by rw [hcnt i (by omega)]; simpa using hk)
          rwa [hcol] at this)
        (fun k hk => (hall k (by simpa using hk)).elim FieldGood.le (fun h => h.1)) (by simpa using hb) hin' hd (by omega)
      refine ⟨_, readNextRecord_refused hpk (o := ⟨badStatus sys j, { f with sys := sys, toc := toc, prn := prn, data := d' },
        s.adv (linesText (l0 :: (mid ++ [lb]))).length, 0⟩) ?_ hne, rfl, rfl, rfl, e2⟩
      rw [hrun]
      unfold blockRest
      rw [hlps]
      simp only
      rw [if_neg (by omega)]
      have hn : ((n : Int) + 2 - 1 - 1).toNat = n := by omega
      rw [hn, e1]
      simp only [Res.bind_ok, Res.pure_eq]
      unfold badStatus
      rw [if_neg (by omega), if_neg hend, linesText_cons]
      simp only [Stream.adv_adv, List.length_append, List.length_cons]
      congr 3
      omega

/-- What `readBlock` does with the system letter, the date and the satellite number of a first line. -/
theorem readBlock_prn (strptime : List Char → Res DateTime) (junk : List Char) (f : NavFrame)
    (s : Stream) (sys : SatSys) (l0 tail : List Char) (toc : DateTime)
    (ok0 : LineOK l0) (hlet : l0.head? = some (satsysToChar sys)) (h3 : 3 ≤ l0.length) (htoc : strptime (l0.drop 3) = .ok toc)
    (hp : toInt32 (strtolVal (strtol (l0.drop 1 ++ NUL :: junk.drop (l0.length + 1)))) = 0 ∨
      strtolErr (strtol (l0.drop 1 ++ NUL :: junk.drop (l0.length + 1))) = true)
    (hg : s.good = true) (hr : s.rest = l0 ++ '\n' :: tail) :
    ∃ p, readBlock strptime junk f s 0 = .ok ⟨2, { f with sys := sys, toc := toc, prn := p }, s.adv (l0.length + 1), 0⟩ := by
  have hg0 := Stream.getline_line (n := MAX_RECORD_CHARS) hg (l := l0) (tail := tail) hr ok0.1
    (by simpa [MAX_RECORD_CHARS] using ok0.2.2)
  have hf0 : (s.adv (l0.length + 1)).fail = false := by
    rw [Stream.adv_fail]; exact ((Stream.good_iff s).1 hg).2
  have hget0 : getAt (fillLine junk l0) 0 = .ok (satsysToChar sys) := by
    unfold getAt fillLine
    cases l0 with
    | nil => simp at h3
    | cons a b => simp at hlet; simp [hlet]
  have hcstr : cstrOf ((fillLine junk l0).drop 3) = .ok (l0.drop 3) := by
    unfold fillLine
    rw [List.drop_append_of_le_length (by omega)]
    exact cstrOf_append (IsCStr.drop ok0.2.1 3) _
  have hstl : strtolA ((fillLine junk l0).drop 1) = .ok (strtol (l0.drop 1 ++ NUL :: junk.drop (l0.length + 1))) := by
    unfold strtolA fillLine
    rw [List.drop_append_of_le_length (by omega), if_pos (by simp)]
  unfold readBlock
  simp only [hg0, hf0, Bool.false_eq_true, if_false, hget0, Res.bind_ok, charToSatsys_toChar, hcstr, htoc, hstl]
  generalize strtol (l0.drop 1 ++ NUL :: junk.drop (l0.length + 1)) = p at hp
  refine ⟨toInt32 (strtolVal p), ?_⟩
  rw [if_pos (by
    rcases hp with hp | hp
    · exact Or.inl hp
    · right; rw [hp]; rfl)]
  rfl

/-- C75: a record whose satellite number is missing, not a number, too large for a `long`, or zero is
refused with status 2, behind its first line. -/
theorem C75_satellite_refused (dateOf : List Char → Res DateTime) (junk : List Char) (f : NavFrame) (s : Stream)
    (sys : SatSys) (l0 tail : List Char) (toc : DateTime) (ok0 : LineOK l0)
    (hlet : l0.head? = some (satsysToChar sys)) (h3 : 3 ≤ l0.length) (hdate : dateOf (l0.drop 3) = .ok toc)
    (hp : BadInt (l0.drop 1) ∨ ∃ (k : Nat) (ds rest : List Char), l0.drop 1 = List.replicate k ' ' ++ (ds ++ rest) ∧ ds ≠ [] ∧
      (∀ c ∈ ds, c = '0') ∧ ∀ c, rest.head? = some c → c.isDigit = false)
    (hg : s.good = true) (hr : s.rest = l0 ++ '\n' :: tail) :
    ∃ f', readNextRecord dateOf junk f s 0 = .ok ⟨2, f', s.adv (l0.length + 1), 0⟩ ∧ f'.data = f.data := by
  obtain ⟨p, h⟩ := readBlock_prn dateOf junk f s sys l0 tail toc ok0 hlet h3 hdate (by
    rcases hp with hp | ⟨k, ds, rest, hl, hne, hz, hst⟩
    · rcases strtol_badInt hp (junk.drop (l0.length + 1)) with h | ⟨v, r, h⟩
      · left; rw [h]; rfl
      · right; rw [h]; rfl
    · left
      have hd : allDigits ds := fun c hc => by rw [hz c hc]; rfl
      have hv : Nat.ofDigitChars 10 ds 0 = 0 := by
        have : ds = List.replicate ds.length '0' := List.eq_replicate_of_mem hz
        rw [this]
        generalize ds.length = m
        induction m with
        | zero => rfl
        | succ m ih => rw [List.replicate_succ, Nat.ofDigitChars_cons]; exact ih
      have hsp := dropWhile_blanks k (ds ++ (rest ++ NUL :: junk.drop (l0.length + 1))) (fun c hc =>
        isDigit_not_space c (hd c (head_digits_append hne hc)))
      have hsg := takeSign_other (ds ++ (rest ++ NUL :: junk.drop (l0.length + 1))) (fun c hc =>
        isDigit_not_sign c (hd c (head_digits_append hne hc)))
      obtain ⟨hw1, hw2⟩ := takeWhile_digits ds (rest ++ NUL :: junk.drop (l0.length + 1)) hd
        (head_append_nul rest _ (fun c => c.isDigit = false) hst (by decide))
      have : strtol (l0.drop 1 ++ NUL :: junk.drop (l0.length + 1)) = some (0, rest ++ NUL :: junk.drop (l0.length + 1), false) := by
        rw [hl]
        simp only [List.append_assoc]
        unfold strtol
        simp only [hsp, hsg, hw1, hw2]
        rw [if_neg hne]
        simp only [Bool.false_eq_true, if_false, digitsVal, hv]
        rfl
      rw [this]; rfl) hg hr
  exact ⟨_, readNextRecord_refused (nav_peek_line (t := '\n' :: tail) hg hr hlet) h (show (2 : Int) ≠ 0 by decide), rfl⟩

/-- The date parser's exception, or that of an unknown system letter, does not leave
`read_next_record`: the program ends. -/
theorem C75_bad_date_kills (dateOf : List Char → Res DateTime) (junk : List Char) (f : NavFrame) (s : Stream)
    (sys : SatSys) (l0 tail : List Char) (e : Exc) (ok0 : LineOK l0)
    (hlet : l0.head? = some (satsysToChar sys)) (h3 : 3 ≤ l0.length) (hdate : dateOf (l0.drop 3) = .throw e)
    (hg : s.good = true) (hr : s.rest = l0 ++ '\n' :: tail) :
    readNextRecord dateOf junk f s 0 = .terminate := by
  have hg0 := Stream.getline_line (n := MAX_RECORD_CHARS) hg (l := l0) (tail := tail) hr ok0.1
    (by simpa [MAX_RECORD_CHARS] using ok0.2.2)
  have hf0 : (s.adv (l0.length + 1)).fail = false := by
    rw [Stream.adv_fail]; exact ((Stream.good_iff s).1 hg).2
  have hget0 : getAt (fillLine junk l0) 0 = .ok (satsysToChar sys) := by
    unfold getAt fillLine
    cases l0 with
    | nil => simp at h3
    | cons a b => simp at hlet; simp [hlet]
  have hcstr : cstrOf ((fillLine junk l0).drop 3) = .ok (l0.drop 3) := by
    unfold fillLine
    rw [List.drop_append_of_le_length (by omega)]
    exact cstrOf_append (IsCStr.drop ok0.2.1 3) _
  unfold readNextRecord
  rw [nav_peek_line (t := '\n' :: tail) hg hr hlet]
  simp only
  unfold setFromRnx3 readBlock
  simp only [hg0, hf0, Bool.false_eq_true, if_false, hget0, Res.bind_ok, charToSatsys_toChar, hcstr, hdate]
  rfl

/-- C75: a record that was read has no unreadable number: when every number column of the block holds
either a number that fits or none, and `read_next_record` reports success, then every one holds a number. -/
theorem C75_accepted (dateOf : List Char → Res DateTime) (junk : List Char) (f : NavFrame) (s : Stream)
    (sys : SatSys) (prn : Int) (ls : List (List Char)) (tail : List Char) (toc : DateTime)
    (h : IsBlock sys ls) (hp : ∀ l, ls.head? = some l → PrnAt l prn)
    (hdate : ∀ l, ls.head? = some l → dateOf (l.drop 3) = .ok toc)
    (hcols : ∀ j l, ls[j]? = some l → ∀ k < specCount sys j, FieldGood l (navCol j k) ∨ FieldBad l (navCol j k))
    (hg : s.good = true) (hrest : s.rest = linesText ls ++ tail) (hlen : f.data.length = 31)
    (o : NavOut) (ho : readNextRecord dateOf junk f s 0 = .ok o) (hs : o.status = 0) :
    ∀ j l, ls[j]? = some l → ∀ k < specCount sys j, FieldGood l (navCol j k) := by
  classical
  by_contra hcon
  have hex : ∃ j l, ls[j]? = some l ∧ ∃ k < specCount sys j, FieldBad l (navCol j k) := by
    by_contra hno
    apply hcon
    intro j l hl k hk
    rcases hcols j l hl k hk with h | h
    · exact h
    · exact absurd ⟨j, l, hl, k, hk, h⟩ hno
  obtain ⟨l, hl, hbad⟩ := Nat.find_spec hex
  have hmin := fun i (hi : i < Nat.find hex) => Nat.find_min hex hi
  generalize Nat.find hex = j at hl hbad hmin
  have hj : j < ls.length := by rw [List.getElem?_eq_some_iff] at hl; exact hl.1
  have htake : ∀ i, i ≤ j → (ls.take (j + 1))[i]? = ls[i]? := fun i hi => by
    rw [List.getElem?_take_of_lt (by omega)]
  have hhead : (ls.take (j + 1)).head? = ls.head? := by
    cases ls with
    | nil => simp at hj
    | cons a b => simp
  have hb : BadRecord sys prn j (ls.take (j + 1)) := by
    refine ⟨h.count ▸ hj, by rw [List.length_take]; omega, fun l hl => h.fits l (List.mem_of_mem_take hl),
      fun l hl => h.letter l (hhead ▸ hl), fun l hl => hp l (hhead ▸ hl), ?_, ?_⟩
    · intro i l' hi hl' k hk
      rw [htake i (by omega)] at hl'
      rcases hcols i l' hl' k hk with h | h
      · exact h
      · exact absurd ⟨l', hl', k, hk, h⟩ (hmin i hi)
    · intro l' hl'
      rw [htake j (by omega), hl] at hl'
      cases hl'
      exact ⟨hcols j l hl, hbad⟩
  obtain ⟨f', h1, -⟩ := C75_number_refused dateOf junk f s sys prn j (ls.take (j + 1)) (linesText (ls.drop (j + 1)) ++ tail) toc
    hb (fun l hl => hdate l (hhead ▸ hl)) hg (by
      rw [hrest, ← List.append_assoc, ← linesText_append, List.take_append_drop]) hlen
  rw [h1] at ho
  cases ho
  revert hs
  unfold badStatus
  simp only
  split <;> [decide; (split <;> decide)]

/-- A search that arrives at a record it cannot read. -/
theorem findLoop_refused (dateOf : List Char → Res DateTime) (junk : Nat → List Char)
    (accept : NavFrame → Res (Option Int)) (sys : SatSys) (fuel : Nat) (f : NavFrame) (s : Stream) (prn : Int) (j : Nat)
    (ls : List (List Char)) (tail : List Char) (toc : DateTime) (hg : s.good = true) (hr : s.rest = linesText ls ++ tail)
    (hl : f.data.length = 31) (hb : BadRecord sys prn j ls) (hdate : ∀ l, ls.head? = some l → dateOf (l.drop 3) = .ok toc) :
    ∃ f', findLoop dateOf junk accept sys (fuel + 1) f s 0 = .ok ⟨badStatus sys j, f', s.adv (linesText ls).length, 0⟩ := by
  obtain ⟨f', h1, -⟩ := C75_number_refused dateOf (junk s.pos) f _ sys prn j ls tail toc hb hdate hg hr hl
  obtain ⟨l0, rest, rfl⟩ : ∃ l0 rest, ls = l0 :: rest := by
    have := hb.count
    cases ls with
    | nil => simp at this
    | cons a b => exact ⟨a, b, rfl⟩
  have hpk := peakSatsys_line (sys := sys) (l := l0) (t := '\n' :: (linesText rest ++ tail)) hg
    (by rw [hr, linesText_cons]; simp) (hb.letter l0 rfl)
  have hne : badStatus sys j ≠ 0 := by unfold badStatus; split <;> [decide; (split <;> decide)]
  refine ⟨f', ?_⟩
  rw [findLoop]
  simp only [hpk, ne_eq, not_true_eq_false, if_false, if_true, h1, Res.bind_ok, hne, not_false_eq_true, Res.pure_eq]
  congr 2
  have hgg : (s.adv (linesText (l0 :: rest)).length).good = true := by simpa using hg
  generalize s.adv (linesText (l0 :: rest)).length = x at hgg
  have := (Stream.good_iff x).1 hgg
  cases x; simp_all [Stream.clear]

/-- C75: a search reports the record it cannot read, instead of passing over it: behind records that do not match,
a record of the requested system with an unreadable number ends `find_next` with that record's status, whatever
the satellite asked for; the stream is usable afterwards. -/
theorem C75_search_refused (dateOf : List Char → Res DateTime) (junk : Nat → List Char) (fuel : Nat)
    (sys : SatSys) (prn prn' : Int) (f : NavFrame) (s : Stream) (pre : List NavItem) (j : Nat) (ls : List (List Char))
    (tail : List Char) (toc : DateTime) (hg : s.good = true) (hrest : s.rest = fileText pre ++ (linesText ls ++ tail))
    (hl : f.data.length = 31)
    (hpre : ∀ p ∈ pre, (p.sys ≠ sys ∧ IsBlock p.sys p.lines) ∨
      (p.sys = sys ∧ p.WF dateOf ∧ prn ≠ -1 ∧ p.prn ≠ prn))
    (hb : BadRecord sys prn' j ls) (hdate : ∀ l, ls.head? = some l → dateOf (l.drop 3) = .ok toc)
    (hfuel : pre.length < fuel) :
    ∃ f' s', findNext dateOf junk fuel sys prn f s 0 = .ok (some s.pos, ⟨badStatus sys j, f', s', 0⟩) ∧
      s'.rest = tail ∧ s'.good = true ∧ ∀ endOfHead, navRewind endOfHead s' (some s.pos) = s := by
  obtain ⟨m, rfl⟩ : ∃ m, fuel = pre.length + (m + 1) := ⟨fuel - pre.length - 1, by omega⟩
  obtain ⟨g, hgl, hloop⟩ := findLoop_pass dateOf junk (acceptPrn prn) sys (linesText ls ++ tail) (m + 1) pre f s
    (fun p hp => by
      rcases hpre p hp with h | ⟨h1, h2, h3, h4⟩
      · exact Or.inl h
      · refine Or.inr ⟨h1, h2, fun f hf => ?_⟩
        unfold acceptPrn
        rw [if_neg]
        rw [hf.prn]
        rintro (h | h)
        · exact h3 h
        · exact h4 h.symm) hg hrest hl
  have hr' : (s.adv (fileText pre).length).rest = linesText ls ++ tail := Stream.adv_rest_append hrest
  obtain ⟨f', h1⟩ := findLoop_refused dateOf junk (acceptPrn prn) sys m g (s.adv (fileText pre).length) prn' j ls tail toc
    (by simpa using hg) hr' hgl hb hdate
  refine ⟨f', (s.adv (fileText pre).length).adv (linesText ls).length, ?_, Stream.adv_rest_append hr', by simpa using hg, ?_⟩
  · unfold findNext
    simp only [tellg_good hg]
    rw [hloop, h1]
    rfl
  · intro e; rw [Stream.adv_adv]; exact rewind_adv e s _ hg

/-- C75: the same for `find_next_valid`. -/
theorem C75_search_valid_refused (dateOf : List Char → Res DateTime) (junk : Nat → List Char) (fuel : Nat) (t : Int)
    (sys : SatSys) (prn prn' : Int) (f : NavFrame) (s : Stream) (pre : List NavItem) (j : Nat) (ls : List (List Char))
    (tail : List Char) (toc : DateTime) (hg : s.good = true) (hrest : s.rest = fileText pre ++ (linesText ls ++ tail))
    (hl : f.data.length = 31) (hpre : ∀ p ∈ pre, PassedValid dateOf t sys prn p)
    (hb : BadRecord sys prn' j ls) (hdate : ∀ l, ls.head? = some l → dateOf (l.drop 3) = .ok toc)
    (hfuel : pre.length < fuel) :
    ∃ f' s', findNextValid dateOf junk fuel t sys prn f s 0 = .ok (some s.pos, ⟨badStatus sys j, f', s', 0⟩) ∧
      s'.rest = tail ∧ s'.good = true ∧ ∀ endOfHead, navRewind endOfHead s' (some s.pos) = s := by
  obtain ⟨m, rfl⟩ : ∃ m, fuel = pre.length + (m + 1) := ⟨fuel - pre.length - 1, by omega⟩
  obtain ⟨g, hgl, hloop⟩ := findLoop_pass dateOf junk (acceptValid t sys prn) sys (linesText ls ++ tail) (m + 1) pre f s
    (fun p hp => (hpre p hp).passed) hg hrest hl
  have hr' : (s.adv (fileText pre).length).rest = linesText ls ++ tail := Stream.adv_rest_append hrest
  obtain ⟨f', h1⟩ := findLoop_refused dateOf junk (acceptValid t sys prn) sys m g (s.adv (fileText pre).length) prn' j ls tail toc
    (by simpa using hg) hr' hgl hb hdate
  refine ⟨f', (s.adv (fileText pre).length).adv (linesText ls).length, ?_, Stream.adv_rest_append hr', by simpa using hg, ?_⟩
  · unfold findNextValid
    simp only [tellg_good hg]
    rw [hloop, h1]
    rfl
  · intro e; rw [Stream.adv_adv]; exact rewind_adv e s _ hg

end Ggnss
