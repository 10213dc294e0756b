import Verif.Props.Nav
/-!
# C17–C21: decoding a navigation record and searching a file
-/
namespace Ggnss

open NavItem

/-! ## C17 -/

/-- A frame says what the record says. -/
structure Carries (f : NavFrame) (r : NavItem) : Prop where
  sys : f.sys = r.sys
  prn : f.prn = r.prn
  toc : f.toc = r.toc
  len : f.data.length = 31
  data : ∀ j < specLines r.sys, ∀ k < specCount r.sys j, f.data[specIndex j k]? = some (r.val j k)
  toe : Handled r.sys → ∀ toe, r.toeIs toe → f.toe.total = toe

theorem truncRat_int (v : Int) : truncRat (v : Rat) = v := by
  simp [truncRat]

theorem castInt_int {v : Int} (h0 : -2147483648 ≤ v) (h1 : v ≤ 2147483647) : castInt (v : Rat) = .ok v := by
  unfold castInt; rw [truncRat_int, if_pos ⟨h0, h1⟩]

theorem castLong_int {v : Int} (h0 : -2147483648 ≤ v) (h1 : v ≤ 2147483647) : castLong (v : Rat) = .ok v := by
  unfold castLong LONG_MIN LONG_MAX; rw [truncRat_int, if_pos (by omega)]

theorem ofGpsWeek_total (wk sow : Int) :
    (DateTime.ofGpsWeek wk sow).total = 86400 * 44244 + 604800 * wk + sow := by
  unfold DateTime.ofGpsWeek DateTime.total MJD_JAN61980
  have := Int.mul_tdiv_add_tmod sow 86400
  simp only
  omega

theorem sow_tdiv (d : DateTime) (h : 44244 ≤ d.mjd) (h0 : 0 ≤ d.sec) (h1 : d.sec < 86400) :
    d.sow.tdiv 86400 = (d.mjd - 44244) % 7 := by
  unfold DateTime.sow MJD_JAN61980
  rw [Int.tmod_eq_emod_of_nonneg (by omega), Int.tdiv_eq_ediv_of_nonneg (by omega)]
  omega

/-- The time of ephemeris of a frame that carries the numbers of a well formed record. -/
theorem toe2date_spec (f : NavFrame) (r : NavItem) (hs : f.sys = r.sys) (ht : f.toc = r.toc)
    (htoc : 44244 ≤ r.toc.mjd ∧ 0 ≤ r.toc.sec ∧ r.toc.sec < 86400)
    (hd : ∀ j, j + 1 < specLines r.sys → ∀ k < specCount r.sys j, f.data[specIndex j k]? = some (r.val j k))
    (hh : Handled r.sys) (htoe : ∃ toe, r.toeIs toe) :
    ∃ d, toe2date f = .ok d ∧ ∀ toe, r.toeIs toe → d.total = toe := by
  obtain ⟨toe0, htoe⟩ := htoe
  have uniq : ∀ {v w : Int} {j k : Nat}, r.IntAt j k v → r.IntAt j k w → v = w := by
    intro v w j k h1 h2
    have := h1.1.symm.trans h2.1
    exact_mod_cast this
  have gps : ∀ (hl : specLines r.sys = 8) (h5 : 2 < specCount r.sys 5) (h3 : 0 < specCount r.sys 3) (wk sow : Int),
      r.IntAt 5 2 wk → r.IntAt 3 0 sow →
      (gpsToe f = .ok (DateTime.ofGpsWeek wk sow) ∧ bdsToe f = .ok (DateTime.ofGpsWeek (wk + 1356) sow)) := by
    intro hl h5 h3 wk sow hw hsw
    have d21 := hd 5 (by omega) 2 h5
    have d11 := hd 3 (by omega) 0 h3
    rw [hw.1] at d21; rw [hsw.1] at d11
    have e21 : dataAt f.data 21 = .ok (wk : Rat) := by unfold dataAt; rw [show specIndex 5 2 = 21 from rfl] at d21; rw [d21]
    have e11 : dataAt f.data 11 = .ok (sow : Rat) := by unfold dataAt; rw [show specIndex 3 0 = 11 from rfl] at d11; rw [d11]
    unfold gpsToe bdsToe
    simp [e21, e11, castInt_int hw.2.1 hw.2.2, castLong_int hsw.2.1 hsw.2.2]
  unfold toe2date
  rw [hs]
  rcases hh with h | h | h | h
  · rw [h] at hd gps ⊢
    unfold toeIs at htoe; rw [h] at htoe
    obtain ⟨wk, sow, hw, hsw, rfl⟩ := htoe
    refine ⟨_, (gps rfl (by decide) (by decide) wk sow hw hsw).1, ?_⟩
    intro toe ht'; unfold toeIs at ht'; rw [h] at ht'
    obtain ⟨wk', sow', hw', hsw', rfl⟩ := ht'
    rw [ofGpsWeek_total, uniq hw hw', uniq hsw hsw']
  · rw [h] at hd gps ⊢
    unfold toeIs at htoe; rw [h] at htoe
    obtain ⟨sow, hsw, rfl⟩ := htoe
    have d2 := hd 0 (by decide) 2 (by decide)
    rw [hsw.1] at d2
    have e2 : dataAt f.data 2 = .ok (sow : Rat) := by unfold dataAt; rw [show specIndex 0 2 = 2 from rfl] at d2; rw [d2]
    refine ⟨⟨r.toc.mjd - ((r.toc.mjd - 44244) % 7 - sow.tdiv 86400), sow.tmod 86400⟩, ?_, ?_⟩
    · simp only [gloToe, e2, Res.bind_ok, castLong_int hsw.2.1 hsw.2.2, ht, sow_tdiv r.toc htoc.1 htoc.2.1 htoc.2.2,
        Res.pure_eq]
    · intro toe ht'; unfold toeIs at ht'; rw [h] at ht'
      obtain ⟨sow', hsw', rfl⟩ := ht'
      rw [← uniq hsw hsw']
      unfold DateTime.total
      have := Int.mul_tdiv_add_tmod sow 86400
      simp only
      omega
  · rw [h] at hd gps ⊢
    unfold toeIs at htoe; rw [h] at htoe
    obtain ⟨wk, sow, hw, hsw, rfl⟩ := htoe
    refine ⟨_, (gps rfl (by decide) (by decide) wk sow hw hsw).1, ?_⟩
    intro toe ht'; unfold toeIs at ht'; rw [h] at ht'
    obtain ⟨wk', sow', hw', hsw', rfl⟩ := ht'
    rw [ofGpsWeek_total, uniq hw hw', uniq hsw hsw']
  · rw [h] at hd gps ⊢
    unfold toeIs at htoe; rw [h] at htoe
    obtain ⟨wk, sow, hw, hsw, rfl⟩ := htoe
    refine ⟨_, (gps rfl (by decide) (by decide) wk sow hw hsw).2, ?_⟩
    intro toe ht'; unfold toeIs at ht'; rw [h] at ht'
    obtain ⟨wk', sow', hw', hsw', rfl⟩ := ht'
    rw [ofGpsWeek_total, uniq hw hw', uniq hsw hsw']

/-- C17: a well formed record of any system, followed by anything, is decoded completely: every
number is stored at its payload index in payload units (none outside the 31 elements), the other
payload elements keep their values, and the stream is left right behind the record.  The
indeterminate content of the line array has no influence. -/
theorem C17_record (dateOf : List Char → Res DateTime) (junk : List Char) (f : NavFrame) (s : Stream)
    (r : NavItem) (tail : List Char) (hr : r.WF dateOf) (hg : s.good = true)
    (hrest : s.rest = r.text ++ tail) (hlen : f.data.length = 31) :
    ∃ f', readNextRecord dateOf junk f s 0 = .ok ⟨0, f', s.adv r.text.length, 0⟩ ∧ Carries f' r ∧
      (∀ i, (∀ j < specLines r.sys, ∀ k < specCount r.sys j, i ≠ specIndex j k) → f'.data[i]? = f.data[i]?) := by
  obtain ⟨d', h1, h2, h3, h4⟩ := readBlock_record dateOf junk f s r.sys r.prn r.num r.lines tail r.toc hr.record
    hr.date hg hrest hlen
  unfold readNextRecord
  rw [peek_block hr.record.toIsBlock hg hrest]
  simp only
  unfold setFromRnx3
  rw [h1]
  simp only [Res.bind_ok, ne_eq, not_true_eq_false, if_false]
  by_cases hh : Handled r.sys
  · obtain ⟨d, e1, e2⟩ := toe2date_spec { f with sys := r.sys, toc := r.toc, prn := r.prn, data := d' } r rfl rfl
      hr.tocOk (fun j hj => h3 j (by omega)) hh hr.toe
    have hh' : r.sys = .gps ∨ r.sys = .glonass ∨ r.sys = .galileo ∨ r.sys = .beidou := hh
    simp only [if_pos hh', e1, Res.bind_ok, Res.pure_eq, Res.noexcept_ok]
    refine ⟨_, rfl, ⟨rfl, rfl, rfl, h2, h3, fun _ => e2⟩, h4⟩
  · have hh' : ¬ (r.sys = .gps ∨ r.sys = .glonass ∨ r.sys = .galileo ∨ r.sys = .beidou) := hh
    simp only [if_neg hh', Res.pure_eq, Res.noexcept_ok]
    refine ⟨_, rfl, ⟨rfl, rfl, rfl, h2, h3, fun h => absurd h hh⟩, h4⟩

/-- C17: every payload index a record of any system defines lies inside the 31 elements, and
different numbers have different indices. -/
theorem C17_indices_in_range (sys : SatSys) (j k : Nat) (hj : j < specLines sys) (hk : k < specCount sys j) :
    specIndex j k < 31 ∧ ∀ j' k', j' < specLines sys → k' < specCount sys j' →
      specIndex j k = specIndex j' k' → j = j' ∧ k = k' := by
  have h4 : ∀ j k, k < specCount sys j → k < 4 ∧ (j = 0 → k < 3) ∧ (j = 7 → k < 2) := by
    intro j k h; unfold specCount at h
    split at h
    · omega
    · split at h
      · omega
      · split at h
        · split at h <;> omega
        · omega
  have hl : specLines sys ≤ 8 := by cases sys <;> simp [specLines]
  have := h4 j k hk
  constructor
  · unfold specIndex; split <;> omega
  · intro j' k' hj' hk' he
    have := h4 j' k' hk'
    unfold specIndex at he
    split at he <;> split at he <;> omega

theorem char2double_len {e : Bool} {M N : Nat} {arr : List Char} {r : Bool × List Rat}
    (h : char2double e M N arr = .ok r) : r.2.length ≤ N := by
  induction N generalizing arr r e with
  | zero => simp [char2double] at h; simp [← h]
  | succ N ih =>
    unfold char2double at h
    rw [Res.bind_eq_ok] at h
    obtain ⟨x, _, h⟩ := h
    split at h
    · simp at h; simp [← h]
    · rw [Res.bind_eq_ok] at h
      obtain ⟨y, hy, h⟩ := h
      simp at h; have := ih hy; simp [← h]; omega

/-- The line array is terminated somewhere. -/
def Term (buf : List Char) : Prop := buf.length = 128 ∧ buf[127]? = some NUL

theorem getline_len (s : Stream) : (s.getline MAX_RECORD_CHARS).1.length ≤ 127 := by
  unfold Stream.getline
  split
  · simp only
    split
    · rename_i h
      split <;> simpa [MAX_RECORD_CHARS] using h
    · simp [MAX_RECORD_CHARS]
  · simp

theorem Term.fill {buf : List Char} (h : Term buf) (s : Stream) :
    Term (fillLine buf (s.getline MAX_RECORD_CHARS).1) := by
  have hl := getline_len s
  generalize (s.getline MAX_RECORD_CHARS).1 = l at *
  unfold fillLine
  constructor
  · simp [h.1]; omega
  · rw [List.getElem?_append_right hl]
    by_cases h127 : l.length = 127
    · simp [h127]
    · obtain ⟨m, hm⟩ : ∃ m, 127 - l.length = m + 1 := ⟨126 - l.length, by omega⟩
      rw [hm, List.getElem?_cons_succ, List.getElem?_drop]
      rw [show l.length + 1 + m = 127 by omega]; exact h.2

theorem Term.nul {buf : List Char} (h : Term buf) {k : Nat} (hk : k ≤ 127) : NUL ∈ buf.drop k := by
  rw [List.mem_iff_getElem?]
  exact ⟨127 - k, by rw [List.getElem?_drop, show k + (127 - k) = 127 by omega]; exact h.2⟩

theorem for2cpp_total {a : List Char} (h : NUL ∈ a) :
    ∃ b, for2cpp a = .ok b ∧ b.length = a.length ∧ ∀ i : Nat, a[i]? = some NUL → b[i]? = some NUL := by
  induction a with
  | nil => simp at h
  | cons c cs ih =>
    unfold for2cpp
    by_cases hc : c = NUL
    · exact ⟨c :: cs, by simp [hc], rfl, fun _ h => h⟩
    · rw [if_neg hc]
      have : NUL ∈ cs := by simpa [Ne.symm hc] using h
      obtain ⟨b, h1, h2, h3⟩ := ih this
      simp only [h1, Res.bind_ok, Res.pure_eq]
      refine ⟨_, rfl, by simp [h2], ?_⟩
      intro i hi
      cases i with
      | zero => simp at hi; exact absurd hi hc
      | succ i => simpa using h3 i (by simpa using hi)

theorem Term.for2cpp {buf : List Char} (h : Term buf) : ∃ b, for2cpp buf = .ok b ∧ Term b := by
  obtain ⟨b, h1, h2, h3⟩ := for2cpp_total (a := buf) (by simpa using h.nul (k := 0) (by omega))
  exact ⟨b, h1, h2.trans h.1, h3 _ h.2⟩

theorem char2double_total {e : Bool} {M N : Nat} {arr : List Char}
    (h : ∀ k < N, NUL ∈ arr.drop (M * k)) : ∃ r, char2double e M N arr = .ok r := by
  induction N generalizing arr e with
  | zero => exact ⟨_, rfl⟩
  | succ N ih =>
    have h0 := h 0 (by omega)
    simp only [Nat.mul_zero, List.drop_zero] at h0
    have hr := fun e => ih (e := e) (arr := arr.drop M) (fun k hk => by
      rw [List.drop_drop]; have := h (k + 1) (by omega)
      rwa [show M * (k + 1) = M + M * k by ring] at this)
    unfold char2double
    simp only [strtodA, h0, if_true, Res.bind_ok]
    split
    · exact ⟨_, rfl⟩
    · obtain ⟨r, hr⟩ := hr _
      exact ⟨_, by rw [hr]; rfl⟩

theorem char2double_bounded {e : Bool} {N : Nat} {buf : List Char} {off : Nat} (h : Term buf)
    (hb : off + 19 * N ≤ 140) : ∃ r, char2double e 19 N (buf.drop off) = .ok r ∧ r.2.length ≤ N := by
  obtain ⟨r, hr⟩ := char2double_total (e := e) (M := 19) (N := N) (arr := buf.drop off) (fun k hk => by
    rw [List.drop_drop]; exact h.nul (by omega))
  exact ⟨r, hr, char2double_len hr⟩

theorem orbitLines_total (sys : SatSys) (errno : Int) :
    ∀ (n ln : Nat) (buf : List Char) (f : NavFrame) (s : Stream), Term buf → f.data.length = 31 →
      3 + 4 * (ln + n) ≤ 31 →
      ∃ x, orbitLines sys errno n ln buf f s = .ok x ∧ Term x.2.1 ∧ x.2.2.1.data.length = 31 := by
  intro n
  induction n with
  | zero => intro ln buf f s h hd _; exact ⟨_, rfl, h, hd⟩
  | succ n ih =>
    intro ln buf f s h hd hb
    unfold orbitLines
    simp only
    split
    · exact ⟨_, rfl, h.fill s, hd⟩
    · obtain ⟨b, hb1, hb2⟩ := (h.fill s).for2cpp
      have h4 : recsOnLine sys ln ≤ 4 := by unfold recsOnLine; split <;> omega
      obtain ⟨r, hr, hrl⟩ := char2double_bounded (e := decide (errno ≠ 0)) (N := recsOnLine sys ln) (off := 4) hb2 (by omega)
      have hst := storeAt_ok (d := f.data) (vals := r.2) (off := 3 + ln * 4) (by omega)
      have hl := (storeAt_get hst).1
      simp only [hb1, Res.bind_ok, hr, hst]
      split
      · exact ih _ _ _ _ hb2 (by simpa [hd] using hl) (by omega)
      · exact ⟨_, rfl, hb2, by simpa [hd] using hl⟩

/-- C17: for every file content, every state of the stream and every previous frame, reading a block
never stores or reads outside the payload or the line array, provided the indeterminate line array
happens to be terminated (`char line[128]` is not initialised: without a terminator behind a too
short line the code does run off the array). -/
theorem C17_memory_safe (dateOf : List Char → Res DateTime) (junk : List Char) (f : NavFrame)
    (s : Stream) (errno : Int) (hdate : ∀ l, dateOf l ≠ .ub) (hj : Term junk)
    (hlen : f.data.length = 31) :
    readBlock dateOf junk f s errno ≠ .ub ∧
    ∀ o, readBlock dateOf junk f s errno = .ok o → o.frame.data.length = 31 := by
  have hbuf := hj.fill s
  unfold readBlock
  simp only
  split
  · constructor
    · simp
    · intro o ho; simp at ho; simp [← ho, hlen]
  · generalize fillLine junk (s.getline MAX_RECORD_CHARS).1 = buf at *
    generalize (s.getline MAX_RECORD_CHARS).2 = s1 at *
    obtain ⟨c, hc⟩ : ∃ c, getAt buf 0 = .ok c := ⟨_, getAt_lt (by rw [hbuf.1]; omega)⟩
    simp only [hc, Res.bind_ok]
    cases hsys : charToSatsys c with
    | ok sys =>
      obtain ⟨dt, hdt⟩ : ∃ dt, cstrOf (buf.drop 3) = .ok dt := by
        rcases cstrOf_total (buf.drop 3) with h | ⟨_, h⟩
        · exact h
        · exact absurd (hbuf.nul (by omega)) h
      have hst : strtolA (buf.drop 1) = .ok (strtol (buf.drop 1)) := by
        unfold strtolA; rw [if_pos (hbuf.nul (by omega))]
      simp only [Res.bind_ok, hdt]
      cases htoc : dateOf dt with
      | ok toc =>
        simp only [Res.bind_ok, hst]
        generalize (if strtolErr (strtol (buf.drop 1)) = true then ERANGE else errno) = errno2
        split
        · constructor
          · simp
          · intro o ho; simp at ho; simp [← ho, hlen]
        · obtain ⟨tl, ht1, ht2, ht3⟩ := for2cpp_total (hbuf.nul (k := 23) (by omega))
          have hb2 : Term (buf.take 23 ++ tl) := by
            constructor
            · rw [List.length_append, ht2, List.length_take, List.length_drop, hbuf.1]; omega
            · have h23 : (buf.take 23).length = 23 := by rw [List.length_take, hbuf.1]; omega
              rw [List.getElem?_append_right (by omega), h23]
              apply ht3
              rw [List.getElem?_drop]; exact hbuf.2
          simp only [ht1, Res.bind_ok]
          generalize buf.take 23 ++ tl = buf2 at *
          obtain ⟨r, hr, hrl⟩ := char2double_bounded (e := decide (errno2 ≠ 0)) (N := 3) (off := 23) hb2 (by omega)
          have hst0 := storeAt_ok (d := f.data) (vals := r.2) (off := 0) (by omega)
          have hl0 := (storeAt_get hst0).1
          simp only [hr, Res.bind_ok, hst0]
          generalize List.take 0 f.data ++ r.2 ++ List.drop (0 + r.2.length) f.data = d0 at *
          split
          · constructor
            · simp
            · intro o ho; simp at ho; simp [← ho, hl0, hlen]
          · split
            · constructor
              · simp
              · intro o ho; simp at ho; simp [← ho, hl0, hlen]
            · rename_i hlines
              have hm : sys ≠ .mixed := by intro h; subst h; simp [linesPerSatsys] at hlines
              obtain ⟨n, cc, hlps, _, hc4, hbnd, _, _⟩ := layout sys hm
              have hn : ((linesPerSatsys sys).1 - 1 - 1).toNat = n := by rw [hlps]; simp; omega
              obtain ⟨x, hx, hx1, hx2⟩ := orbitLines_total sys errno2 n 0 buf2
                { f with sys := sys, toc := toc, prn := toInt32 (strtolVal (strtol (buf.drop 1))), data := d0 }
                s1 hb2 (by simpa [hlen] using hl0) (by omega)
              simp only [hn, hx, Res.bind_ok]
              split
              · constructor
                · simp
                · intro o ho; simp at ho; simp [← ho, hx2]
              · constructor
                · simp
                · intro o ho; simp at ho; simp [← ho, hx2]
              · split
                · constructor
                  · simp
                  · intro o ho; simp at ho; simp [← ho, hx2]
                · obtain ⟨b3, hb31, hb32⟩ := (hx1.fill x.2.2.2).for2cpp
                  obtain ⟨r2, hr2, hrl2⟩ := char2double_bounded (e := decide (errno2 ≠ 0)) (N := cc) (off := 4) hb32 (by omega)
                  have hst2 := storeAt_ok (d := x.2.2.1.data) (vals := r2.2) (off := 3 + n * 4) (by omega)
                  have hl2 := (storeAt_get hst2).1
                  simp only [hb31, Res.bind_ok, hlps, hr2, hst2]
                  split
                  · constructor
                    · simp
                    · intro o ho; simp only [Res.pure_eq, Res.ok.injEq] at ho; rw [← ho]; exact hl2.trans hx2
                  · constructor
                    · simp
                    · intro o ho; simp only [Res.pure_eq, Res.ok.injEq] at ho; rw [← ho]
                      simp only
                      split
                      · rw [gloScale_length]; exact hl2.trans hx2
                      · exact hl2.trans hx2
      | throw e => simp
      | terminate => simp
      | ub => exact absurd htoc (hdate _)
      | diverge => simp
    | throw e => simp
    | terminate => simp
    | ub => exfalso; unfold charToSatsys at hsys; (repeat' split at hsys) <;> cases hsys
    | diverge => simp

/-! ## C18 -/

theorem peakSatsys_block {sys : SatSys} {ls : List (List Char)} (h : IsBlock sys ls) {s : Stream} {tail : List Char}
    (hg : s.good = true) (hr : s.rest = linesText ls ++ tail) : peakSatsys s = (0, sys, s) := by
  have hff : peekedEof (some (satsysToChar sys)) = false := by cases sys <;> rfl
  unfold peakSatsys
  simp only [peek_block h hg hr, hff, Bool.false_eq_true, if_false, Option.getD_some, charToSatsys_toChar]

theorem ignore_block {s : Stream} {sys : SatSys} {ls : List (List Char)} {tail : List Char}
    (hb : IsBlock sys ls) (hg : s.good = true) (hr : s.rest = linesText ls ++ tail) :
    ignoreNextBlock s = (0, s.adv (linesText ls).length) := by
  have hff : peekedEof (some (satsysToChar sys)) = false := by cases sys <;> rfl
  unfold ignoreNextBlock
  simp only [peek_block hb hg hr, hff, Bool.false_eq_true, if_false, Option.getD_some, charToSatsys_toChar,
    lines_eq_spec hb.notMixed]
  rw [← hb.count, skipLines_text ls tail s hg hr hb.fits]
  simp

/-- A record the search passes over. -/
def Passed (dateOf : List Char → Res DateTime) (accept : NavFrame → Res (Option Int)) (sys : SatSys)
    (r : NavItem) : Prop :=
  (r.sys ≠ sys ∧ IsBlock r.sys r.lines) ∨
  (r.sys = sys ∧ r.WF dateOf ∧ ∀ f, Carries f r → accept f = .ok none)

theorem findLoop_pass (dateOf : List Char → Res DateTime) (junk : Nat → List Char)
    (accept : NavFrame → Res (Option Int)) (sys : SatSys) (tail : List Char) (fuel : Nat) :
    ∀ (pre : List NavItem) (f : NavFrame) (s : Stream), (∀ p ∈ pre, Passed dateOf accept sys p) →
      s.good = true → s.rest = fileText pre ++ tail → f.data.length = 31 →
      ∃ f', f'.data.length = 31 ∧ findLoop dateOf junk accept sys (pre.length + fuel) f s 0 =
        findLoop dateOf junk accept sys fuel f' (s.adv (fileText pre).length) 0 := by
  intro pre
  induction pre with
  | nil => intro f s _ _ _ hl; exact ⟨f, hl, by simp [fileText]⟩
  | cons p pre ih =>
    intro f s hp hg hr hl
    have hr' : s.rest = linesText p.lines ++ (fileText pre ++ tail) := by
      rw [hr]; simp [fileText, NavItem.text]
    have hadv : (s.adv p.text.length).rest = fileText pre ++ tail := Stream.adv_rest_append hr'
    have hga : (s.adv p.text.length).good = true := by simpa using hg
    have hlen : (fileText (p :: pre)).length = p.text.length + (fileText pre).length := by simp [fileText]
    rw [show (p :: pre).length + fuel = (pre.length + fuel) + 1 by simp; omega]
    rcases hp p (by simp) with ⟨hne, hb⟩ | ⟨he, hwf, hacc⟩
    · obtain ⟨f', h1, h2⟩ := ih f (s.adv p.text.length) (fun q hq => hp q (by simp [hq])) hga hadv hl
      refine ⟨f', h1, ?_⟩
      rw [findLoop]
      simp only [peakSatsys_block hb hg hr', ne_eq, not_true_eq_false, if_false, if_neg hne, ignore_block hb hg hr']
      rw [show linesText p.lines = p.text from rfl, h2, hlen]; simp
    · obtain ⟨g, hg1, hg2, _⟩ := C17_record dateOf (junk s.pos) f s p (fileText pre ++ tail) hwf hg hr' hl
      obtain ⟨f', h1, h2⟩ := ih g (s.adv p.text.length) (fun q hq => hp q (by simp [hq])) hga hadv hg2.len
      refine ⟨f', h1, ?_⟩
      rw [findLoop]
      simp only [peakSatsys_block hwf.record.toIsBlock hg hr', ne_eq, not_true_eq_false, if_false, if_pos he, hg1,
        Res.bind_ok, hacc g hg2]
      rw [h2, hlen]; simp

theorem findLoop_hit (dateOf : List Char → Res DateTime) (junk : Nat → List Char)
    (accept : NavFrame → Res (Option Int)) (st : Int) (fuel : Nat) (f : NavFrame) (s : Stream)
    (r : NavItem) (tail : List Char) (hr : r.WF dateOf) (hg : s.good = true)
    (hrest : s.rest = r.text ++ tail) (hl : f.data.length = 31)
    (hacc : ∀ f, Carries f r → accept f = .ok (some st)) :
    ∃ f', Carries f' r ∧ findLoop dateOf junk accept r.sys (fuel + 1) f s 0 =
      .ok ⟨st, f', s.adv r.text.length, 0⟩ := by
  obtain ⟨g, hg1, hg2, _⟩ := C17_record dateOf (junk s.pos) f s r tail hr hg hrest hl
  refine ⟨g, hg2, ?_⟩
  rw [findLoop]
  simp only [peakSatsys_block hr.record.toIsBlock hg hrest, ne_eq, not_true_eq_false, if_false, if_true, hg1,
    Res.bind_ok, hacc g hg2, Res.pure_eq]

theorem findLoop_eof (dateOf : List Char → Res DateTime) (junk : Nat → List Char)
    (accept : NavFrame → Res (Option Int)) (sys : SatSys) (fuel : Nat) (f : NavFrame) (s : Stream)
    (hg : s.good = true) (hrest : s.rest = []) :
    findLoop dateOf junk accept sys (fuel + 1) f s 0 = .ok ⟨-1, f, s, 0⟩ := by
  rw [findLoop]
  have : peakSatsys s = (-1, .mixed, s) := by
    unfold peakSatsys
    simp only [Stream.peek_nil hg hrest, peekedEof, if_true]
    have := (Stream.good_iff s).1 hg
    cases s; simp_all [Stream.clear]
  simp [this]

theorem tellg_good {s : Stream} (hg : s.good = true) : s.tellg = (some s.pos, s) := by
  unfold Stream.tellg; rw [if_pos hg]

/-- Going back to the position reported by a search undoes it. -/
theorem rewind_adv (e : Nat) (s : Stream) (k : Nat) (hg : s.good = true) :
    navRewind e (s.adv k) (some s.pos) = s := by
  have := (Stream.good_iff s).1 hg
  cases s; simp_all [navRewind, Stream.seekg, Stream.adv]

/-- C18: in a file whose remaining text is `pre`, then the record `r`, then anything, where no record
of `pre` matches the request and `r` does, `find_next` reports success, the frame carries `r`, the
stream stands right behind `r`, and rewinding to the returned position restores the stream.
Records of other systems in `pre` need only have the right number of lines. -/
theorem C18_first_match (dateOf : List Char → Res DateTime) (junk : Nat → List Char) (fuel : Nat)
    (sys : SatSys) (prn : Int) (f : NavFrame) (s : Stream) (pre : List NavItem) (r : NavItem)
    (tail : List Char) (hg : s.good = true) (hrest : s.rest = fileText pre ++ (r.text ++ tail))
    (hl : f.data.length = 31)
    (hpre : ∀ p ∈ pre, (p.sys ≠ sys ∧ IsBlock p.sys p.lines) ∨
      (p.sys = sys ∧ p.WF dateOf ∧ prn ≠ -1 ∧ p.prn ≠ prn))
    (hr : r.WF dateOf) (hsys : r.sys = sys) (hprn : prn = -1 ∨ r.prn = prn) (hfuel : pre.length < fuel) :
    ∃ f' s', findNext dateOf junk fuel sys prn f s 0 = .ok (some s.pos, ⟨0, f', s', 0⟩) ∧
      Carries f' r ∧ s'.rest = tail ∧ s'.good = true ∧
      ∀ endOfHead, navRewind endOfHead s' (some s.pos) = s := by
  obtain ⟨m, rfl⟩ : ∃ m, fuel = pre.length + (m + 1) := ⟨fuel - pre.length - 1, by omega⟩
  obtain ⟨g, hgl, hloop⟩ := findLoop_pass dateOf junk (acceptPrn prn) sys (r.text ++ tail) (m + 1) pre f s
    (fun p hp => by
      rcases hpre p hp with h | ⟨h1, h2, h3, h4⟩
      · exact Or.inl h
      · refine Or.inr ⟨h1, h2, fun f hf => ?_⟩
        unfold acceptPrn
        rw [if_neg]
        rw [hf.prn]
        rintro (h | h)
        · exact h3 h
        · exact h4 h.symm) hg hrest hl
  obtain ⟨f', hc, hhit⟩ := findLoop_hit dateOf junk (acceptPrn prn) 0 m g (s.adv (fileText pre).length) r tail hr
    (by simpa using hg) (Stream.adv_rest_append hrest) hgl (fun f hf => by
      unfold acceptPrn
      rw [if_pos]
      rw [hf.prn]
      rcases hprn with h | h
      · exact Or.inl h
      · exact Or.inr h.symm)
  refine ⟨f', (s.adv (fileText pre).length).adv r.text.length, ?_, hc, ?_, by simpa using hg, ?_⟩
  · unfold findNext
    simp only [tellg_good hg]
    rw [hloop, ← hsys, hhit]
    rfl
  · exact Stream.adv_rest_append (Stream.adv_rest_append hrest)
  · intro e; rw [Stream.adv_adv]; exact rewind_adv e s _ hg

/-- C18: when no record of the rest of the file matches, `find_next` reports end of file (-1) and
leaves the stream usable, at its end. -/
theorem C18_none (dateOf : List Char → Res DateTime) (junk : Nat → List Char) (fuel : Nat)
    (sys : SatSys) (prn : Int) (f : NavFrame) (s : Stream) (pre : List NavItem)
    (hg : s.good = true) (hrest : s.rest = fileText pre) (hl : f.data.length = 31)
    (hpre : ∀ p ∈ pre, (p.sys ≠ sys ∧ IsBlock p.sys p.lines) ∨
      (p.sys = sys ∧ p.WF dateOf ∧ prn ≠ -1 ∧ p.prn ≠ prn)) (hfuel : pre.length < fuel) :
    ∃ f' s', findNext dateOf junk fuel sys prn f s 0 = .ok (some s.pos, ⟨-1, f', s', 0⟩) ∧
      s'.rest = [] ∧ s'.good = true ∧ ∀ endOfHead, navRewind endOfHead s' (some s.pos) = s := by
  obtain ⟨m, rfl⟩ : ∃ m, fuel = pre.length + (m + 1) := ⟨fuel - pre.length - 1, by omega⟩
  obtain ⟨g, hgl, hloop⟩ := findLoop_pass dateOf junk (acceptPrn prn) sys [] (m + 1) pre f s
    (fun p hp => by
      rcases hpre p hp with h | ⟨h1, h2, h3, h4⟩
      · exact Or.inl h
      · refine Or.inr ⟨h1, h2, fun f hf => ?_⟩
        unfold acceptPrn
        rw [if_neg]
        rw [hf.prn]
        rintro (h | h)
        · exact h3 h
        · exact h4 h.symm) hg (by simpa using hrest) hl
  have hend : (s.adv (fileText pre).length).rest = [] := Stream.adv_rest_append (b := []) (by simpa using hrest)
  refine ⟨g, s.adv (fileText pre).length, ?_, hend, by simpa using hg, fun e => rewind_adv e s _ hg⟩
  unfold findNext
  simp only [tellg_good hg]
  rw [hloop, findLoop_eof dateOf junk _ sys m g _ (by simpa using hg) hend]
  rfl

/-! ## C19 -/

theorem dataAt_val {f : NavFrame} {r : NavItem} (hc : Carries f r) {j k i : Nat} {v : Int}
    (hj : j < specLines r.sys) (hk : k < specCount r.sys j) (hi : specIndex j k = i) (h : r.IntAt j k v) :
    (do castInt (← dataAt f.data i)) = .ok v := by
  have := hc.data j hj k hk
  rw [h.1, hi] at this
  unfold dataAt
  rw [this]
  simp [castInt_int h.2.1 h.2.2]

theorem svHealth_spec {f : NavFrame} {r : NavItem} (hc : Carries f r) {h : Int} (hh : r.HealthIs h) :
    svHealth f = .ok h := by
  unfold HealthIs at hh
  unfold svHealth
  rw [hc.sys]
  split at hh
  · rename_i e; rw [e]; exact dataAt_val hc (by rw [e]; decide) (by rw [e]; decide) rfl hh
  · rename_i e; rw [e]; exact dataAt_val hc (by rw [e]; decide) (by rw [e]; decide) rfl hh
  · rename_i e; rw [e]; exact dataAt_val hc (by rw [e]; decide) (by rw [e]; decide) rfl hh
  · rename_i e; rw [e]; exact dataAt_val hc (by rw [e]; decide) (by rw [e]; decide) rfl hh
  · exact absurd hh (by simp)

theorem fitInterval_spec {f : NavFrame} {r : NavItem} (hc : Carries f r) {fit : Int} (hh : r.FitIs fit) :
    fitInterval f = .ok fit := by
  unfold FitIs at hh
  unfold fitInterval
  rw [hc.sys]
  split at hh
  · rename_i e; rw [e, hh]
  · rename_i e; rw [e]
    obtain ⟨hrs, h1, h2, h3, h4⟩ := hh
    have := dataAt_val (i := 28) hc (by rw [e]; decide) (by rw [e]; decide) rfl h1
    rw [Res.bind_eq_ok] at this
    obtain ⟨a, ha, hb⟩ := this
    simp only [gpsFitInterval, ha, Res.bind_ok, hb, Res.pure_eq]
    rw [toInt32_small (by omega) (by omega), h2]
  · rename_i e; rw [e, hh]
  · rename_i e; rw [e, hh]
  · exact absurd hh (by simp)

theorem HealthIs.unique {r : NavItem} {a b : Int} (ha : r.HealthIs a) (hb : r.HealthIs b) : a = b := by
  have u : ∀ {j k}, r.IntAt j k a → r.IntAt j k b → a = b := by
    intro j k h1 h2
    have := h1.1.symm.trans h2.1
    exact_mod_cast this
  unfold HealthIs at ha hb
  cases hs : r.sys <;> rw [hs] at ha hb <;> first | exact u ha hb | exact ha.elim

theorem FitIs.unique {r : NavItem} {a b : Int} (ha : r.FitIs a) (hb : r.FitIs b) : a = b := by
  unfold FitIs at ha hb
  cases hs : r.sys <;> rw [hs] at ha hb
  · obtain ⟨x, h1, h2, _⟩ := ha
    obtain ⟨y, g1, g2, _⟩ := hb
    have : x = y := by have := h1.1.symm.trans g1.1; exact_mod_cast this
    omega
  · exact ha.trans hb.symm
  · exact ha.elim
  · exact ha.trans hb.symm
  · exact ha.trans hb.symm
  · exact ha.elim
  · exact ha.elim
  · exact ha.elim

theorem HealthIs.handled {r : NavItem} {a : Int} (ha : r.HealthIs a) : Handled r.sys := by
  unfold HealthIs at ha
  unfold Handled
  split at ha <;> simp_all

open Classical in
/-- What the acceptance test of `find_next_valid` does with a well formed record. -/
theorem acceptValid_spec {dateOf : List Char → Res DateTime} {f : NavFrame} {r : NavItem} (hc : Carries f r)
    (hr : r.WFV dateOf) (t prn : Int) :
    acceptValid t r.sys prn f = .ok (if prn = r.prn then
      (if r.TooLate t then some (-1) else if r.ValidAt t then some 0 else none) else none) := by
  unfold acceptValid
  rw [hc.prn, hc.toc]
  by_cases hp : prn = r.prn
  · rw [if_pos hp, if_pos hp]
    simp only
    by_cases hlate : r.TooLate t
    · have : 1000 * r.toc.total > t ∧ 1000 * r.toc.total - t > 3600 * 4 * 1000 := by
        unfold TooLate at hlate; omega
      rw [if_pos this, if_pos hlate]
    · have : ¬ (1000 * r.toc.total > t ∧ 1000 * r.toc.total - t > 3600 * 4 * 1000) := by
        unfold TooLate at hlate; omega
      rw [if_neg this, if_neg hlate]
      obtain ⟨h, hh⟩ := hr.health
      obtain ⟨fit, hf⟩ := hr.fit
      simp only [svHealth_spec hc hh, Res.bind_ok]
      by_cases h0 : h = 0
      · subst h0
        rw [if_pos rfl]
        simp only [fitInterval_spec hc hf, Res.bind_ok]
        by_cases hglo : r.sys = .glonass
        · rw [if_neg (by simpa using hglo)]
          obtain ⟨toe, htoe⟩ := hr.toe
          rw [hc.toe (HealthIs.handled hh) toe htoe]
          congr 1
          by_cases hv : r.ValidAt t
          · rw [if_pos hv, if_pos]
            obtain ⟨_, fit', hf', hw⟩ := hv
            rw [if_pos hglo] at hw
            obtain ⟨toe', ht', hw1, hw2⟩ := hw
            have e1 := FitIs.unique hf hf'
            have e2 : toe = toe' := by
              rw [← hc.toe (HealthIs.handled hh) toe htoe, hc.toe (HealthIs.handled hh) toe' ht']
            subst e1; subst e2; omega
          · rw [if_neg hv, if_neg]
            intro hw
            exact hv ⟨hh, fit, hf, by rw [if_pos hglo]; exact ⟨toe, htoe, by omega, by omega⟩⟩
        · rw [if_pos hglo]
          congr 1
          by_cases hv : r.ValidAt t
          · rw [if_pos hv, if_pos]
            obtain ⟨_, fit', hf', hw⟩ := hv
            rw [if_neg hglo] at hw
            have e1 := FitIs.unique hf hf'
            subst e1; omega
          · rw [if_neg hv, if_neg]
            intro hw
            exact hv ⟨hh, fit, hf, by rw [if_neg hglo]; omega⟩
      · rw [if_neg h0]
        have hv : ¬ r.ValidAt t := fun hv => h0 (HealthIs.unique hh hv.1)
        rw [if_neg hv]
        rfl
  · rw [if_neg hp, if_neg hp]

/-- A record `find_next_valid` has to pass over: of another system, of another satellite, or of the
satellite but unhealthy or not in force at `t` (and not so late that the search stops). -/
def PassedValid (dateOf : List Char → Res DateTime) (t : Int) (sys : SatSys) (prn : Int) (p : NavItem) : Prop :=
  (p.sys ≠ sys ∧ IsBlock p.sys p.lines) ∨
  (p.sys = sys ∧ p.WFV dateOf ∧ (p.prn ≠ prn ∨ (¬ p.TooLate t ∧ ¬ p.ValidAt t)))

theorem PassedValid.passed {dateOf : List Char → Res DateTime} {t prn : Int} {sys : SatSys} {p : NavItem}
    (h : PassedValid dateOf t sys prn p) : Passed dateOf (acceptValid t sys prn) sys p := by
  rcases h with h | ⟨h1, h2, h3⟩
  · exact Or.inl h
  · refine Or.inr ⟨h1, h2.toWF, fun f hf => ?_⟩
    rw [← h1, acceptValid_spec hf h2]
    rcases h3 with h | ⟨h4, h5⟩
    · rw [if_neg (fun e => h e.symm)]
    · rw [if_neg h4, if_neg h5]; simp

/-- C19: `find_next_valid` returns the first record of the satellite that is healthy and in force at
the requested time; everything before it is passed over. -/
theorem C19_first_valid (dateOf : List Char → Res DateTime) (junk : Nat → List Char) (fuel : Nat) (t : Int)
    (sys : SatSys) (prn : Int) (f : NavFrame) (s : Stream) (pre : List NavItem) (r : NavItem)
    (tail : List Char) (hg : s.good = true) (hrest : s.rest = fileText pre ++ (r.text ++ tail))
    (hl : f.data.length = 31) (hpre : ∀ p ∈ pre, PassedValid dateOf t sys prn p)
    (hr : r.WFV dateOf) (hsys : r.sys = sys) (hprn : r.prn = prn) (hv : r.ValidAt t) (hn : ¬ r.TooLate t)
    (hfuel : pre.length < fuel) :
    ∃ f' s', findNextValid dateOf junk fuel t sys prn f s 0 = .ok (some s.pos, ⟨0, f', s', 0⟩) ∧
      Carries f' r ∧ s'.rest = tail ∧ s'.good = true ∧
      ∀ endOfHead, navRewind endOfHead s' (some s.pos) = s := by
  obtain ⟨m, rfl⟩ : ∃ m, fuel = pre.length + (m + 1) := ⟨fuel - pre.length - 1, by omega⟩
  obtain ⟨g, hgl, hloop⟩ := findLoop_pass dateOf junk (acceptValid t sys prn) sys (r.text ++ tail) (m + 1) pre f s
    (fun p hp => (hpre p hp).passed) hg hrest hl
  obtain ⟨f', hc, hhit⟩ := findLoop_hit dateOf junk (acceptValid t sys prn) 0 m g (s.adv (fileText pre).length) r tail
    hr.toWF (by simpa using hg) (Stream.adv_rest_append hrest) hgl (fun f hf => by
      rw [← hsys, acceptValid_spec hf hr, if_pos hprn.symm, if_neg hn, if_pos hv])
  refine ⟨f', (s.adv (fileText pre).length).adv r.text.length, ?_, hc, ?_, by simpa using hg, ?_⟩
  · unfold findNextValid
    simp only [tellg_good hg]
    rw [hloop, ← hsys]
    rw [← hsys] at hhit
    rw [hhit]
    rfl
  · exact Stream.adv_rest_append (Stream.adv_rest_append hrest)
  · intro e; rw [Stream.adv_adv]; exact rewind_adv e s _ hg

/-- C19: the search gives up (-1) exactly at the first record of the satellite whose time of clock is
more than four hours later than the requested time ... -/
theorem C19_gives_up_late (dateOf : List Char → Res DateTime) (junk : Nat → List Char) (fuel : Nat) (t : Int)
    (sys : SatSys) (prn : Int) (f : NavFrame) (s : Stream) (pre : List NavItem) (r : NavItem)
    (tail : List Char) (hg : s.good = true) (hrest : s.rest = fileText pre ++ (r.text ++ tail))
    (hl : f.data.length = 31) (hpre : ∀ p ∈ pre, PassedValid dateOf t sys prn p)
    (hr : r.WFV dateOf) (hsys : r.sys = sys) (hprn : r.prn = prn) (hn : r.TooLate t)
    (hfuel : pre.length < fuel) :
    ∃ f' s', findNextValid dateOf junk fuel t sys prn f s 0 = .ok (some s.pos, ⟨-1, f', s', 0⟩) ∧
      ∀ endOfHead, navRewind endOfHead s' (some s.pos) = s := by
  obtain ⟨m, rfl⟩ : ∃ m, fuel = pre.length + (m + 1) := ⟨fuel - pre.length - 1, by omega⟩
  obtain ⟨g, hgl, hloop⟩ := findLoop_pass dateOf junk (acceptValid t sys prn) sys (r.text ++ tail) (m + 1) pre f s
    (fun p hp => (hpre p hp).passed) hg hrest hl
  obtain ⟨f', hc, hhit⟩ := findLoop_hit dateOf junk (acceptValid t sys prn) (-1) m g (s.adv (fileText pre).length) r tail
    hr.toWF (by simpa using hg) (Stream.adv_rest_append hrest) hgl (fun f hf => by
      rw [← hsys, acceptValid_spec hf hr, if_pos hprn.symm, if_pos hn])
  refine ⟨f', (s.adv (fileText pre).length).adv r.text.length, ?_, ?_⟩
  · unfold findNextValid
    simp only [tellg_good hg]
    rw [hloop, ← hsys]
    rw [← hsys] at hhit
    rw [hhit]
    rfl
  · intro e; rw [Stream.adv_adv]; exact rewind_adv e s _ hg

/-- C19: ... or at the end of the file. -/
theorem C19_gives_up_eof (dateOf : List Char → Res DateTime) (junk : Nat → List Char) (fuel : Nat) (t : Int)
    (sys : SatSys) (prn : Int) (f : NavFrame) (s : Stream) (pre : List NavItem)
    (hg : s.good = true) (hrest : s.rest = fileText pre) (hl : f.data.length = 31)
    (hpre : ∀ p ∈ pre, PassedValid dateOf t sys prn p) (hfuel : pre.length < fuel) :
    ∃ f' s', findNextValid dateOf junk fuel t sys prn f s 0 = .ok (some s.pos, ⟨-1, f', s', 0⟩) ∧
      s'.rest = [] ∧ s'.good = true ∧ ∀ endOfHead, navRewind endOfHead s' (some s.pos) = s := by
  obtain ⟨m, rfl⟩ : ∃ m, fuel = pre.length + (m + 1) := ⟨fuel - pre.length - 1, by omega⟩
  obtain ⟨g, hgl, hloop⟩ := findLoop_pass dateOf junk (acceptValid t sys prn) sys [] (m + 1) pre f s
    (fun p hp => (hpre p hp).passed) hg (by simpa using hrest) hl
  have hend : (s.adv (fileText pre).length).rest = [] := Stream.adv_rest_append (b := []) (by simpa using hrest)
  refine ⟨g, s.adv (fileText pre).length, ?_, hend, by simpa using hg, fun e => rewind_adv e s _ hg⟩
  unfold findNextValid
  simp only [tellg_good hg]
  rw [hloop, findLoop_eof dateOf junk _ sys m g _ (by simpa using hg) hend]
  rfl

end Ggnss
