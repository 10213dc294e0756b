import Verif.Lemmas.Nav
import Mathlib.Tactic.NormNum
/-!
# C16–C21: reading, skipping and searching navigation records
-/
namespace Ggnss

/-! ## C16 -/

theorem orbitLines_skip (sys : SatSys) (errno : Int) :
    ∀ (n ln : Nat) (buf : List Char) (f : NavFrame) (s : Stream) (buf' : List Char) (f' : NavFrame) (s' : Stream),
      orbitLines sys errno n ln buf f s = .ok (none, buf', f', s') → skipLines n s = (true, s') := by
  intro n
  induction n with
  | zero => intro ln buf f s buf' f' s' h; simp [orbitLines] at h; simp [skipLines, h]
  | succ n ih =>
    intro ln buf f s buf' f' s' h
    unfold orbitLines at h
    simp only at h
    unfold skipLines
    split at h
    · simp at h
    · rename_i hf
      simp only [Res.bind_eq_ok] at h
      obtain ⟨b, _, r, _, d, _, h⟩ := h
      split at h
      · simp only [hf]; exact ih _ _ _ _ _ _ _ h
      · simp at h

theorem skipLines_add (m n : Nat) (s s' : Stream) (h : skipLines m s = (true, s')) :
    skipLines (m + n) s = skipLines n s' := by
  induction m generalizing s with
  | zero => simp [skipLines] at h; simp [h]
  | succ m ih =>
    rw [Nat.add_right_comm]
    have key : ∀ k t, skipLines (k + 1) t = if (t.getline MAX_RECORD_CHARS).2.fail then
        (false, (t.getline MAX_RECORD_CHARS).2) else skipLines k (t.getline MAX_RECORD_CHARS).2 := fun _ _ => rfl
    rw [key] at h ⊢
    split at h
    · simp at h
    · rename_i hf; rw [if_neg hf]; exact ih _ h

theorem charToSatsys_ne_ff {c : Char} {sys : SatSys} (h : charToSatsys c = .ok sys) : c ≠ '\xff' := by
  intro hc; subst hc; simp [charToSatsys] at h

theorem readBlock_skip {strptime : List Char → Res DateTime} {junk : List Char} {f : NavFrame}
    {s : Stream} {errno : Int} {o : NavOut} {c : Char} {tl : List Char}
    (hr : s.rest = c :: tl)
    (h : readBlock strptime junk f s errno = .ok o) (h0 : o.status = 0) :
    ∃ sys, charToSatsys c = .ok sys ∧ skipLines (linesPerSatsys sys).1.toNat s = (true, o.strm) ∧ o.frame.sys = sys ∧ sys ≠ .mixed := by
  unfold readBlock at h
  simp only at h
  split at h
  · simp at h; subst h; simp at h0
  · rename_i hf
    simp only [Res.bind_eq_ok] at h
    obtain ⟨c', hc', sys, hsys, dt, _, toc, _, p, _, h⟩ := h
    -- the first char of the line is the peeked char, or the line is empty and reading it throws
    have hf' : (s.getline MAX_RECORD_CHARS).2.fail = false := by simpa using hf
    obtain ⟨_, hnl, _, hcase⟩ := Stream.getline_ok (l := (s.getline MAX_RECORD_CHARS).1) rfl hf'
    have hcc : c' = c ∨ charToSatsys c' = .throw .runtime_error := by
      generalize (s.getline MAX_RECORD_CHARS).1 = l at *
      cases l with
      | nil => right; simp [getAt, fillLine] at hc'; subst hc'; rfl
      | cons x xs =>
        left
        simp [getAt, fillLine] at hc'
        subst hc'
        rcases hcase with ⟨h1, _⟩ | ⟨t, h1, _⟩
        · rw [hr] at h1; simp at h1; exact h1.1.symm
        · rw [hr] at h1; simp at h1; exact h1.1.symm
    rcases hcc with rfl | hth
    · refine ⟨sys, hsys, ?_⟩
      generalize (if strtolErr p = true then ERANGE else errno) = errno2 at h
      split at h
      · simp at h; subst h; simp at h0
      · simp only [Res.bind_eq_ok] at h
        obtain ⟨tail, _, r, _, d, _, h⟩ := h
        split at h
        · simp at h; subst h; simp at h0
        · split at h
          · simp at h; subst h; simp at h0
          · rename_i hlines
            simp only [Res.bind_eq_ok] at h
            obtain ⟨⟨st, buf', f', s'⟩, ho, h⟩ := h
            simp only at h
            split at h
            · simp at h; subst h; simp at h0
            · rename_i e hne5
              simp at h; subst h
              -- status 0 never comes out of the loop
              exfalso
              have : ∀ (n ln : Nat) (buf : List Char) (f : NavFrame) (s : Stream) x, orbitLines sys errno2
                  n ln buf f s = .ok x → x.1 ≠ some 0 := by
                intro n
                induction n with
                | zero => intro ln buf f s x hx; simp [orbitLines] at hx; simp [← hx]
                | succ n ih =>
                  intro ln buf f s x hx
                  unfold orbitLines at hx
                  simp only at hx
                  split at hx
                  · simp at hx; simp [← hx]
                  · simp only [Res.bind_eq_ok] at hx
                    obtain ⟨_, _, _, _, _, _, hx⟩ := hx
                    split at hx
                    · exact ih _ _ _ _ _ hx
                    · simp at hx; simp [← hx]
              apply this _ _ _ _ _ _ ho
              simp only at h0 ⊢
              rw [h0]
            · split at h
              · simp at h; subst h; simp at h0
              · rename_i hfl
                simp only [Res.bind_eq_ok] at h
                obtain ⟨b, _, r2, _, d2, _, h⟩ := h
                split at h
                · simp at h; subst h; simp at h0
                · simp at h
                  subst h
                  have hsk := orbitLines_skip _ _ _ _ _ _ _ _ _ _ ho
                  have hframe : f'.sys = sys := by
                    have : ∀ (n ln : Nat) (buf : List Char) (g : NavFrame) (s : Stream) e x, orbitLines sys e
                        n ln buf g s = .ok x → x.2.2.1.sys = g.sys := by
                      intro n
                      induction n with
                      | zero => intro ln buf g s e x hx; simp [orbitLines] at hx; simp [← hx]
                      | succ n ih =>
                        intro ln buf g s e x hx
                        unfold orbitLines at hx
                        simp only at hx
                        split at hx
                        · simp at hx; simp [← hx]
                        · simp only [Res.bind_eq_ok] at hx
                          obtain ⟨_, _, _, _, _, _, hx⟩ := hx
                          split at hx
                          · exact (ih _ _ _ _ _ _ hx).trans rfl
                          · simp at hx; simp [← hx]
                    exact this _ _ _ _ _ _ _ ho
                  refine ⟨?_, hframe, by rintro rfl; simp [linesPerSatsys] at hlines⟩
                  have hN : (linesPerSatsys sys).1.toNat = 1 + (((linesPerSatsys sys).1 - 1 - 1).toNat + 1) := by
                    cases sys <;> first | rfl | (simp [linesPerSatsys] at hlines)
                  rw [hN]
                  have h1 : skipLines 1 s = (true, (s.getline MAX_RECORD_CHARS).2) := by
                    simp [skipLines, hf']
                  rw [skipLines_add 1 _ _ _ h1, skipLines_add _ 1 _ _ hsk]
                  simp [skipLines, hfl]
    · rw [hth] at hsys; cases hsys

/-- C16: whatever the bytes of the stream, whenever reading the next record succeeds, skipping it
instead succeeds too and leaves the stream in exactly the same state. -/
theorem C16_skip_like_read (strptime : List Char → Res DateTime) (junk : List Char) (f : NavFrame)
    (s : Stream) (errno : Int) (o : NavOut)
    (h : readNextRecord strptime junk f s errno = .ok o) (h0 : o.status = 0) :
    ignoreNextBlock s = (0, o.strm) := by
  unfold readNextRecord at h
  split at h
  · rename_i c s' hp
    obtain ⟨rfl, hg, tl, hr⟩ := Stream.peek_some hp
    unfold setFromRnx3 at h
    rw [Res.noexcept_eq_ok, Res.bind_eq_ok] at h
    obtain ⟨o1, ho1, h⟩ := h
    have h1 : o1.status = 0 ∧ o.strm = o1.strm := by
      split at h
      · rename_i hne; simp at h; subst h; exact absurd h0 hne
      · rename_i hne
        split at h
        · rw [Res.bind_eq_ok] at h
          obtain ⟨toe, _, h⟩ := h
          simp at h; subst h; exact ⟨by simpa using hne, rfl⟩
        · simp at h; subst h; exact ⟨h0, rfl⟩
    obtain ⟨sys, hsys, hskip, _⟩ := readBlock_skip hr ho1 h1.1
    have hff : peekedEof (some c) = false := by
      simp [peekedEof, charToSatsys_ne_ff hsys]
    unfold ignoreNextBlock
    simp only [hp, hff, Bool.false_eq_true, if_false, Option.getD_some, hsys, hskip, if_true, h1.2]
  · split at h
    · simp at h; subst h; simp at h0
    · simp at h; subst h; simp at h0

theorem skipLines_text (ls : List (List Char)) (tail : List Char) (s : Stream) (hg : s.good = true)
    (hr : s.rest = linesText ls ++ tail) (hok : ∀ l ∈ ls, LineOK l) :
    skipLines ls.length s = (true, s.adv (linesText ls).length) := by
  induction ls generalizing s with
  | nil => simp [skipLines, linesText]
  | cons l ls ih =>
    have hl := hok l (by simp)
    rw [linesText_cons] at hr
    have hgl := Stream.getline_line (n := MAX_RECORD_CHARS) hg
      (l := l) (tail := linesText ls ++ tail) (by rw [hr]; simp) hl.1 (by simpa [MAX_RECORD_CHARS] using hl.2.2)
    have hfail : (s.adv (l.length + 1)).fail = false := by
      rw [Stream.adv_fail]; exact ((Stream.good_iff s).1 hg).2
    have hrest' : (s.adv (l.length + 1)).rest = linesText ls ++ tail := by
      have : s.rest = (l ++ ['\n']) ++ (linesText ls ++ tail) := by rw [hr]; simp
      simpa using Stream.adv_rest_append this
    have := ih (s.adv (l.length + 1)) (by simpa using hg) hrest' (fun x hx => hok x (by simp [hx]))
    simp only [List.length_cons, skipLines, hgl, hfail, Bool.false_eq_true, if_false, this]
    rw [linesText_cons]
    simp only [Stream.adv_adv, List.length_append, List.length_cons]
    congr 2; omega

theorem block_head {sys : SatSys} {ls : List (List Char)} (h : IsBlock sys ls) (tail : List Char) :
    ∃ tl, linesText ls ++ tail = satsysToChar sys :: tl := by
  have hc := h.count
  cases ls with
  | nil => exfalso; have := h.notMixed; cases sys <;> simp [specLines] at hc this
  | cons l ls =>
    have := h.letter l rfl
    cases l with
    | nil => simp at this
    | cons x xs =>
      simp at this; subst this
      exact ⟨_, by simp [linesText]; rfl⟩

theorem charToSatsys_toChar (sys : SatSys) : charToSatsys (satsysToChar sys) = .ok sys := by
  cases sys <;> rfl

theorem peek_block {sys : SatSys} {ls : List (List Char)} (h : IsBlock sys ls) {s : Stream} {tail : List Char}
    (hg : s.good = true) (hr : s.rest = linesText ls ++ tail) : s.peek = (some (satsysToChar sys), s) := by
  obtain ⟨tl, ht⟩ := block_head h tail
  exact Stream.peek_cons hg (hr.trans ht)

theorem lines_eq_spec {sys : SatSys} (h : sys ≠ .mixed) : (linesPerSatsys sys).1.toNat = specLines sys := by
  cases sys <;> simp_all [linesPerSatsys, specLines]

/-- C16: skipping consumes exactly the lines of the record (the number of lines prescribed by the
format for its system), for any text in them. -/
theorem C16_skip_block (s : Stream) (sys : SatSys) (ls : List (List Char)) (tail : List Char)
    (hb : IsBlock sys ls) (hg : s.good = true) (hr : s.rest = linesText ls ++ tail) :
    ∃ s', ignoreNextBlock s = (0, s') ∧ s'.rest = tail ∧ s'.good = true := by
  refine ⟨s.adv (linesText ls).length, ?_, Stream.adv_rest_append hr, by simpa using hg⟩
  have hff : peekedEof (some (satsysToChar sys)) = false := by cases sys <;> rfl
  unfold ignoreNextBlock
  simp only [peek_block hb hg hr, hff, Bool.false_eq_true, if_false, Option.getD_some, charToSatsys_toChar,
    lines_eq_spec hb.notMixed]
  rw [← hb.count, skipLines_text ls tail s hg hr hb.fits]
  simp

end Ggnss
