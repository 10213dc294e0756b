import Verif.Spec.BernSound
import Verif.Lemmas.NumText
import Verif.Props.Bern
/-!
# C98: whatever a SATELLIT file answers stands in it
-/
namespace Ggnss

theorem bernStop_inv {strptime : List Char → Res DateTime} {l tail : List Char} : ∀ (n i : Nat) (x : Option DateTime), i + n ≤ l.length →
    bernStop strptime (l ++ NUL :: tail) n i = .ok x →
    (x = none ∧ BlankCols l i (i + n)) ∨ (∃ d, x = some d ∧ strptime ((l ++ NUL :: tail).drop 62) = .ok d ∧ ¬ BlankCols l i (i + n)) := by
  intro n
  induction n with
  | zero =>
    intro i x _ h
    cases h
    exact Or.inl ⟨rfl, fun j h1 h2 => absurd h2 (by omega)⟩
  | succ n ih =>
    intro i x hi h
    rw [bernStop] at h
    have hlt : i < (l ++ NUL :: tail).length := by simp; omega
    rw [getAt_lt hlt, Res.bind_ok, List.getElem_append_left (by omega)] at h
    have hget : l[i]? = some (l[i]'(by omega)) := List.getElem?_eq_getElem (by omega)
    split at h
    · rename_i hc
      obtain ⟨d, hd, h⟩ := Res.bind_eq_ok.1 h
      cases h
      right
      refine ⟨d, rfl, hd, fun hb => hc ?_⟩
      have := hb i (by omega) (by omega)
      rw [hget] at this
      exact Option.some.inj this
    · rename_i hc
      push Not at hc
      rcases ih (i + 1) x (by omega) h with ⟨h1, h2⟩ | ⟨d, h1, h2, h3⟩
      · left
        refine ⟨h1, fun j h3 h4 => ?_⟩
        by_cases hj : j = i
        · rw [hj, hget, hc]
        · exact h2 j (by omega) (by omega)
      · right
        exact ⟨d, h1, h2, fun hb => h3 (fun j h4 h5 => hb j (by omega) (by omega))⟩

/-- `strtolA` on a line. -/
theorem strtolA_line {l tail : List Char} {off : Nat} (ho : off ≤ l.length) : strtolA ((l ++ NUL :: tail).drop off) = .ok (strtol (l.drop off ++ NUL :: tail)) := by
  rw [List.drop_append_of_le_length ho]
  unfold strtolA
  rw [if_pos (by simp)]

theorem strtol_text (t tail : List Char) :
    (strtol (t ++ NUL :: tail) = none ∧ ∀ v, ¬ IntBegins t v) ∨
    (∃ v r, strtol (t ++ NUL :: tail) = some (v, r, false) ∧ IntBegins t v ∧ v ≤ 9223372036854775807 ∧ -9223372036854775808 ≤ v) ∨
    (∃ w r, strtol (t ++ NUL :: tail) = some (w, r, true) ∧ BeyondLong t) := by
  cases h : strtol (t ++ NUL :: tail) with
  | none => exact Or.inl ⟨rfl, fun v hv => strtol_not_begins h v (hv.nul _)⟩
  | some x =>
    obtain ⟨v, r, er⟩ := x
    cases er with
    | false =>
      right; left
      refine ⟨v, r, rfl, IntBegins.of_nul (strtol_begins h), ?_⟩
      have h2 := strtol_of_then (strtol_then h)
      rw [h] at h2
      have e1 : LONG_MAX = 9223372036854775807 := rfl
      have e2 : LONG_MIN = -9223372036854775808 := rfl
      by_cases h3 : v > LONG_MAX
      · rw [if_pos h3] at h2; simp at h2
      · rw [if_neg h3] at h2
        by_cases h4 : v < LONG_MIN
        · rw [if_pos h4] at h2; simp at h2
        · omega
    | true =>
      right; right
      obtain ⟨w, h1, h2⟩ := strtol_big h
      exact ⟨v, r, rfl, w, IntBegins.of_nul h1, h2⟩

/-- A line that is not taken leaves everything as it is, and is not in force; what a line that is taken says. -/
theorem bernLine_text {strptime : List Char → Res DateTime} (hst : ReadsText strptime) {l tail : List Char} (hl : RecordLine l) {svn : Int} {eph : DateTime}
    {ifrqn prn errno : Int} (he : errno ≠ ERANGE) {r : Int ⊕ (Int × Int × Int × Int)}
    (h : bernLine strptime svn eph ifrqn prn (l ++ NUL :: tail) errno = .ok r) :
    (r = .inl errno ∧ PassedOver strptime l svn eph) ∨
    (∃ e, r = .inr (2, ifrqn, prn, e) ∧ BadNumberLine l) ∨
    (∃ fr pr e, r = .inr (0, fr, pr, e) ∧ InForceLine strptime l svn eph ∧ IntOrZero l pr ∧ IntOrZero (l.drop 193) fr ∧ ¬ BeyondLong l ∧ ¬ BeyondLong (l.drop 193)) ∨
    (∃ fr pr e, r = .inr (3, fr, pr, e) ∧ InForceLine strptime l svn eph ∧ (BeyondLong l ∨ BeyondLong (l.drop 193))) := by
  obtain ⟨⟨_, hnul, _⟩, h194, _⟩ := hl
  have h5 : 5 < (l ++ NUL :: tail).length := by simp; omega
  have h6 : 6 < (l ++ NUL :: tail).length := by simp; omega
  unfold bernLine at h
  rw [getAt_lt h5, Res.bind_ok, getAt_lt h6, Res.bind_ok, List.getElem_append_left (by omega), List.getElem_append_left (by omega)] at h
  have g5 : l[5]? = some (l[5]'(by omega)) := List.getElem?_eq_getElem (by omega)
  have g6 : l[6]? = some (l[6]'(by omega)) := List.getElem?_eq_getElem (by omega)
  by_cases hmw : l[5]'(by omega) = 'M' ∧ l[6]'(by omega) = 'W'
  swap
  · rw [if_neg hmw] at h
    cases h
    have hno : ¬ (l[5]? = some 'M' ∧ l[6]? = some 'W') := by
      rintro ⟨m1, m2⟩
      rw [g5] at m1; rw [g6] at m2
      exact hmw ⟨Option.some.inj m1, Option.some.inj m2⟩
    exact Or.inl ⟨rfl, fun hf => hno hf.mw, fun hb => hno ⟨hb.1, hb.2.1⟩⟩
  rw [if_pos hmw] at h
  have m5 : l[5]? = some 'M' := by rw [g5, hmw.1]
  have m6 : l[6]? = some 'W' := by rw [g6, hmw.2]
  rw [strtolA_line (by omega), Res.bind_ok] at h
  have hbad : ∀ {p : Option (Int × List Char × Bool)}, (p = none ∨ strtolErr p = true) → ((if strtolErr p = true then ERANGE else errno) = ERANGE ∨ p = none) := by
    intro p hp
    rcases hp with hp | hp
    · exact Or.inr hp
    · left; rw [if_pos hp]
  rcases strtol_text (l.drop 28) tail with ⟨hs, hno⟩ | ⟨v, rv, hs, hv, hv1, hv2⟩ | ⟨w, rw', hs, hbig⟩
  · rw [hs, if_pos (hbad (Or.inl rfl))] at h
    cases h
    exact Or.inr (Or.inl ⟨_, rfl, m5, m6, Or.inl hno⟩)
  swap
  · rw [hs, if_pos (hbad (Or.inr rfl))] at h
    cases h
    exact Or.inr (Or.inl ⟨_, rfl, m5, m6, Or.inr hbig⟩)
  rw [hs] at h
  simp only [strtolErr, strtolVal, Bool.false_eq_true, if_false] at h
  rw [if_neg (by simp [he])] at h
  have hgood : ¬ BadNumberLine l := by
    rintro ⟨_, _, hn | ⟨w, hw, hb⟩⟩
    · exact hn v hv
    · rw [← hv.unique hw] at hb
      omega
  by_cases hsv : toInt32 v = svn
  swap
  · rw [if_neg hsv] at h
    cases h
    refine Or.inl ⟨rfl, fun hf => hsv ?_, hgood⟩
    obtain ⟨v', hv', _, _, hsv'⟩ := hf.number
    rw [hv.unique hv']; exact hsv'
  rw [if_pos hsv] at h
  obtain ⟨start, hstart, h⟩ := Res.bind_eq_ok.1 h
  obtain ⟨stop, hstop, h⟩ := Res.bind_eq_ok.1 h
  rw [List.drop_append_of_le_length (by omega), hst _ _ (fun hn => hnul (List.mem_of_mem_drop hn))] at hstart
  have hstop := bernStop_inv 20 62 stop (by omega) hstop
  rw [List.drop_append_of_le_length (by omega), hst _ _ (fun hn => hnul (List.mem_of_mem_drop hn))] at hstop
  by_cases hin : start.total ≤ eph.total ∧ beforeStop eph stop = true
  swap
  · rw [if_neg hin] at h
    cases h
    refine Or.inl ⟨rfl, fun hf => hin ?_, hgood⟩
    obtain ⟨d, hd, hle⟩ := hf.start
    rw [hstart] at hd
    cases hd
    refine ⟨hle, ?_⟩
    rcases hstop with ⟨rfl, _⟩ | ⟨d, rfl, hd, hb⟩
    · rfl
    · rcases hf.stop with hbl | ⟨_, e, he2, hlt⟩
      · exact absurd hbl hb
      · rw [hd] at he2
        cases he2
        simpa [beforeStop] using hlt
  rw [if_pos hin] at h
  have hforce : InForceLine strptime l svn eph := by
    refine ⟨⟨m5, m6⟩, ⟨v, hv, hv1, hv2, hsv⟩, ⟨start, hstart, hin.1⟩, ?_⟩
    rcases hstop with ⟨_, hb⟩ | ⟨d, rfl, hd, hb⟩
    · exact Or.inl hb
    · exact Or.inr ⟨hb, d, hd, by simpa [beforeStop] using hin.2⟩
  have hq := strtolA_line (l := l) (tail := tail) (off := 0) (by omega)
  rw [List.drop_zero, List.drop_zero] at hq
  rw [hq, Res.bind_ok, strtolA_line (by omega), Res.bind_ok] at h
  have hzero : ∀ t : List Char, strtolErr (strtol (t ++ NUL :: tail)) = false → IntOrZero t (toInt32 (strtolVal (strtol (t ++ NUL :: tail)))) ∧ ¬ BeyondLong t := by
    intro t ht
    rcases strtol_text t tail with ⟨h1, h2⟩ | ⟨x, r, h1, h2, h3, h4⟩ | ⟨w, r, h1, h2⟩
    · rw [h1]
      exact ⟨Or.inr ⟨h2, rfl⟩, fun ⟨x, hx, _⟩ => h2 x hx⟩
    · rw [h1]
      refine ⟨Or.inl ⟨x, h2, rfl⟩, fun ⟨y, hy, hb⟩ => ?_⟩
      rw [← h2.unique hy] at hb
      omega
    · rw [h1] at ht; cases ht
  have hone : ∀ t : List Char, strtolErr (strtol (t ++ NUL :: tail)) = true → BeyondLong t := by
    intro t ht
    rcases strtol_text t tail with ⟨h1, h2⟩ | ⟨x, r, h1, h2, h3, h4⟩ | ⟨w, r, h1, h2⟩
    · rw [h1] at ht; cases ht
    · rw [h1] at ht; cases ht
    · exact h2
  cases e1 : strtolErr (strtol (l ++ NUL :: tail)) <;> cases e2 : strtolErr (strtol (l.drop 193 ++ NUL :: tail))
  all_goals
    have e1' := e1
    have e2' := e2
    unfold strtolErr at e1' e2'
    rw [e1', e2'] at h
    simp only [Bool.false_eq_true, if_false, if_true] at h
  · rw [if_neg he] at h
    cases h
    obtain ⟨a1, a2⟩ := hzero _ e1
    obtain ⟨b1, b2⟩ := hzero _ e2
    exact Or.inr (Or.inr (Or.inl ⟨_, _, _, rfl, hforce, a1, b1, a2, b2⟩))
  all_goals
    cases h
    refine Or.inr (Or.inr (Or.inr ⟨_, _, _, rfl, hforce, ?_⟩))
    first
      | exact Or.inl (hone _ e1)
      | exact Or.inr (hone _ e2)

theorem bernLoop_text {strptime : List Char → Res DateTime} (hst : ReadsText strptime) {svn : Int} {eph : DateTime} {ifrqn prn : Int}
    {e : BernEnd} (hee : e.WF) {errno : Int} (he : errno ≠ ERANGE) :
    ∀ (lim : Nat) (l : List Char) (ls : List (List Char)), (∀ q ∈ l :: ls, RecordLine q) →
    ∀ (buf : List Char) (s : Stream) (o : BernOut), s.good = true → s.rest = linesText ls ++ e.text →
    bernLoop strptime svn eph ifrqn prn lim (fillLine buf l) s errno = .ok o →
    BernAnswerOf strptime (l :: ls) lim svn eph ifrqn prn o.status o.ifrqn o.prn := by
  intro lim
  induction lim with
  | zero =>
    intro l ls _ buf s o _ _ h
    cases h
    exact .absent (fun i hi => absurd hi (Nat.not_lt_zero i))
  | succ lim ih =>
    intro l ls hw buf s o hg hr h
    rw [bernLoop] at h
    obtain ⟨r, hrl, h⟩ := Res.bind_eq_ok.1 h
    have none_before : ∀ j < 0, ∀ q, (l :: ls)[j]? = some q → PassedOver strptime q svn eph := fun j hj => absurd hj (Nat.not_lt_zero j)
    rcases bernLine_text hst (hw l (by simp)) he hrl with ⟨rfl, hno⟩ | ⟨e', rfl, g1⟩ | ⟨fr, pr, e', rfl, g1, g2, g3, g4, g5⟩ | ⟨fr, pr, e', rfl, g1, g2⟩
    · simp only at h
      have last : o.status = -1 → o.ifrqn = ifrqn → o.prn = prn → ls = [] → BernAnswerOf strptime (l :: ls) (lim + 1) svn eph ifrqn prn o.status o.ifrqn o.prn := by
        intro h1 h2 h3 h4
        rw [h1, h2, h3, h4]
        refine .absent (fun i _ q hq => ?_)
        cases i with
        | zero => simp only [List.getElem?_cons_zero, Option.some.injEq] at hq; rw [← hq]; exact hno
        | succ i => simp at hq
      cases ls with
      | nil =>
        cases e with
        | short x rest =>
          have hgl := Stream.getline_line (n := MAX_SATELLIT_CHARS) hg (l := x) (tail := rest) (by rw [hr]; simp [BernEnd.text, linesText]) hee.1.1 hee.1.2.2
          simp only [hgl, cstrOf_fill hee.1.2.1, Res.bind_ok, strncmpEq_line (pat := c!"PART 3") 6 hee.1.2.1 (by decide)] at h
          rw [if_pos (Or.inl hee.2)] at h
          cases h
          exact last rfl rfl rfl rfl
        | part3 x rest =>
          have hgl := Stream.getline_line (n := MAX_SATELLIT_CHARS) hg (l := x) (tail := rest) (by rw [hr]; simp [BernEnd.text, linesText]) hee.1.1 hee.1.2.2
          simp only [hgl, cstrOf_fill hee.1.2.1, Res.bind_ok, strncmpEq_line (pat := c!"PART 3") 6 hee.1.2.1 (by decide)] at h
          have h3 : (decide (List.take 6 c!"PART 3" = List.take 6 x)) = true := by rw [hee.2]; rfl
          rw [if_pos (Or.inr h3)] at h
          cases h
          exact last rfl rfl rfl rfl
        | eof =>
          have hgl := Stream.getline_last (n := MAX_SATELLIT_CHARS) hg (l := []) (by rw [hr]; simp [BernEnd.text, linesText]) (by simp) (by simp)
          have hnn : NUL ∉ ([] : List Char) := by simp
          simp only [hgl, cstrOf_fill hnn, Res.bind_ok, strncmpEq_line (pat := c!"PART 3") 6 hnn (by decide)] at h
          rw [if_pos (Or.inl (by simp))] at h
          cases h
          exact last rfl rfl rfl rfl
      | cons l2 ls =>
        have hw2 := hw l2 (by simp)
        obtain ⟨hf2, h194, hp3⟩ := hw2
        have hr2 : s.rest = l2 ++ '\n' :: (linesText ls ++ e.text) := by rw [hr, linesText_cons]; simp
        have hgl := Stream.getline_line (n := MAX_SATELLIT_CHARS) hg hr2 hf2.1 hf2.2.2
        simp only [hgl, cstrOf_fill hf2.2.1, Res.bind_ok, strncmpEq_line (pat := c!"PART 3") 6 hf2.2.1 (by decide)] at h
        have h3 : (decide (List.take 6 c!"PART 3" = List.take 6 l2)) = false := by
          rw [decide_eq_false_iff_not]
          intro h
          exact hp3 h.symm
        rw [if_neg (by rw [h3]; simp; omega)] at h
        have hrest : (s.adv (l2.length + 1)).rest = linesText ls ++ e.text := by
          have := Stream.adv_rest_append (s := s) (a := l2 ++ ['\n']) (b := linesText ls ++ e.text) (by rw [hr2]; simp)
          simpa using this
        have hrec := ih l2 ls (fun q hq => hw q (by simp at hq ⊢; right; exact hq)) (fillLine buf l) (s.adv (l2.length + 1)) o hg hrest h
        have shift : ∀ i, (∀ j < i, ∀ q, (l2 :: ls)[j]? = some q → PassedOver strptime q svn eph) →
            ∀ j < i + 1, ∀ q, (l :: l2 :: ls)[j]? = some q → PassedOver strptime q svn eph := by
          intro i hb j hj q hq
          cases j with
          | zero => simp only [List.getElem?_cons_zero, Option.some.injEq] at hq; rw [← hq]; exact hno
          | succ j => exact hb j (by omega) q (by simpa using hq)
        generalize hst0 : o.status = st at hrec ⊢
        generalize hfr0 : o.ifrqn = fr' at hrec ⊢
        generalize hpr0 : o.prn = pr' at hrec ⊢
        cases hrec with
        | found i x fr pr hi hx k1 k2 k3 k4 k5 k6 => exact .found (i + 1) x _ _ (by omega) (by simpa using hx) k1 (shift i k2) k3 k4 k5 k6
        | absent k1 => exact .absent (shift lim k1)
        | badNumber i x hi hx k1 k2 => exact .badNumber (i + 1) x (by omega) (by simpa using hx) k1 (shift i k2)
        | badAnswer i x fr pr hi hx k1 k2 k3 => exact .badAnswer (i + 1) x _ _ (by omega) (by simpa using hx) k1 (shift i k2) k3
    · cases h
      exact .badNumber 0 l (by omega) rfl g1 none_before
    · cases h
      exact .found 0 l _ _ (by omega) rfl g1 none_before g2 g3 g4 g5
    · cases h
      exact .badAnswer 0 l _ _ (by omega) rfl g1 none_before g2

/-- **C98**.  The records of a SATELLIT file may be any lines of 194 to 255 characters.  Whatever a lookup returns is what the lines say: a PRN and a channel (status 0)
only if they stand in the first of the first thousand lines that is a micro-wave record of the satellite in force at the epoch; -1 only if there is
none, with the caller's variables untouched; 2 and 3 only if a number on such a line cannot be read. -/
theorem C98_lookup {strptime : List Char → Res DateTime} (hst : ReadsText strptime) (ls : List (List Char)) (hne : ls ≠ []) (hw : ∀ l ∈ ls, RecordLine l)
    {e : BernEnd} (hee : e.WF) {svn : Int} {eph : DateTime} {ifrqn prn : Int} {junk : List Char} {part2 : Nat} {s : Stream} (hs : s.fail = false)
    (hc : s.content.drop part2 = linesText ls ++ e.text) {errno : Int} (he : errno ≠ ERANGE) {o : BernOut}
    (h : getFrequencyChannel strptime junk part2 svn eph ifrqn prn s errno = .ok o) :
    BernAnswerOf strptime ls 1000 svn eph ifrqn prn o.status o.ifrqn o.prn := by
  cases ls with
  | nil => exact absurd rfl hne
  | cons l ls =>
    have hf := (hw l (by simp)).1
    have hsk : s.seekg part2 = ⟨s.content, part2, false, false⟩ := by
      unfold Stream.seekg; rw [hs]; simp
    have hg : (⟨s.content, part2, false, false⟩ : Stream).good = true := rfl
    have hr : (⟨s.content, part2, false, false⟩ : Stream).rest = l ++ '\n' :: (linesText ls ++ e.text) := by
      show s.content.drop part2 = _
      rw [hc, linesText_cons]; simp
    have hgl := Stream.getline_line (n := MAX_SATELLIT_CHARS) hg hr hf.1 hf.2.2
    have hrest := Stream.adv_rest_append (s := ⟨s.content, part2, false, false⟩) (a := l ++ ['\n']) (b := linesText ls ++ e.text) (by rw [hr]; simp)
    unfold getFrequencyChannel at h
    rw [hsk] at h
    simp only [hgl] at h
    exact bernLoop_text hst hee he 1000 l ls hw junk (Stream.adv ⟨s.content, part2, false, false⟩ (l.length + 1)) o hg (by simpa using hrest) h

/-- If the lines give a PRN and a channel, they give no other PRN, channel or status: `C98_lookup` leaves the lookup no choice. -/
theorem C98_determined {strptime : List Char → Res DateTime} {ls : List (List Char)} {lim : Nat} {svn : Int} {t : DateTime} {fr0 pr0 fr pr fr' pr' st : Int}
    (h : BernAnswerOf strptime ls lim svn t fr0 pr0 0 fr pr) (h' : BernAnswerOf strptime ls lim svn t fr0 pr0 st fr' pr') :
    st = 0 ∧ fr' = fr ∧ pr' = pr := by
  have iz : ∀ {t : List Char} {x y : Int}, IntOrZero t x → IntOrZero t y → x = y := by
    intro t x y hx hy
    rcases hx with ⟨v, hv, rfl⟩ | ⟨hn, rfl⟩ <;> rcases hy with ⟨w, hw, rfl⟩ | ⟨hm, rfl⟩
    · rw [hv.unique hw]
    · exact absurd hv (hm v)
    · exact absurd hw (hn w)
    · rfl
  cases h with
  | found i l _ _ hi hl k1 k2 k3 k4 k5 k6 =>
    have same : ∀ {j : Nat} {q : List Char}, ls[j]? = some q → InForceLine strptime q svn t → (∀ k < j, ∀ p, ls[k]? = some p → PassedOver strptime p svn t) → q = l := by
      intro j q hq hf hb
      have : j = i := by
        rcases Nat.lt_trichotomy j i with h | h | h
        · exact absurd hf (k2 j h q hq).1
        · exact h
        · exact absurd k1 (hb i h l hl).1
      subst this
      rw [hl] at hq
      exact (Option.some.inj hq).symm
    cases h' with
    | found j q _ _ hj hq m1 m2 m3 m4 m5 m6 =>
      have hql := same hq m1 m2
      subst hql
      exact ⟨rfl, iz m4 k4, iz m3 k3⟩
    | absent hno => exact absurd k1 (hno i hi l hl).1
    | badNumber j q hj hq m1 m2 =>
      have hji : j = i := by
        rcases Nat.lt_trichotomy j i with h | h | h
        · exact absurd m1 (k2 j h q hq).2
        · exact h
        · exact absurd k1 (m2 i h l hl).1
      rw [hji, hl] at hq
      obtain ⟨v, hv, hv1, hv2, _⟩ := k1.number
      rw [← Option.some.inj hq] at m1
      rcases m1.2.2 with hn | ⟨w, hw, hb⟩
      · exact absurd hv (hn v)
      · rw [← hv.unique hw] at hb
        omega
    | badAnswer j q _ _ hj hq m1 m2 m3 =>
      have hql := same hq m1 m2
      subst hql
      rcases m3 with h | h
      · exact absurd h k5
      · exact absurd h k6

end Ggnss
