import Verif.Spec.Sp3Sound
import Verif.Props.NavSound
import Verif.Props.Sp3Bad
/-! # C100: an SP3 epoch that was read stands in the file -/
namespace Ggnss

theorem charToSatsys_inv {c : Char} : (∃ sys, charToSatsys c = .ok sys ∧ c = satsysToChar sys) ∨ (NoSystem c ∧ ∀ sys, charToSatsys c ≠ .ok sys) := by
  by_cases h : ∃ sys, c = satsysToChar sys
  · obtain ⟨sys, rfl⟩ := h
    exact Or.inl ⟨sys, charToSatsys_letter sys, rfl⟩
  · push Not at h
    have hn : NoSystem c := fun sys he => h sys he.symm
    obtain ⟨e, he⟩ := noSystem_chars hn
    exact Or.inr ⟨hn, fun sys hs => by rw [he] at hs; cases hs⟩

/-- `strtol` in a buffer: what it makes of a text. -/
theorem strtolA_text {l tail : List Char} {off : Nat} (h : off ≤ l.length) :
    ∃ p, strtolA ((l ++ NUL :: tail).drop off) = .ok p ∧
      ((p = none ∧ NoLong (l.drop off)) ∨ (∃ v r, p = some (v, r, false) ∧ LongBegins (l.drop off) v) ∨ (∃ w r, p = some (w, r, true) ∧ NoLong (l.drop off))) := by
  refine ⟨strtol (l.drop off ++ NUL :: tail), ?_, ?_⟩
  · rw [List.drop_append_of_le_length h]
    unfold strtolA
    rw [if_pos (by simp)]
  · rcases strtol_text (l.drop off) tail with ⟨h1, h2⟩ | ⟨v, r, h1, h2, h3, h4⟩ | ⟨w, r, h1, h2⟩
    · exact Or.inl ⟨h1, Or.inl h2⟩
    · exact Or.inr (Or.inl ⟨v, r, h1, h2, h3, h4⟩)
    · exact Or.inr (Or.inr ⟨w, r, h1, Or.inr h2⟩)

/-- `strtod` in a buffer. -/
theorem strtodA_text {l tail : List Char} {off : Nat} (h : off ≤ l.length) :
    ∃ p, strtodA ((l ++ NUL :: tail).drop off) = .ok p ∧
      ((∃ v r, p = some (v, r, false) ∧ NumberIn (l.drop off) v) ∨ ((p = none ∨ ∃ v r, p = some (v, r, true)) ∧ NoNumberIn (l.drop off))) := by
  refine ⟨strtod (l.drop off ++ NUL :: tail), ?_, strtod_line _ _⟩
  rw [List.drop_append_of_le_length h]
  unfold strtodA
  rw [if_pos (by simp)]

theorem PosFails.pos {l : List Char} {st : Int} (h : PosFails l st) : 0 < st := by
  cases h <;> omega

theorem sp3Cols_text {l tail : List Char} {errno : Int} (he : errno ≠ ERANGE) : ∀ (n i : Nat), (∀ m < n, 4 + 14 * (i + m) ≤ l.length) →
    ∃ vs b, sp3Cols errno (l ++ NUL :: tail) n i = .ok (vs, b) ∧
      ((b = none ∧ vs.length = n ∧ ∀ m < n, ∃ v, vs[m]? = some v ∧ NumberIn (l.drop (4 + 14 * (i + m))) v) ∨
       (∃ j < n, b = some (i + j) ∧ (∀ m < j, ∃ x, NumberIn (l.drop (4 + 14 * (i + m))) x) ∧ NoNumberIn (l.drop (4 + 14 * (i + j))))) := by
  intro n
  induction n with
  | zero => intro i _; exact ⟨[], none, rfl, Or.inl ⟨rfl, rfl, fun m hm => absurd hm (Nat.not_lt_zero m)⟩⟩
  | succ n ih =>
    intro i hi
    obtain ⟨p, hp, hcase⟩ := strtodA_text (tail := tail) (show 4 + 14 * i ≤ l.length by simpa using hi 0 (by omega))
    rw [sp3Cols, hp, Res.bind_ok]
    rcases hcase with ⟨v, r, rfl, hv⟩ | ⟨rfl | ⟨v, r, rfl⟩, hno⟩
    · obtain ⟨vs, b, h1, h2⟩ := ih (i + 1) (fun m hm => by have := hi (m + 1) (by omega); omega)
      refine ⟨v :: vs, b, ?_, ?_⟩
      · simp only [Bool.false_eq_true, or_false]
        rw [if_neg he, h1]
        rfl
      · rcases h2 with ⟨g1, g2, g3⟩ | ⟨j, hj, g1, g2, g3⟩
        · refine Or.inl ⟨g1, by simp [g2], fun m hm => ?_⟩
          cases m with
          | zero => exact ⟨v, rfl, hv⟩
          | succ m => obtain ⟨w, hw1, hw2⟩ := g3 m (by omega); exact ⟨w, by simpa using hw1, by rwa [show i + (m + 1) = i + 1 + m by omega]⟩
        · refine Or.inr ⟨j + 1, by omega, by rw [g1]; congr 1; omega, fun m hm => ?_, by rwa [show i + (j + 1) = i + 1 + j by omega]⟩
          cases m with
          | zero => exact ⟨v, hv⟩
          | succ m => obtain ⟨w, hw⟩ := g2 m (by omega); exact ⟨w, by rwa [show i + (m + 1) = i + 1 + m by omega]⟩
    · exact ⟨[], some i, rfl, Or.inr ⟨0, by omega, rfl, fun m hm => absurd hm (Nat.not_lt_zero m), hno⟩⟩
    · refine ⟨[], some i, ?_, Or.inr ⟨0, by omega, rfl, fun m hm => absurd hm (Nat.not_lt_zero m), hno⟩⟩
      simp

/-- A position line, whatever it looks like. -/
theorem position_text {l tail : List Char} (hP : isPLine l = true) (h46 : 46 ≤ l.length) (r0 : Sp3Rec) {errno : Int} (he : errno ≠ ERANGE)
    (hbuf : 80 ≤ (l ++ NUL :: tail).length) :
    ∃ o, getNextPosition (l ++ NUL :: tail) r0 errno = .ok o ∧
      ((o.status = 0 ∧ PosGives l o.out ∧ o.errno = errno) ∨ (PosFails l o.status ∧ o.status ≠ 0)) := by
  have h0 : l[0]? = some 'P' := by
    rw [← List.head?_eq_getElem?]; simpa [isPLine] using hP
  obtain ⟨c1, hc1⟩ : ∃ c, l[1]? = some c := ⟨_, List.getElem?_eq_getElem (by omega)⟩
  unfold getNextPosition
  simp only [getAt_of h0, getAt_of hc1, Res.bind_ok, ne_eq, not_true_eq_false, if_false]
  rcases charToSatsys_inv (c := c1) with ⟨sys, hs, rfl⟩ | ⟨hn, hs⟩
  swap
  · obtain ⟨e, hth⟩ := noSystem_chars hn
    rw [hth]
    exact ⟨_, rfl, Or.inr ⟨.system c1 hc1 hn, by simp⟩⟩
  rw [hs]
  simp only
  obtain ⟨p, hp, hcase⟩ := strtolA_text (l := l) (tail := tail) (off := 2) (by omega)
  rw [hp, Res.bind_ok]
  rcases hcase with ⟨rfl, hno⟩ | ⟨v, r, rfl, hv⟩ | ⟨w, r, rfl, hno⟩
  · simp only [or_true, if_true]
    exact ⟨_, rfl, Or.inr ⟨.number sys hc1 hno, by simp⟩⟩
  swap
  · simp only [strtolErr, if_true, true_or]
    exact ⟨_, rfl, Or.inr ⟨.number sys hc1 hno, by simp⟩⟩
  simp only [strtolErr, strtolVal, Bool.false_eq_true, if_false, reduceCtorEq, or_false]
  rw [if_neg he]
  obtain ⟨vs, b, hcols, hcase⟩ := sp3Cols_text (l := l) (tail := tail) he 4 0 (fun m hm => by omega)
  rw [hcols, Res.bind_ok]
  rcases hcase with ⟨rfl, hlen, hvals⟩ | ⟨j, hj, rfl, hbef, hno⟩
  · obtain ⟨x, hx1, hx2⟩ := hvals 0 (by omega)
    obtain ⟨y, hy1, hy2⟩ := hvals 1 (by omega)
    obtain ⟨z, hz1, hz2⟩ := hvals 2 (by omega)
    obtain ⟨c, hc1', hc2⟩ := hvals 3 (by omega)
    have hvs : vs = [x, y, z, c] := by
      apply List.ext_getElem?
      intro i
      rcases Nat.lt_or_ge i 4 with hi | hi
      · obtain rfl | rfl | rfl | rfl : i = 0 ∨ i = 1 ∨ i = 2 ∨ i = 3 := by omega
        · exact hx1
        · exact hy1
        · exact hz1
        · exact hc1'
      · rw [List.getElem?_eq_none (by omega), List.getElem?_eq_none (by simpa using hi)]
    subst hvs
    obtain ⟨fl, hf1, hf2⟩ := sp3Flags_get [x * 1000, y * 1000, z * 1000, c] (l ++ NUL :: tail) hbuf
    simp only [sp3Scale, hf1, Res.bind_ok]
    refine ⟨_, rfl, Or.inl ⟨rfl, ⟨hc1, ⟨v, hv, rfl⟩, ⟨x, y, z, c, hx2, hy2, hz2, hc2, by simp only [mul_comm]⟩, ?_⟩, rfl⟩⟩
    intro hl e hne
    show fl.isSet e = true ↔ _
    rw [hf2 e]
    cases e <;>
      simp only [LineSignals, List.getElem?_append_left (show 74 < l.length by omega),
        List.getElem?_append_left (show 75 < l.length by omega),
        List.getElem?_append_left (show 78 < l.length by omega)]
    exact absurd rfl hne
  · refine ⟨_, rfl, Or.inr ⟨?_, ?_⟩⟩
    · have := PosFails.column sys v j hc1 hv hj (by simpa using hbef) (by simpa using hno)
      simpa using this
    · show (5 + ((0 + j : Nat) : Int)) ≠ 0
      omega

/-- The lines of an epoch, whatever they look like. -/
theorem sp3Loop_text (t : Sp3Epoch) (sr : Int) {errno : Int} (he : errno ≠ ERANGE) (tail : List Char) {o : Sp3Out} :
    ∀ (ls : List (List Char)) (fuel : Nat) (buf : List Char) (pre suf : List Sp3Rec) (s : Stream),
      EpochLines ls → s.good = true → s.rest = linesText ls ++ tail → 80 ≤ buf.length →
      sp3Loop t sr fuel buf (pre ++ suf) pre.length s errno = .ok o →
      (∃ recs buf' fuel', List.Forall₂ PosGives (ls.filter isPLine) recs ∧ recs.length ≤ suf.length ∧ 80 ≤ buf'.length ∧
        sp3Loop t sr fuel' buf' (pre ++ recs ++ suf.drop recs.length) (pre.length + recs.length) (s.adv (linesText ls).length) errno = .ok o) ∨
      (∃ recs j l st, ls[j]? = some l ∧ isPLine l = true ∧ PosFails l st ∧ List.Forall₂ PosGives ((ls.take j).filter isPLine) recs ∧ recs.length ≤ suf.length ∧
        o.status = 20 + st ∧ o.t = t ∧ o.vec = pre ++ recs ++ suf.drop recs.length ∧ o.satsRead = sr ∧ o.strm = s.adv (linesText (ls.take (j + 1))).length) := by
  intro ls
  induction ls with
  | nil =>
    intro fuel buf pre suf s _ hg hr hbuf h
    exact Or.inl ⟨[], buf, fuel, .nil, by simp, hbuf, by simpa [linesText] using h⟩
  | cons l ls ih =>
    intro fuel buf pre suf s hb hg hr hbuf h
    have hok := hb.ok l (by simp)
    have hend := hb.inside l (by simp)
    have hb' : EpochLines ls := ⟨fun q hq => hb.ok q (by simp [hq]), fun q hq => hb.inside q (by simp [hq]), fun q hq => hb.reach q (by simp [hq])⟩
    have hr' : s.rest = l ++ '\n' :: (linesText ls ++ tail) := by
      rw [hr, linesText_cons]; simp
    have hrest : (s.adv (l.length + 1)).rest = linesText ls ++ tail := by
      have := Stream.adv_rest_append (s := s) (a := l ++ ['\n']) (b := linesText ls ++ tail) (by rw [hr']; simp)
      simpa using this
    have hlen : ∀ q, (linesText (l :: q)).length = l.length + 1 + (linesText q).length := by
      intro q; rw [linesText_cons]; simp; omega
    cases fuel with
    | zero => cases h
    | succ fuel =>
      rw [sp3Loop_step t sr fuel buf (pre ++ suf) pre.length s errno hg hr' hok (ends_false hend).1] at h
      cases hP : isPLine l with
      | false =>
        rw [sp3Line_other buf l _ _ errno hok hP, if_neg (ends_false hend).2] at h
        simp only at h
        rcases ih fuel (fillLine buf l) pre suf (s.adv (l.length + 1)) hb' hg hrest (fillLine_length buf l 80 hbuf) h with
          ⟨recs, buf', fuel', h1, h2, h3, h4⟩ | ⟨recs, j, q, st, h1, h2, h3, h4, h5, h6, h7, h8, h9, h10⟩
        · refine Or.inl ⟨recs, buf', fuel', by rw [List.filter_cons_of_neg (by simp [hP])]; exact h1, h2, h3, ?_⟩
          rw [hlen, ← Stream.adv_adv]; exact h4
        · refine Or.inr ⟨recs, j + 1, q, st, by simpa using h1, h2, h3, ?_, h5, h6, h7, h8, h9, ?_⟩
          · rw [List.take_succ_cons, List.filter_cons_of_neg (by simp [hP])]; exact h4
          · rw [h10, Stream.adv_adv, List.take_succ_cons, hlen]
      | true =>
        obtain ⟨q, hq, hcase⟩ := position_text (tail := buf.drop (l.length + 1)) hP (hb.reach l (by simp) hP) {} he (fillLine_length buf l 80 hbuf)
        have hq : getNextPosition (fillLine buf l) {} errno = .ok q := hq
        have h0 : l.head?.getD NUL = 'P' := by
          have : l.head? = some 'P' := by simpa [isPLine] using hP
          rw [this]; rfl
        unfold sp3Line at h
        simp only [getAt_head, Res.bind_ok, h0, if_true, hq] at h
        rcases hcase with ⟨hs0, hgives, hqe⟩ | ⟨hfail, hs⟩
        · rw [if_neg (by simp [hs0])] at h
          unfold vecStore at h
          by_cases hn : pre.length < (pre ++ suf).length
          swap
          · rw [if_neg hn] at h; cases h
          rw [if_pos hn, Res.bind_ok] at h
          simp only [Res.pure_eq, hqe] at h
          cases suf with
          | nil => simp at hn
          | cons x suf =>
            have hset : (pre ++ x :: suf).set pre.length q.out = pre ++ [q.out] ++ suf := by simp
            rw [hset, show pre.length + 1 = (pre ++ [q.out]).length by simp] at h
            rcases ih fuel (fillLine buf l) (pre ++ [q.out]) suf (s.adv (l.length + 1)) hb' hg hrest (fillLine_length buf l 80 hbuf) h with
              ⟨recs, buf', fuel', h1, h2, h3, h4⟩ | ⟨recs, j, k, st, h1, h2, h3, h4, h5, h6, h7, h8, h9, h10⟩
            · refine Or.inl ⟨q.out :: recs, buf', fuel', by rw [List.filter_cons_of_pos (by simp [hP])]; exact .cons hgives h1, by simpa using h2, h3, ?_⟩
              rw [hlen, ← Stream.adv_adv, ← h4]
              simp [Nat.add_comm, Nat.add_left_comm]
            · refine Or.inr ⟨q.out :: recs, j + 1, k, st, by simpa using h1, h2, h3, ?_, by simpa using h5, h6, h7, ?_, h9, ?_⟩
              · rw [List.take_succ_cons, List.filter_cons_of_pos (by simp [hP])]; exact .cons hgives h4
              · rw [h8]; simp
              · rw [h10, Stream.adv_adv, List.take_succ_cons, hlen]
        · rw [if_pos hs] at h
          simp only [Res.pure_eq] at h
          have hst : q.status + 20 ≠ -1 := by
            have := hfail.pos
            omega
          rw [if_neg hst] at h
          cases h
          exact Or.inr ⟨[], 0, l, q.status, rfl, hP, hfail, by simp, by simp, Int.add_comm _ _, rfl, by simp, rfl, by simp [linesText]⟩

theorem truncRat_abs (q : Rat) : |q - (truncRat q : Rat)| < 1 ∧ |(truncRat q : Rat)| ≤ |q| := by
  rcases le_total 0 q with h | h
  · obtain ⟨h1, h2⟩ := truncRat_bounds h
    have h3 : (0 : Rat) ≤ truncRat q := by
      have : 0 ≤ truncRat q := by unfold truncRat; exact Int.tdiv_nonneg (Rat.num_nonneg.2 h) (by positivity)
      exact_mod_cast this
    rw [abs_of_nonneg h, abs_of_nonneg h3, abs_lt]
    exact ⟨⟨by linarith, by linarith⟩, h1⟩
  · have hn : 0 ≤ -q := by linarith
    have e : truncRat (-q) = - truncRat q := by
      unfold truncRat
      rw [Rat.neg_num, Rat.neg_den, Int.neg_tdiv]
    obtain ⟨h1, h2⟩ := truncRat_bounds hn
    have h3 : (0 : Rat) ≤ truncRat (-q) := by
      have : 0 ≤ truncRat (-q) := by unfold truncRat; exact Int.tdiv_nonneg (Rat.num_nonneg.2 hn) (by positivity)
      exact_mod_cast this
    rw [e] at h1 h2 h3
    push_cast at h1 h2 h3
    rw [abs_of_nonpos h, abs_of_nonpos (by linarith : (truncRat q : Rat) ≤ 0), abs_lt]
    exact ⟨⟨by linarith, by linarith⟩, by linarith⟩

theorem sp3Date_text {l tail : List Char} {errno : Int} (he : errno ≠ ERANGE) : ∀ (n i : Nat), (∀ m < n, 8 + 3 * (i + m) ≤ l.length) →
    ∃ vs b, sp3Date errno (l ++ NUL :: tail) n (i + 1) = .ok (vs, b) ∧
      ((b = none ∧ ∀ m < n, ∃ v, LongBegins (l.drop (8 + 3 * (i + m))) v ∧ vs.getD m 0 = toInt32 v) ∨
       (∃ j < n, b = some (i + 1 + j) ∧ (∀ m < j, ∃ v, LongBegins (l.drop (8 + 3 * (i + m))) v) ∧ NoLong (l.drop (8 + 3 * (i + j))))) := by
  intro n
  induction n with
  | zero => intro i _; exact ⟨[], none, rfl, Or.inl ⟨rfl, fun m hm => absurd hm (Nat.not_lt_zero m)⟩⟩
  | succ n ih =>
    intro i hi
    obtain ⟨p, hp, hcase⟩ := strtolA_text (tail := tail) (show 8 + 3 * i ≤ l.length by simpa using hi 0 (by omega))
    rw [sp3Date, show i + 1 - 1 = i by omega, hp, Res.bind_ok]
    rcases hcase with ⟨rfl, hno⟩ | ⟨v, r, rfl, hv⟩ | ⟨w, r, rfl, hno⟩
    · exact ⟨[], some (i + 1), by simp, Or.inr ⟨0, by omega, rfl, fun m hm => absurd hm (Nat.not_lt_zero m), hno⟩⟩
    · obtain ⟨vs, b, h1, h2⟩ := ih (i + 1) (fun m hm => by have := hi (m + 1) (by omega); omega)
      refine ⟨toInt32 v :: vs, b, ?_, ?_⟩
      · simp only [strtolErr, strtolVal, Bool.false_eq_true, if_false, reduceCtorEq, or_false]
        rw [if_neg he, h1]
        rfl
      · rcases h2 with ⟨g1, g3⟩ | ⟨j, hj, g1, g2, g3⟩
        · refine Or.inl ⟨g1, fun m hm => ?_⟩
          cases m with
          | zero => exact ⟨v, hv, rfl⟩
          | succ m => obtain ⟨w, hw1, hw2⟩ := g3 m (by omega); exact ⟨w, by rwa [show i + (m + 1) = i + 1 + m by omega], by simpa using hw2⟩
        · refine Or.inr ⟨j + 1, by omega, by rw [g1]; congr 1; omega, fun m hm => ?_, by rwa [show i + (j + 1) = i + 1 + j by omega]⟩
          cases m with
          | zero => exact ⟨v, hv⟩
          | succ m => obtain ⟨w, hw⟩ := g2 m (by omega); exact ⟨w, by rwa [show i + (m + 1) = i + 1 + m by omega]⟩
    · refine ⟨[], some (i + 1), ?_, Or.inr ⟨0, by omega, rfl, fun m hm => absurd hm (Nat.not_lt_zero m), hno⟩⟩
      simp [strtolErr]

/-- The header line of an epoch, whatever it looks like. -/
theorem header_text {l tail : List Char} (h20 : 20 ≤ l.length) {errno : Int} (he : errno ≠ ERANGE) {r : Except Int Sp3Epoch × Int}
    (h : sp3Header (l ++ NUL :: tail) errno = .ok r) :
    (∃ t, r = (.ok t, errno) ∧ HeadGives l t) ∨ (∃ st, r.1 = .error st ∧ HeadFails l st) := by
  obtain ⟨c0, hc0⟩ : ∃ c, l[0]? = some c := ⟨_, List.getElem?_eq_getElem (by omega)⟩
  obtain ⟨c1, hc1⟩ : ∃ c, l[1]? = some c := ⟨_, List.getElem?_eq_getElem (by omega)⟩
  have hpre : c!"* " <+: l ↔ (c0 = '*' ∧ c1 = ' ') := by
    obtain ⟨a, b, q, rfl⟩ : ∃ a b q, l = a :: b :: q := by
      match l, h20 with
      | a :: b :: q, _ => exact ⟨a, b, q, rfl⟩
    simp only [List.getElem?_cons_zero, List.getElem?_cons_succ, Option.some.injEq] at hc0 hc1
    subst hc0 hc1
    simp [List.cons_prefix_cons, eq_comm]
  unfold sp3Header at h
  simp only [getAt_of hc0, getAt_of hc1, Res.bind_ok] at h
  by_cases hs : c0 = '*' ∧ c1 = ' '
  swap
  · rw [if_pos (by tauto)] at h
    cases h
    exact Or.inr ⟨2, rfl, .start (by rw [hpre]; exact hs)⟩
  rw [if_neg (by tauto)] at h
  have hstart := hpre.2 hs
  obtain ⟨p, hp, hcase⟩ := strtolA_text (l := l) (tail := tail) (off := 3) (by omega)
  rw [hp, Res.bind_ok] at h
  rcases hcase with ⟨rfl, hno⟩ | ⟨v, r', rfl, hv⟩ | ⟨w, r', rfl, hno⟩
  · rw [if_pos (Or.inl (by decide))] at h
    cases h
    exact Or.inr ⟨5, rfl, .year hstart (Or.inl hno)⟩
  swap
  · simp only [strtolErr, if_true, or_true] at h
    cases h
    exact Or.inr ⟨5, rfl, .year hstart (Or.inl hno)⟩
  simp only [strtolErr, strtolVal, Bool.false_eq_true, if_false] at h
  by_cases hy : toInt32 v = 0
  · rw [if_pos (Or.inl hy)] at h
    cases h
    exact Or.inr ⟨5, rfl, .year hstart (Or.inr ⟨v, hv, hy⟩)⟩
  rw [if_neg (by simp [hy, he])] at h
  obtain ⟨vs, b, hd, hcase⟩ := sp3Date_text (l := l) (tail := tail) he 4 0 (fun m hm => by omega)
  rw [show (0 + 1 : Nat) = 1 from rfl] at hd
  rw [hd, Res.bind_ok] at h
  simp only [Nat.zero_add] at hcase
  rcases hcase with ⟨rfl, hvals⟩ | ⟨j, hj, rfl, hbef, hno⟩
  swap
  · cases h
    refine Or.inr ⟨_, rfl, ?_⟩
    have := HeadFails.part v j hstart hv hy hj hbef hno
    rwa [show (5 + ((1 + j : Nat) : Int)) = 6 + j by push_cast; omega]
  simp only at h
  obtain ⟨q, hq, hcase⟩ := strtodA_text (l := l) (tail := tail) (off := 20) (by omega)
  rw [hq, Res.bind_ok] at h
  rcases hcase with ⟨x, r', rfl, hx⟩ | ⟨hbad, hno⟩
  swap
  · have hf : HeadFails l 11 := .seconds v hstart hv hy (fun m hm => (hvals m hm).imp fun _ h => h.1) hno
    rcases hbad with rfl | ⟨x, r', rfl⟩
    · cases h; exact Or.inr ⟨_, rfl, hf⟩
    · simp only [if_true] at h
      cases h; exact Or.inr ⟨_, rfl, hf⟩
  simp only [Bool.false_eq_true, if_false] at h
  obtain ⟨us, hus, h⟩ := Res.bind_eq_ok.1 h
  cases h
  refine Or.inl ⟨_, rfl, hstart, ⟨v, hv, rfl, hy⟩, hvals 0 (by omega), hvals 1 (by omega), hvals 2 (by omega), hvals 3 (by omega), x, hx, ?_⟩
  unfold castLong at hus
  split at hus
  · cases hus; exact truncRat_abs _
  · cases hus

theorem linesText_drop (ls : List (List Char)) (k : Nat) : linesText ls = linesText (ls.take k) ++ linesText (ls.drop k) := by
  conv_lhs => rw [← List.take_append_drop k ls]
  rw [linesText_append]

theorem HeadFails.pos {l : List Char} {st : Int} (h : HeadFails l st) : 0 < st := by
  cases h <;> omega

/-- Reading an epoch whatever the lines look like, up to its end. -/
theorem epoch_text {h : List Char} {ls : List (List Char)} (hh : LineOK h) (h20 : 20 ≤ h.length) (hls : EpochLines ls) {junk : List Char} (hj : junk.length = 128)
    {fuel : Nat} {t0 : Sp3Epoch} {vec : List Sp3Rec} {sr : Int} {s : Stream} {errno : Int} (he : errno ≠ ERANGE) (hg : s.good = true) {tail : List Char}
    (hr : s.rest = h ++ '\n' :: (linesText ls ++ tail)) {o : Sp3Out} (hrun : getNextEpoch junk fuel t0 vec sr s errno = .ok o) (fin : Int) :
    (∃ t recs buf' fuel', HeadGives h t ∧ List.Forall₂ PosGives (ls.filter isPLine) recs ∧ recs.length ≤ vec.length ∧
      sp3Loop t sr fuel' buf' (recs ++ vec.drop recs.length) recs.length (s.adv (linesText (h :: ls)).length) errno = .ok o) ∨
    (∃ k, EpochOutcome h ls fin t0 vec sr o.status o.t o.vec o.satsRead k ∧ 0 < o.status ∧ o.strm.rest = linesText ((h :: ls).drop k) ++ tail) := by
  have hr' : s.rest = linesText (h :: ls) ++ tail := by rw [hr, linesText_cons]; simp
  have hdrop : ∀ k, (s.adv (linesText ((h :: ls).take k)).length).rest = linesText ((h :: ls).drop k) ++ tail := fun k =>
    Stream.adv_rest_append (by rw [hr', linesText_drop (h :: ls) k, List.append_assoc])
  have hone : (linesText [h]).length = h.length + 1 := by rw [linesText_cons]; simp [linesText]
  have hlen : ∀ q, (linesText (h :: q)).length = h.length + 1 + (linesText q).length := by
    intro q; rw [linesText_cons]; simp; omega
  have hgl := Stream.getline_line (n := MAX_RECORD_CHARS) hg hr hh.1 (by simpa [MAX_RECORD_CHARS] using hh.2.2)
  unfold getNextEpoch at hrun
  rw [Res.noexcept_eq_ok] at hrun
  simp only [hg, Bool.not_true, Bool.false_eq_true, if_false, hgl] at hrun
  obtain ⟨r, hhead, hrun⟩ := Res.bind_eq_ok.1 hrun
  rcases header_text (tail := junk.drop (h.length + 1)) h20 he hhead with ⟨t, rfl, hgives⟩ | ⟨st, hst, hfail⟩
  swap
  · rw [hst] at hrun
    cases hrun
    refine Or.inr ⟨1, .header st hfail, hfail.pos, ?_⟩
    have := hdrop 1
    rwa [List.take_succ_cons, List.take_zero, hone] at this
  · simp only at hrun
    have hr1 : (s.adv (h.length + 1)).rest = linesText ls ++ tail := by
      have := hdrop 1
      rwa [List.take_succ_cons, List.take_zero, hone] at this
    rcases sp3Loop_text t sr he tail ls fuel (fillLine junk h) [] vec (s.adv (h.length + 1)) hls hg hr1 (fillLine_length _ _ _ (by omega)) hrun with
      ⟨recs, buf', fuel', h1, h2, h3, h4⟩ | ⟨recs, j, l, st, h1, h2, h3, h4, h5, h6, h7, h8, h9, h10⟩
    · refine Or.inl ⟨t, recs, buf', fuel', hgives, h1, h2, ?_⟩
      rw [hlen, ← h4, Stream.adv_adv]
      simp
    · refine Or.inr ⟨j + 2, ?_, by have := h3.pos; omega, ?_⟩
      · rw [h6, h7, h8, h9]
        exact .record t recs j l st hgives h1 h2 h3 h4 h5
      · have := hdrop (j + 2)
        rw [List.take_succ_cons, hlen] at this
        rw [h10, Stream.adv_adv, ← this]

/-- C100: an epoch of arbitrary lines, followed by the header of another one. -/
theorem C100_epoch {h : List Char} {ls : List (List Char)} (hh : LineOK h) (h20 : 20 ≤ h.length) (hls : EpochLines ls) {junk : List Char} (hj : junk.length = 128)
    {fuel : Nat} {t0 : Sp3Epoch} {vec : List Sp3Rec} {sr : Int} {s : Stream} {errno : Int} (he : errno ≠ ERANGE) (hg : s.good = true) {tail : List Char}
    (hr : s.rest = h ++ '\n' :: (linesText ls ++ '*' :: tail)) {o : Sp3Out} (hrun : getNextEpoch junk fuel t0 vec sr s errno = .ok o) :
    ∃ k, EpochOutcome h ls 0 t0 vec sr o.status o.t o.vec o.satsRead k ∧ o.strm.rest = linesText ((h :: ls).drop k) ++ '*' :: tail := by
  rcases epoch_text hh h20 hls hj he hg hr hrun 0 with ⟨t, recs, buf', fuel', h1, h2, h3, h4⟩ | ⟨k, h1, _, h2⟩
  swap
  · exact ⟨k, h1, h2⟩
  have hrest : (s.adv (linesText (h :: ls)).length).rest = '*' :: tail :=
    Stream.adv_rest_append (by rw [hr, linesText_cons]; simp)
  have hpk := Stream.peek_cons (s := s.adv (linesText (h :: ls)).length) hg hrest
  cases fuel' with
  | zero => cases h4
  | succ f =>
    unfold sp3Loop at h4
    simp only [hpk, peekedStar, decide_true, if_true] at h4
    cases h4
    refine ⟨ls.length + 1, .complete t recs h1 h2 h3, ?_⟩
    have hd : (h :: ls).drop (ls.length + 1) = [] := List.drop_of_length_le (by simp)
    rw [hd]
    exact hrest

/-- C100: the last epoch, followed by the line EOF (with or without a newline after it). -/
theorem C100_last {h : List Char} {ls : List (List Char)} (hh : LineOK h) (h20 : 20 ≤ h.length) (hls : EpochLines ls) {junk : List Char} (hj : junk.length = 128)
    {fuel : Nat} {t0 : Sp3Epoch} {vec : List Sp3Rec} {sr : Int} {s : Stream} {errno : Int} (he : errno ≠ ERANGE) (hg : s.good = true) {e tail : List Char}
    (hok : LineOK e) (heof : e.take 3 = c!"EOF") (htail : tail = [] ∨ ∃ r, tail = '\n' :: r)
    (hr : s.rest = h ++ '\n' :: (linesText ls ++ (e ++ tail))) {o : Sp3Out} (hrun : getNextEpoch junk fuel t0 vec sr s errno = .ok o) :
    ∃ k, EpochOutcome h ls (-1) t0 vec sr o.status o.t o.vec o.satsRead k ∧
      o.strm.rest = if o.status = -1 then tail.drop 1 else linesText ((h :: ls).drop k) ++ (e ++ tail) := by
  rcases epoch_text hh h20 hls hj he hg hr hrun (-1) with ⟨t, recs, buf', fuel', h1, h2, h3, h4⟩ | ⟨k, h1, hp, h2⟩
  swap
  · exact ⟨k, h1, by rw [if_neg (by omega), h2]⟩
  have hrest : (s.adv (linesText (h :: ls)).length).rest = e ++ tail :=
    Stream.adv_rest_append (by rw [hr, linesText_cons]; simp)
  obtain ⟨e', hE⟩ : ∃ e', e = 'E' :: e' := by
    cases e with
    | nil => simp at heof
    | cons c e' => simp at heof; exact ⟨e', by rw [heof.1]⟩
  have hnp : isPLine e = false := by rw [hE]; simp [isPLine]
  generalize hS : s.adv (linesText (h :: ls)).length = S at *
  have hgS : S.good = true := by rw [← hS]; exact hg
  have hpk : S.peek = (some 'E', S) := Stream.peek_cons hgS (by rw [hrest, hE]; rfl)
  cases fuel' with
  | zero => cases h4
  | succ f =>
    obtain ⟨s', hgl, hs'⟩ : ∃ s', S.getline MAX_RECORD_CHARS = (e, s') ∧ s'.rest = tail.drop 1 := by
      rcases htail with rfl | ⟨r, rfl⟩
      · refine ⟨_, Stream.getline_last (n := MAX_RECORD_CHARS) hgS (by simpa using hrest) hok.1 (by simpa [MAX_RECORD_CHARS] using hok.2.2), ?_⟩
        have := Stream.adv_rest_append (s := S) (a := e) (b := []) hrest
        simpa [Stream.adv, Stream.rest] using this
      · refine ⟨_, Stream.getline_line (n := MAX_RECORD_CHARS) hgS hrest hok.1 (by simpa [MAX_RECORD_CHARS] using hok.2.2), ?_⟩
        have := Stream.adv_rest_append (s := S) (a := e ++ ['\n']) (b := r) (by rw [hrest]; simp)
        simpa using this
    have hline := sp3Line_other buf' e (recs ++ vec.drop recs.length) recs.length errno hok hnp
    rw [if_pos heof] at hline
    have hloop : sp3Loop t sr (f + 1) buf' (recs ++ vec.drop recs.length) recs.length S errno =
        .ok ⟨-1, t, recs ++ vec.drop recs.length, recs.length, s', errno⟩ := by
      unfold sp3Loop
      simp only [hpk, peekedStar, hgl]
      rw [hline]
      rfl
    rw [hloop] at h4
    cases h4
    exact ⟨ls.length + 1, .complete t recs h1 h2 h3, by rw [if_pos rfl, hs']⟩

theorem LongBegins.unique {t : List Char} {v w : Int} (hv : LongBegins t v) (hw : LongBegins t w) : v = w := hv.1.unique hw.1

theorem LongBegins.not_no {t : List Char} {v : Int} (hv : LongBegins t v) (h : NoLong t) : False := by
  rcases h with h | ⟨w, hw, h⟩
  · exact h v hv.1
  · have := hv.1.unique hw
    have := hv.2
    omega

theorem NumberIn.unique {t : List Char} {v w : Rat} (ho : ¬ OddNumber t) (hv : NumberIn t v) (hw : NumberIn t w) : v = w :=
  (hv.resolve_left ho).1.unique (hw.resolve_left ho).1

theorem NumberIn.not_no {t : List Char} {v : Rat} (ho : ¬ OddNumber t) (hv : NumberIn t v) (h : NoNumberIn t) : False :=
  (h.resolve_left ho) v (hv.resolve_left ho).1 (hv.resolve_left ho).2

theorem PosGives.numbers {l : List Char} {r : Sp3Rec} (h : PosGives l r) : ∀ m < 4, ∃ x, NumberIn (l.drop (4 + 14 * m)) x := by
  obtain ⟨x, y, z, c, h1, h2, h3, h4, _⟩ := h.values
  intro m hm
  obtain rfl | rfl | rfl | rfl : m = 0 ∨ m = 1 ∨ m = 2 ∨ m = 3 := by omega
  exacts [⟨x, h1⟩, ⟨y, h2⟩, ⟨z, h3⟩, ⟨c, h4⟩]

theorem PosGives.unique {l : List Char} {a b : Sp3Rec} (ho : PlainPos l) (ha : PosGives l a) (hb : PosGives l b) : a.core = b.core := by
  have h1 : a.sys = b.sys := by
    have := ha.system
    rw [hb.system] at this
    have h2 := charToSatsys_letter a.sys
    rw [← Option.some.inj this, charToSatsys_letter] at h2
    exact (Res.ok.inj h2).symm
  obtain ⟨v, hv, ev⟩ := ha.number
  obtain ⟨w, hw, ew⟩ := hb.number
  obtain ⟨x, y, z, c, x1, x2, x3, x4, x5⟩ := ha.values
  obtain ⟨x', y', z', c', y1, y2, y3, y4, y5⟩ := hb.values
  unfold Sp3Rec.core
  rw [h1, ev, ew, hv.unique hw, x5, y5, NumberIn.unique (ho 0 (by omega)) x1 y1, NumberIn.unique (ho 1 (by omega)) x2 y2, NumberIn.unique (ho 2 (by omega)) x3 y3,
    NumberIn.unique (ho 3 (by omega)) x4 y4]

theorem PosGives.not_fails {l : List Char} {a : Sp3Rec} {st : Int} (ho : PlainPos l) (ha : PosGives l a) (hf : PosFails l st) : False := by
  cases hf with
  | system c h1 h2 =>
    rw [ha.system] at h1
    exact h2 a.sys (Option.some.inj h1)
  | number sys h1 h2 =>
    obtain ⟨v, hv, _⟩ := ha.number
    exact hv.not_no h2
  | column sys v i h1 h2 h3 h4 h5 =>
    obtain ⟨x, hx⟩ := ha.numbers i h3
    exact NumberIn.not_no (ho i h3) hx h5

theorem PosFails.unique {l : List Char} {a b : Int} (ho : PlainPos l) (ha : PosFails l a) (hb : PosFails l b) : a = b := by
  cases ha with
  | system c h1 h2 =>
    cases hb with
    | system c h1 h2 => rfl
    | number sys g1 g2 => rw [g1] at h1; exact absurd (Option.some.inj h1) (h2 sys)
    | column sys v i g1 g2 g3 g4 g5 => rw [g1] at h1; exact absurd (Option.some.inj h1) (h2 sys)
  | number sys h1 h2 =>
    cases hb with
    | system c g1 g2 => rw [h1] at g1; exact absurd (Option.some.inj g1) (g2 sys)
    | number sys g1 g2 => rfl
    | column sys v i g1 g2 g3 g4 g5 => exact (g2.not_no h2).elim
  | column sys v i h1 h2 h3 h4 h5 =>
    cases hb with
    | system c g1 g2 => rw [h1] at g1; exact absurd (Option.some.inj g1) (g2 sys)
    | number sys g1 g2 => exact (h2.not_no g2).elim
    | column sys v j g1 g2 g3 g4 g5 =>
      rcases Nat.lt_trichotomy i j with hl | rfl | hl
      · obtain ⟨x, hx⟩ := g4 i hl
        exact (NumberIn.not_no (ho i h3) hx h5).elim
      · rfl
      · obtain ⟨x, hx⟩ := h4 j hl
        exact (NumberIn.not_no (ho j g3) hx g5).elim

theorem trunc_unique {q : Rat} {m n : Int} (hm : |q - (m : Rat)| < 1 ∧ |(m : Rat)| ≤ |q|) (hn : |q - (n : Rat)| < 1 ∧ |(n : Rat)| ≤ |q|) : m = n := by
  obtain ⟨m1, m2⟩ := hm
  obtain ⟨n1, n2⟩ := hn
  rw [abs_lt] at m1 n1
  rcases le_total 0 q with h | h
  · rw [abs_of_nonneg h, abs_le] at m2 n2
    have a : (m : Rat) < n + 1 := by linarith
    have b : (n : Rat) < m + 1 := by linarith
    have a' : m < n + 1 := by exact_mod_cast a
    have b' : n < m + 1 := by exact_mod_cast b
    omega
  · rw [abs_of_nonpos h, abs_le] at m2 n2
    have a : (m : Rat) < n + 1 := by linarith
    have b : (n : Rat) < m + 1 := by linarith
    have a' : m < n + 1 := by exact_mod_cast a
    have b' : n < m + 1 := by exact_mod_cast b
    omega

theorem HeadGives.numbers {l : List Char} {t : Sp3Epoch} (h : HeadGives l t) : ∀ m < 4, ∃ v, LongBegins (l.drop (8 + 3 * m)) v := by
  intro m hm
  obtain rfl | rfl | rfl | rfl : m = 0 ∨ m = 1 ∨ m = 2 ∨ m = 3 := by omega
  exacts [h.month.imp fun _ h => h.1, h.day.imp fun _ h => h.1, h.hour.imp fun _ h => h.1, h.minute.imp fun _ h => h.1]

theorem HeadGives.unique {l : List Char} {a b : Sp3Epoch} (ho : ¬ OddNumber (l.drop 20)) (ha : HeadGives l a) (hb : HeadGives l b) : a = b := by
  obtain ⟨-, ⟨v1, a1, a2, -⟩, ⟨v2, a3, a4⟩, ⟨v3, a5, a6⟩, ⟨v4, a7, a8⟩, ⟨v5, a9, a10⟩, q, a11, a12⟩ := ha
  obtain ⟨-, ⟨w1, b1, b2, -⟩, ⟨w2, b3, b4⟩, ⟨w3, b5, b6⟩, ⟨w4, b7, b8⟩, ⟨w5, b9, b10⟩, q', b11, b12⟩ := hb
  rw [← NumberIn.unique ho a11 b11] at b12
  have hus := trunc_unique a12 b12
  rw [a1.unique b1, ← b2] at a2
  rw [a3.unique b3, ← b4] at a4
  rw [a5.unique b5, ← b6] at a6
  rw [a7.unique b7, ← b8] at a8
  rw [a9.unique b9, ← b10] at a10
  cases a
  cases b
  simp only at a2 a4 a6 a8 a10 hus
  subst a2 a4 a6 a8 a10 hus
  rfl

theorem HeadGives.not_fails {l : List Char} {t : Sp3Epoch} {st : Int} (ho : ¬ OddNumber (l.drop 20)) (ha : HeadGives l t) (hf : HeadFails l st) : False := by
  cases hf with
  | start h => exact h ha.start
  | year h1 h2 =>
    obtain ⟨v, hv, h3, h4⟩ := ha.year
    rcases h2 with h2 | ⟨w, hw, h2⟩
    · exact hv.not_no h2
    · rw [hw.unique hv, ← h3] at h2
      exact h4 h2
  | part v i h1 h2 h3 h4 h5 h6 =>
    obtain ⟨w, hw⟩ := ha.numbers i h4
    exact hw.not_no h6
  | seconds v h1 h2 h3 h4 h5 =>
    obtain ⟨q, hq, _⟩ := ha.seconds
    exact NumberIn.not_no ho hq h5

theorem HeadFails.unique {l : List Char} {a b : Int} (ha : HeadFails l a) (hb : HeadFails l b) : a = b := by
  have hyear : ∀ v, LongBegins (l.drop 3) v → toInt32 v ≠ 0 → (NoLong (l.drop 3) ∨ ∃ v, LongBegins (l.drop 3) v ∧ toInt32 v = 0) → False := by
    rintro v hv h0 (h | ⟨w, hw, h⟩)
    · exact hv.not_no h
    · rw [hw.unique hv] at h; exact h0 h
  cases ha with
  | start h =>
    cases hb <;> first | rfl | (exact absurd ‹c!"* " <+: l› h)
  | year h1 h2 =>
    cases hb with
    | start g => exact absurd h1 g
    | year => rfl
    | part v i g1 g2 g3 g4 g5 g6 => exact (hyear v g2 g3 h2).elim
    | seconds v g1 g2 g3 g4 g5 => exact (hyear v g2 g3 h2).elim
  | part v i h1 h2 h3 h4 h5 h6 =>
    cases hb with
    | start g => exact absurd h1 g
    | year g1 g2 => exact (hyear v h2 h3 g2).elim
    | part w j g1 g2 g3 g4 g5 g6 =>
      rcases Nat.lt_trichotomy i j with hl | rfl | hl
      · obtain ⟨x, hx⟩ := g5 i hl
        exact (hx.not_no h6).elim
      · rfl
      · obtain ⟨x, hx⟩ := h5 j hl
        exact (hx.not_no g6).elim
    | seconds w g1 g2 g3 g4 g5 =>
      obtain ⟨x, hx⟩ := g4 i h4
      exact (hx.not_no h6).elim
  | seconds v h1 h2 h3 h4 h5 =>
    cases hb with
    | start g => exact absurd h1 g
    | year g1 g2 => exact (hyear v h2 h3 g2).elim
    | part w j g1 g2 g3 g4 g5 g6 =>
      obtain ⟨x, hx⟩ := h4 j g4
      exact (hx.not_no g6).elim
    | seconds => rfl

theorem records_unique {ls : List (List Char)} (ho : ∀ l ∈ ls, PlainPos l) : ∀ {a b : List Sp3Rec}, List.Forall₂ PosGives ls a → List.Forall₂ PosGives ls b →
    a.map Sp3Rec.core = b.map Sp3Rec.core := by
  induction ls with
  | nil => intro a b ha hb; cases ha; cases hb; rfl
  | cons l ls ih =>
    intro a b ha hb
    cases ha with
    | cons h1 h2 =>
      cases hb with
      | cons g1 g2 =>
        rw [List.map_cons, List.map_cons, h1.unique (ho l (by simp)) g1, ih (fun q hq => ho q (by simp [hq])) h2 g2]

theorem gives_mem {ls : List (List Char)} {recs : List Sp3Rec} (h : List.Forall₂ PosGives ls recs) {l : List Char} (hl : l ∈ ls) : ∃ r, PosGives l r := by
  induction h with
  | nil => cases hl
  | cons h1 _ ih =>
    rcases List.mem_cons.1 hl with rfl | hl
    · exact ⟨_, h1⟩
    · exact ih hl

theorem mem_before {ls : List (List Char)} {i j : Nat} {l : List Char} (h : ls[i]? = some l) (hij : i < j) (hP : isPLine l = true) : l ∈ (ls.take j).filter isPLine := by
  rw [List.mem_filter]
  refine ⟨List.mem_of_getElem? (i := i) ?_, hP⟩
  rw [List.getElem?_take, if_pos hij, h]

/-- C100: where no number is hexadecimal, an infinity or "not a number", the lines leave no choice: status, epoch, number of satellites, lines consumed and (flags
apart) the vector are determined. -/
theorem C100_determined {h : List Char} {ls : List (List Char)} {fin : Int} {t0 t1 t2 : Sp3Epoch} {vec v1 v2 : List Sp3Rec} {sr st1 st2 n1 n2 : Int} {k1 k2 : Nat}
    (hh : ¬ OddNumber (h.drop 20)) (ho : ∀ l ∈ ls, isPLine l = true → PlainPos l) (h1 : EpochOutcome h ls fin t0 vec sr st1 t1 v1 n1 k1)
    (h2 : EpochOutcome h ls fin t0 vec sr st2 t2 v2 n2 k2) :
    st1 = st2 ∧ t1 = t2 ∧ v1.map Sp3Rec.core = v2.map Sp3Rec.core ∧ n1 = n2 ∧ k1 = k2 := by
  have hof : ∀ l ∈ ls.filter isPLine, PlainPos l := fun l hl => ho l (List.mem_filter.1 hl).1 (List.mem_filter.1 hl).2
  have htake : ∀ j, ∀ l ∈ (ls.take j).filter isPLine, PlainPos l := fun j l hl =>
    ho l (List.mem_of_mem_take (List.mem_filter.1 hl).1) (List.mem_filter.1 hl).2
  have hvec : ∀ {q : List (List Char)} {a b : List Sp3Rec}, (∀ l ∈ q, PlainPos l) → List.Forall₂ PosGives q a → List.Forall₂ PosGives q b →
      (a ++ vec.drop a.length).map Sp3Rec.core = (b ++ vec.drop b.length).map Sp3Rec.core := by
    intro q a b hq ha hb
    rw [List.map_append, List.map_append, records_unique hq ha hb, ← ha.length_eq, ← hb.length_eq]
  cases h1 with
  | complete _ r1 a1 a2 a3 =>
    cases h2 with
    | complete _ r2 b1 b2 b3 => exact ⟨rfl, a1.unique hh b1, hvec hof a2 b2, by rw [← a2.length_eq, ← b2.length_eq], rfl⟩
    | header _ b => exact (a1.not_fails hh b).elim
    | record _ r2 j l st b1 b2 b3 b4 b5 b6 =>
      have hl : l ∈ ls := List.mem_of_getElem? b2
      obtain ⟨r, hr⟩ := gives_mem a2 (List.mem_filter.2 ⟨hl, b3⟩)
      exact (hr.not_fails (ho l hl b3) b4).elim
  | header _ a =>
    cases h2 with
    | complete _ r2 b1 b2 b3 => exact (b1.not_fails hh a).elim
    | header _ b => exact ⟨a.unique b, rfl, rfl, rfl, rfl⟩
    | record _ r2 j l st b1 b2 b3 b4 b5 b6 => exact (b1.not_fails hh a).elim
  | record _ r1 i q s1 a1 a2 a3 a4 a5 a6 =>
    cases h2 with
    | complete _ r2 b1 b2 b3 =>
      have hl : q ∈ ls := List.mem_of_getElem? a2
      obtain ⟨r, hr⟩ := gives_mem b2 (List.mem_filter.2 ⟨hl, a3⟩)
      exact (hr.not_fails (ho q hl a3) a4).elim
    | header _ b => exact (a1.not_fails hh b).elim
    | record _ r2 j l s2 b1 b2 b3 b4 b5 b6 =>
      rcases Nat.lt_trichotomy i j with hl | rfl | hl
      · obtain ⟨r, hr⟩ := gives_mem b5 (mem_before a2 hl a3)
        exact (hr.not_fails (ho q (List.mem_of_getElem? a2) a3) a4).elim
      · rw [a2] at b2
        cases b2
        exact ⟨by rw [a4.unique (ho q (List.mem_of_getElem? a2) a3) b4], a1.unique hh b1, hvec (htake i) a5 b5, rfl, rfl⟩
      · obtain ⟨r, hr⟩ := gives_mem a5 (mem_before b2 hl b3)
        exact (hr.not_fails (ho l (List.mem_of_getElem? b2) b3) b4).elim

end Ggnss
