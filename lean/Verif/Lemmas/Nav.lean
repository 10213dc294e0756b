import Verif.Model.Nav
import Verif.Spec.NavFile
import Verif.Lemmas.Stream
import Verif.Lemmas.Base
import Verif.Lemmas.Num
import Mathlib.Tactic.Ring
/-! Lemmas about the navigation reader. -/
namespace Ggnss

theorem for2cpp_line (l rest : List Char) (hl : IsCStr l) :
    for2cpp (l ++ NUL :: rest) = .ok (l.map d2e ++ NUL :: rest) := by
  induction l with
  | nil => simp [for2cpp]
  | cons c l ih =>
    obtain ⟨h1, h2⟩ := hl.cons
    simp [for2cpp, h1, ih h2, d2e]

theorem d2e_ne_nul {c : Char} (h : c ≠ NUL) : d2e c ≠ NUL := by
  unfold d2e; split <;> [decide; exact h]

/-- Reading `N` numbers at steps of `M` columns. -/
theorem char2double_fields (M N : Nat) (arr : List Char) (num : Nat → Numeral)
    (hnul : ∀ k < N, NUL ∈ arr.drop (M * k))
    (h : ∀ k < N, (num k).WF ∧ ∃ rest, arr.drop (M * k) = (num k).text ++ rest ∧ stopsNumber rest) :
    char2double false M N arr = .ok (true, (List.range N).map (fun k => (num k).value)) := by
  induction N generalizing arr num with
  | zero => rfl
  | succ N ih =>
    obtain ⟨hwf, rest, hr, hs⟩ := h 0 (by omega)
    have h0 := hnul 0 (by omega)
    simp only [Nat.mul_zero, List.drop_zero] at hr h0
    have ih' := ih (arr.drop M) (fun k => num (k + 1))
      (fun k hk => by
        rw [List.drop_drop]
        have := hnul (k + 1) (by omega)
        rwa [show M * (k + 1) = M + M * k by ring] at this)
      (fun k hk => by
        rw [List.drop_drop]
        have := h (k + 1) (by omega)
        rwa [show M * (k + 1) = M + M * k by ring] at this)
    have e : strtod arr = some ((num 0).value, rest, false) := by
      rw [hr]; exact strtod_numeral _ hwf _ hs
    simp only [char2double, strtodA, h0, if_true, Res.bind_ok, e, ih', Res.pure_eq, Bool.or_false]
    rw [List.range_succ_eq_map]
    simp [Function.comp_def]

theorem fillLine_eq (buf l : List Char) : fillLine buf l = l ++ NUL :: buf.drop (l.length + 1) := rfl

/-- Numbers of a line just read into the buffer, FORTRAN exponents replaced. -/
theorem char2double_line (l tail : List Char) (off N : Nat) (num : Nat → Numeral)
    (h : ∀ k < N, FieldAt l (off + 19 * k) (num k)) :
    char2double false 19 N ((l.map d2e ++ NUL :: tail).drop off)
      = .ok (true, (List.range N).map (fun k => (num k).value)) := by
  apply char2double_fields
  · intro k hk
    have := (h k hk).1
    rw [List.drop_drop, List.drop_append_of_le_length (by simpa using this)]
    simp
  · intro k hk
    obtain ⟨hle, hwf, rest, hr, hs⟩ := h k hk
    refine ⟨hwf, rest ++ NUL :: tail, ?_, ?_⟩
    · rw [List.drop_drop, List.drop_append_of_le_length (by simpa using hle), ← List.map_drop, hr]
      simp
    · intro c hc
      cases rest with
      | nil => simp at hc; subst hc; decide
      | cons x xs => simp at hc; subst hc; exact hs x (by simp)

theorem storeAt_ok {d vals : List Rat} {off : Nat} (h : off + vals.length ≤ d.length) :
    storeAt d off vals = .ok (d.take off ++ vals ++ d.drop (off + vals.length)) := by
  simp [storeAt, h]

/-- What `storeAt` changes. -/
theorem storeAt_get {d vals d' : List Rat} {off : Nat} (h : storeAt d off vals = .ok d') :
    d'.length = d.length ∧ off + vals.length ≤ d.length ∧
    (∀ k < vals.length, d'[off + k]? = vals[k]?) ∧
    (∀ i, (i < off ∨ off + vals.length ≤ i) → d'[i]? = d[i]?) := by
  unfold storeAt at h
  split at h
  · rename_i hle
    injection h with h
    subst h
    refine ⟨by simp; omega, hle, ?_, ?_⟩
    · intro k hk
      rw [List.append_assoc, List.getElem?_append_right (by simp)]
      rw [List.length_take, Nat.min_eq_left (by omega)]
      rw [Nat.add_sub_cancel_left, List.getElem?_append_left hk]
    · intro i hi
      rcases hi with hi | hi
      · rw [List.append_assoc, List.getElem?_append_left (by simp; omega)]
        rw [List.getElem?_take_of_lt hi]
      · rw [List.append_assoc, List.getElem?_append_right (by simp; omega),
          List.getElem?_append_right (by simp; omega), List.getElem?_drop]
        congr 1
        simp; omega
  · cases h

theorem linesText_cons (l : List Char) (ls : List (List Char)) :
    linesText (l :: ls) = l ++ '\n' :: linesText ls := by
  simp [linesText]

theorem linesText_append (a b : List (List Char)) :
    linesText (a ++ b) = linesText a ++ linesText b := by simp [linesText]

/-- The orbit lines of a well formed record. -/
theorem orbitLines_ok (sys : SatSys) (num : Nat → Nat → Numeral) (tail : List Char) :
    ∀ (ls : List (List Char)) (ln : Nat) (buf : List Char) (f : NavFrame) (s : Stream),
      s.good = true → s.rest = linesText ls ++ tail → (∀ l ∈ ls, LineOK l) →
      (∀ i l, ls[i]? = some l → ∀ k < recsOnLine sys (ln + i), FieldAt l (4 + 19 * k) (num (ln + 1 + i) k)) →
      f.data.length = 31 → 3 + 4 * (ln + ls.length) ≤ 31 →
      ∃ buf' d', orbitLines sys 0 ls.length ln buf f s =
          .ok (none, buf', { f with data := d' }, s.adv (linesText ls).length) ∧
        d'.length = 31 ∧
        (∀ i < ls.length, ∀ k < recsOnLine sys (ln + i),
          d'[3 + 4 * (ln + i) + k]? = some (num (ln + 1 + i) k).value) ∧
        (∀ m, m < 3 + 4 * ln ∨ 3 + 4 * (ln + ls.length) ≤ m ∨
            (∃ i < ls.length, m = 3 + 4 * (ln + i) + 3 ∧ recsOnLine sys (ln + i) = 3) → d'[m]? = f.data[m]?) := by
  intro ls
  induction ls with
  | nil =>
    intro ln buf f s hg hr _ _ hlen _
    refine ⟨buf, f.data, ?_, hlen, ?_, fun _ _ => rfl⟩
    · simp [orbitLines, linesText]
    · intro i hi; simp at hi
  | cons l ls ih =>
    intro ln buf f s hg hr hok hfld hlen hbnd
    have hl := hok l (by simp)
    rw [linesText_cons] at hr
    have hgl := Stream.getline_line (n := MAX_RECORD_CHARS) hg
      (l := l) (tail := linesText ls ++ tail) (by rw [hr]; simp) hl.1 (by simpa [MAX_RECORD_CHARS] using hl.2.2)
    have hc2d := char2double_line l (buf.drop (l.length + 1)) 4 (recsOnLine sys ln) (num (ln + 1))
      (fun k hk => hfld 0 l (by simp) k (by simpa using hk))
    have hrec : recsOnLine sys ln ≤ 4 ∧ 3 ≤ recsOnLine sys ln := by unfold recsOnLine; split <;> simp
    have hvl : ((List.range (recsOnLine sys ln)).map (fun k => (num (ln + 1) k).value)).length = recsOnLine sys ln := by simp
    obtain ⟨d1, hd1⟩ : ∃ d1, storeAt f.data (3 + ln * 4) ((List.range (recsOnLine sys ln)).map (fun k => (num (ln + 1) k).value)) = .ok d1 := by
      rw [storeAt_ok]; exact ⟨_, rfl⟩
      simp only [List.length_cons] at hbnd
      rw [hvl]; omega
    obtain ⟨g1, g2, g3, g4⟩ := storeAt_get hd1
    rw [hvl] at g2 g3 g4
    have hfail : (s.adv (l.length + 1)).fail = false := by
      rw [Stream.adv_fail]; exact ((Stream.good_iff s).1 hg).2
    have hrest' : (s.adv (l.length + 1)).rest = linesText ls ++ tail := by
      have : s.rest = (l ++ ['\n']) ++ (linesText ls ++ tail) := by rw [hr]; simp
      have := Stream.adv_rest_append this
      simpa using this
    obtain ⟨buf', d', e1, e2, e3, e4⟩ := ih (ln + 1) ((l.map d2e) ++ NUL :: buf.drop (l.length + 1))
      { f with data := d1 } (s.adv (l.length + 1)) (by simpa using hg) hrest'
      (fun x hx => hok x (by simp [hx]))
      (fun i x hx k hk => by
        have := hfld (i + 1) x (by simpa using hx) k (by rwa [show ln + (i + 1) = ln + 1 + i by omega])
        rwa [show ln + 1 + (i + 1) = ln + 1 + 1 + i by omega] at this)
      (by simp [g1, hlen]) (by simp only [List.length_cons] at hbnd; omega)
    refine ⟨buf', d', ?_, e2, ?_, ?_⟩
    · simp only [List.length_cons, orbitLines, hgl, hfail, Bool.false_eq_true, if_false, fillLine_eq]
      rw [for2cpp_line _ _ hl.2.1]
      simp only [Res.bind_ok, ne_eq, not_true_eq_false, decide_false, hc2d, hd1, if_true, e1]
      rw [linesText_cons]
      simp only [Stream.adv_adv, List.length_append, List.length_cons]
      congr 5
      omega
    · intro i hi k hk
      cases i with
      | zero =>
        simp only [Nat.add_zero] at hk ⊢
        have h4 := e4 (3 + 4 * ln + k) (Or.inl (by omega))
        rw [h4]
        have := g3 k hk
        rw [Nat.mul_comm] at this
        simp only
        rw [this]
        simp [hk]
      | succ i =>
        have := e3 i (by simpa using hi) k (by rwa [show ln + 1 + i = ln + (i + 1) by omega])
        rw [show ln + (i + 1) = ln + 1 + i by omega, show ln + 1 + (i + 1) = ln + 1 + 1 + i by omega]
        exact this
    · intro m hm
      have hb : 3 + 4 * (ln + 1 + ls.length) = 3 + 4 * (ln + (l :: ls).length) := by simp; omega
      rcases hm with hm | hm | ⟨i, hi, hm, hr3⟩
      · rw [e4 m (Or.inl (by omega))]; simp only; exact g4 m (Or.inl (by omega))
      · rw [e4 m (Or.inr (Or.inl (by omega)))]
        simp only; exact g4 m (Or.inr (by simp only [List.length_cons] at hm; omega))
      · cases i with
        | zero =>
          simp only [Nat.add_zero] at hm hr3
          rw [e4 m (Or.inl (by omega))]
          simp only; exact g4 m (Or.inr (by omega))
        | succ i =>
          rw [e4 m (Or.inr (Or.inr ⟨i, by simpa using hi, by omega,
            by rwa [show ln + 1 + i = ln + (i + 1) by omega]⟩))]
          simp only; exact g4 m (Or.inr (by omega))

theorem strtol_prn (l tail : List Char) (prn : Int) (hne : l ≠ []) (h : PrnAt l prn) :
    ∃ r, strtol ((l ++ NUL :: tail).drop 1) = some (prn, r, false) := by
  obtain ⟨k, ds, rest, hl, hd, hds, hr, hv, h0, h1⟩ := h
  have hlen : 1 ≤ l.length := List.length_pos_iff.2 hne
  rw [List.drop_append_of_le_length hlen, hl]
  simp only [List.append_assoc]
  have hstop : ∀ c, (rest ++ NUL :: tail).head? = some c → c.isDigit = false := by
    intro c hc
    cases rest with
    | nil => simp at hc; subst hc; decide
    | cons x xs => simp at hc; subst hc; exact hr x (by simp)
  have hsp := dropWhile_blanks k (ds ++ (rest ++ NUL :: tail)) (fun c hc =>
    isDigit_not_space c (hd c (head_digits_append hds hc)))
  have hsg := takeSign_other (ds ++ (rest ++ NUL :: tail)) (fun c hc =>
    isDigit_not_sign c (hd c (head_digits_append hds hc)))
  obtain ⟨hw1, hw2⟩ := takeWhile_digits ds (rest ++ NUL :: tail) hd hstop
  unfold strtol
  simp only [hsp, hsg, hw1, hw2]
  rw [if_neg hds]
  simp only [Bool.false_eq_true, if_false, digitsVal, hv]
  rw [if_neg (by unfold LONG_MAX; omega), if_neg (by unfold LONG_MIN; omega)]
  exact ⟨_, rfl⟩

theorem toInt32_small {v : Int} (h0 : -2147483648 ≤ v) (h1 : v < 2147483648) : toInt32 v = v := by
  unfold toInt32; omega

/-- The layout of a system's record: `n` middle lines and a last one with `c` numbers. -/
theorem layout (sys : SatSys) (h : sys ≠ .mixed) :
    ∃ n c : Nat, linesPerSatsys sys = ((n : Int) + 2, c) ∧ specLines sys = n + 2 ∧ c ≤ 4 ∧ 3 + 4 * n + c ≤ 31 ∧
      (∀ i < n, specCount sys (i + 1) = recsOnLine sys i) ∧ specCount sys (n + 1) = c := by
  cases sys
  · exact ⟨6, 2, rfl, rfl, by omega, by omega, by decide, rfl⟩
  · exact ⟨2, 4, rfl, rfl, by omega, by omega, by decide, rfl⟩
  · exact ⟨2, 4, rfl, rfl, by omega, by omega, by decide, rfl⟩
  · exact ⟨6, 1, rfl, rfl, by omega, by omega, by decide, rfl⟩
  · exact ⟨6, 2, rfl, rfl, by omega, by omega, by decide, rfl⟩
  · exact ⟨6, 2, rfl, rfl, by omega, by omega, by decide, rfl⟩
  · exact ⟨6, 1, rfl, rfl, by omega, by omega, by decide, rfl⟩
  · exact absurd rfl h

theorem gloScale_get (d : List Rat) (i : Nat) :
    (gloScale d)[i]? = d[i]?.map (fun v => if i ∈ [3, 4, 5, 7, 8, 9, 11, 12, 13] then v * 1000 else v) := by
  simp [gloScale, List.getElem?_mapIdx]

theorem gloScale_length (d : List Rat) : (gloScale d).length = d.length := by simp [gloScale]

/-- A well formed record is read completely. -/
theorem readBlock_record (strptime : List Char → Res DateTime) (junk : List Char) (f : NavFrame)
    (s : Stream) (sys : SatSys) (prn : Int) (num : Nat → Nat → Numeral) (ls : List (List Char))
    (tail : List Char) (toc : DateTime) (hrec : IsRecord sys prn num ls)
    (htoc : ∀ l, ls.head? = some l → strptime (l.drop 3) = .ok toc)
    (hg : s.good = true) (hr : s.rest = linesText ls ++ tail) (hlen : f.data.length = 31) :
    ∃ d', readBlock strptime junk f s 0 =
        .ok ⟨0, { f with sys := sys, toc := toc, prn := prn, data := d' }, s.adv (linesText ls).length, 0⟩ ∧
      d'.length = 31 ∧
      (∀ j < specLines sys, ∀ k < specCount sys j,
        d'[specIndex j k]? = some (specUnit sys j k * (num j k).value)) ∧
      (∀ i, (∀ j < specLines sys, ∀ k < specCount sys j, i ≠ specIndex j k) → d'[i]? = f.data[i]?) := by
  obtain ⟨n, c, hlps, hsl, hc4, hbnd, hcnt, hlast⟩ := layout sys hrec.notMixed
  have hcount := hrec.count
  rw [hsl] at hcount
  -- split the lines
  obtain ⟨l0, rest1, rfl⟩ : ∃ l0 rest1, ls = l0 :: rest1 := by
    cases ls with
    | nil => simp at hcount
    | cons a b => exact ⟨a, b, rfl⟩
  obtain ⟨mid, lst, rfl⟩ : ∃ mid lst, rest1 = mid ++ [lst] := by
    have : rest1 ≠ [] := by intro h; subst h; simp at hcount
    exact ⟨rest1.dropLast, rest1.getLast this, (List.dropLast_append_getLast this).symm⟩
  have hmid : mid.length = n := by simp at hcount; omega
  have ok0 := hrec.fits l0 (by simp)
  have okl := hrec.fits lst (by simp)
  have hlet := hrec.letter l0 rfl
  have hne : l0 ≠ [] := by intro h; rw [h] at hlet; simp at hlet
  have hnum0 := hrec.numbers 0 l0 rfl
  simp only [if_true] at hnum0
  have h23 : 23 ≤ l0.length := (hnum0 0 (by simp [specCount])).1
  -- first line
  have hg0 := Stream.getline_line (n := MAX_RECORD_CHARS) hg (l := l0)
    (tail := linesText (mid ++ [lst]) ++ tail) (by rw [hr, linesText_cons]; simp) ok0.1
    (by simpa [MAX_RECORD_CHARS] using ok0.2.2)
  have hf0 : (s.adv (l0.length + 1)).fail = false := by
    rw [Stream.adv_fail]; exact ((Stream.good_iff s).1 hg).2
  have hr1 : (s.adv (l0.length + 1)).rest = linesText mid ++ (linesText [lst] ++ tail) := by
    have : s.rest = (l0 ++ ['\n']) ++ (linesText mid ++ (linesText [lst] ++ tail)) := by
      rw [hr, linesText_cons, linesText_append]; simp
    simpa using Stream.adv_rest_append this
  have hget0 : getAt (fillLine junk l0) 0 = .ok (satsysToChar sys) := by
    unfold getAt fillLine
    cases l0 with
    | nil => exact absurd rfl hne
    | cons a b => simp at hlet; simp [hlet]
  have hsys : charToSatsys (satsysToChar sys) = .ok sys := by cases sys <;> rfl
  have hcstr : cstrOf ((fillLine junk l0).drop 3) = .ok (l0.drop 3) := by
    unfold fillLine
    rw [List.drop_append_of_le_length (by omega)]
    exact cstrOf_append (IsCStr.drop ok0.2.1 3) _
  have htoc0 := htoc l0 rfl
  obtain ⟨r, hprn⟩ := strtol_prn l0 (junk.drop (l0.length + 1)) prn hne (hrec.prn l0 rfl)
  obtain ⟨_, _, _, _, _, _, _, _, hp0, hp1⟩ := hrec.prn l0 rfl
  have hstl : strtolA ((fillLine junk l0).drop 1) = .ok (some (prn, r, false)) := by
    unfold strtolA fillLine
    rw [if_pos (by
      rw [List.drop_append_of_le_length (by omega)]; simp), hprn]
  have hprn32 : toInt32 prn = prn := toInt32_small (by omega) (by omega)
  have hf2c : for2cpp ((fillLine junk l0).drop 23) = .ok ((l0.drop 23).map d2e ++ NUL :: junk.drop (l0.length + 1)) := by
    unfold fillLine
    rw [List.drop_append_of_le_length (by omega)]
    exact for2cpp_line _ _ (IsCStr.drop ok0.2.1 23)
  have htake : ((fillLine junk l0).take 23).length = 23 := by
    unfold fillLine; rw [List.length_take]; simp; omega
  have hdrop23 : ((fillLine junk l0).take 23 ++ ((l0.drop 23).map d2e ++ NUL :: junk.drop (l0.length + 1))).drop 23
      = (l0.map d2e ++ NUL :: junk.drop (l0.length + 1)).drop 23 := by
    rw [List.drop_append_of_le_length (by omega), List.drop_of_length_le (by omega), List.nil_append,
      List.drop_append_of_le_length (by simpa using h23), List.map_drop]
  have hc0 := char2double_line l0 (junk.drop (l0.length + 1)) 23 3 (num 0) (fun k hk => hnum0 k hk)
  obtain ⟨d0, hd0⟩ : ∃ d0, storeAt f.data 0 ((List.range 3).map (fun k => (num 0 k).value)) = .ok d0 := by
    rw [storeAt_ok (by simp; omega)]; exact ⟨_, rfl⟩
  obtain ⟨p1, p2, p3, p4⟩ := storeAt_get hd0
  -- middle lines
  obtain ⟨buf', d1, e1, e2, e3, e4⟩ := orbitLines_ok sys num (linesText [lst] ++ tail) mid 0
    ((fillLine junk l0).take 23 ++ ((l0.drop 23).map d2e ++ NUL :: junk.drop (l0.length + 1)))
    { f with sys := sys, toc := toc, prn := prn, data := d0 } (s.adv (l0.length + 1))
    (by simpa using hg) hr1 (fun l hl => hrec.fits l (by simp [hl]))
    (fun i l hl k hk => by
      have hi : i < mid.length := by
        rw [List.getElem?_eq_some_iff] at hl; exact hl.1
      have h1 := hrec.numbers (i + 1) l (by
        simp only [List.getElem?_cons_succ]; rw [List.getElem?_append_left hi]; exact hl) k (by
        rw [hcnt i (by omega)]; simpa using hk)
      simp only [Nat.add_one_ne_zero, if_false] at h1
      rwa [show 0 + 1 + i = i + 1 by omega])
    (by simp [p1, hlen]) (by omega)
  -- last line
  have hgm : ((s.adv (l0.length + 1)).adv (linesText mid).length).good = true := by simpa using hg
  have hrm : ((s.adv (l0.length + 1)).adv (linesText mid).length).rest = lst ++ '\n' :: tail := by
    rw [Stream.adv_rest_append hr1]; simp [linesText]
  have hgl := Stream.getline_line (n := MAX_RECORD_CHARS) hgm hrm okl.1
    (by simpa [MAX_RECORD_CHARS] using okl.2.2)
  have hfl : (((s.adv (l0.length + 1)).adv (linesText mid).length).adv (lst.length + 1)).fail = false := by
    simp only [Stream.adv_fail]; exact ((Stream.good_iff s).1 hg).2
  have hnuml : ∀ k < c, FieldAt lst (4 + 19 * k) (num (n + 1) k) := by
    intro k hk
    have h1 := hrec.numbers (n + 1) lst (by
      simp only [List.getElem?_cons_succ]
      rw [List.getElem?_append_right (by omega)]
      simp [hmid]) k (by rw [hlast]; exact hk)
    simpa using h1
  have hcl := char2double_line lst (buf'.drop (lst.length + 1)) 4 c (num (n + 1)) hnuml
  obtain ⟨d2, hd2⟩ : ∃ d2, storeAt d1 (3 + n * 4) ((List.range c).map (fun k => (num (n + 1) k).value)) = .ok d2 := by
    rw [storeAt_ok (by simp; omega)]; exact ⟨_, rfl⟩
  obtain ⟨q1, q2, q3, q4⟩ := storeAt_get hd2
  simp only [List.length_map, List.length_range] at p2 p3 p4 q2 q3 q4
  -- values in d2
  have hval : ∀ j < n + 2, ∀ k < specCount sys j, d2[specIndex j k]? = some (num j k).value := by
    intro j hj k hk
    rcases Nat.eq_zero_or_pos j with rfl | hjp
    · have hk3 : k < 3 := by simpa [specCount] using hk
      have hi : specIndex 0 k = k := rfl
      rw [hi, q4 k (Or.inl (by omega)), e4 k (Or.inl (by omega))]
      have := p3 k hk3
      simp only [Nat.zero_add] at this
      rw [this]; simp [hk3]
    · obtain ⟨i, rfl⟩ : ∃ i, j = i + 1 := ⟨j - 1, by omega⟩
      have hidx : specIndex (i + 1) k = 3 + 4 * i + k := by simp [specIndex]
      rw [hidx]
      by_cases hin : i < n
      · rw [hcnt i hin] at hk
        have hrec4 : recsOnLine sys i ≤ 4 := by unfold recsOnLine; split <;> simp
        rw [q4 _ (Or.inl (by omega))]
        have h3 := e3 i (by omega) k (by simpa using hk)
        rwa [show 0 + i = i by omega, show 0 + 1 + i = i + 1 by omega] at h3
      · obtain rfl : i = n := by omega
        rw [hlast] at hk
        have h3 := q3 k hk
        rw [show 3 + 4 * i + k = 3 + i * 4 + k by omega, h3]
        simp [hk]
  have hother : ∀ i, (∀ j < n + 2, ∀ k < specCount sys j, i ≠ specIndex j k) → d2[i]? = f.data[i]? := by
    intro i hi
    have hi0 : 3 ≤ i := by
      by_contra h
      exact hi 0 (by omega) i (by simp [specCount]; omega) rfl
    by_cases hil : i < 3 + 4 * n
    · have hq := hi ((i - 3) / 4 + 1) (by omega) ((i - 3) % 4)
      have hii : specIndex ((i - 3) / 4 + 1) ((i - 3) % 4) = i := by
        simp [specIndex]; omega
      rw [hcnt _ (by omega), hii] at hq
      have hge : ¬ (i - 3) % 4 < recsOnLine sys ((i - 3) / 4) := fun h => hq h rfl
      have hr3 : recsOnLine sys ((i - 3) / 4) = 3 ∧ (i - 3) % 4 = 3 := by
        have h4 : recsOnLine sys ((i - 3) / 4) = 3 ∨ recsOnLine sys ((i - 3) / 4) = 4 := by
          unfold recsOnLine; split <;> simp
        omega
      rw [q4 i (Or.inl (by omega)),
        e4 i (Or.inr (Or.inr ⟨(i - 3) / 4, by omega, by omega, by rw [Nat.zero_add]; exact hr3.1⟩))]
      exact p4 i (Or.inr (by omega))
    · have hq : 3 + 4 * n + c ≤ i := by
        by_contra h
        exact hi (n + 1) (by omega) (i - 3 - 4 * n) (by rw [hlast]; omega) (by simp [specIndex]; omega)
      rw [q4 i (Or.inr (by omega)), e4 i (Or.inr (Or.inl (by omega)))]
      exact p4 i (Or.inr (by omega))
  have hrun : readBlock strptime junk f s 0 =
      .ok ⟨0, { f with sys := sys, toc := toc, prn := prn, data := if sys = .glonass then gloScale d2 else d2 },
        s.adv (linesText (l0 :: (mid ++ [lst]))).length, 0⟩ := by
    unfold readBlock
    simp only [hg0, hf0, Bool.false_eq_true, if_false, hget0, Res.bind_ok, hsys, hcstr, htoc0, hstl, strtolVal, strtolErr, hprn32]
    rw [if_neg (by
      intro h; rcases h with h | h
      · omega
      · simp [ERANGE] at h)]
    simp only [hf2c, Res.bind_ok, hdrop23, ne_eq, not_true_eq_false, decide_false, hc0, hd0, Bool.not_true,
      Bool.false_eq_true, if_false]
    rw [hlps]
    simp only
    rw [if_neg (by omega)]
    have hn : ((n : Int) + 2 - 1 - 1).toNat = n := by omega
    rw [hn]
    rw [hmid] at e1
    rw [e1]
    simp only [Res.bind_ok, hgl, hfl, Bool.false_eq_true, if_false, fillLine_eq]
    rw [for2cpp_line _ _ okl.2.1]
    simp only [Res.bind_ok, hcl, hd2, Bool.not_true, Bool.false_eq_true, if_false, Res.pure_eq]
    congr 2
    rw [linesText_cons, linesText_append]
    simp only [Stream.adv_adv, List.length_append, List.length_cons]
    congr 1
    simp [linesText]; omega
  refine ⟨_, hrun, ?_, ?_, ?_⟩
  · split
    · rw [gloScale_length, q1, e2]
    · rw [q1, e2]
  · rw [hsl]
    intro j hj k hk
    have hv := hval j hj k hk
    split
    · rename_i hglo
      subst hglo
      rw [gloScale_get, hv]
      have hn2 : n = 2 := by simp [specLines] at hsl; omega
      subst hn2
      have hk4 : k < 4 := by unfold specCount at hk; split at hk <;> [omega; (split at hk <;> [omega; (split at hk <;> [(split at hk <;> omega); omega])])]
      have hk3 : j = 0 → k < 3 := by intro h; subst h; simpa [specCount] using hk
      have hmem : specIndex j k ∈ [3, 4, 5, 7, 8, 9, 11, 12, 13] ↔ (j ≠ 0 ∧ k ≠ 3) := by
        have hj4 : j = 0 ∨ j = 1 ∨ j = 2 ∨ j = 3 := by omega
        have hk4' : k = 0 ∨ k = 1 ∨ k = 2 ∨ k = 3 := by omega
        rcases hj4 with rfl | rfl | rfl | rfl <;> rcases hk4' with rfl | rfl | rfl | rfl <;>
          simp [specIndex] at hk3 ⊢
      simp only [Option.map_some, specUnit, true_and]
      by_cases hm : j ≠ 0 ∧ k ≠ 3
      · rw [if_pos (hmem.2 hm), if_pos hm]; congr 1; ring
      · rw [if_neg (fun h => hm (hmem.1 h)), if_neg hm]; simp
    · rename_i hglo
      rw [hv]; simp [specUnit, hglo]
  · rw [hsl]
    intro i hi
    have ho := hother i hi
    split
    · rename_i hglo
      subst hglo
      rw [gloScale_get, ho]
      have hn2 : n = 2 := by simp [specLines] at hsl; omega
      subst hn2
      have hnm : i ∉ [3, 4, 5, 7, 8, 9, 11, 12, 13] := by
        intro hm
        have h1 := hi ((i - 3) / 4 + 1)
        have h2 : i < 14 ∧ 3 ≤ i := by simp at hm; omega
        have h3 := h1 (by omega) ((i - 3) % 4)
        have h4 : specCount .glonass ((i - 3) / 4 + 1) = 4 := by
          have : (i - 3) / 4 = 0 ∨ (i - 3) / 4 = 1 ∨ (i - 3) / 4 = 2 := by omega
          rcases this with h | h | h <;> rw [h] <;> rfl
        rw [h4] at h3
        exact h3 (by omega) (by simp [specIndex]; omega)
      simp only [if_neg hnm]
      cases f.data[i]? <;> rfl
    · exact ho

end Ggnss
