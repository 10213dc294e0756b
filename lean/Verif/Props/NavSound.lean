import Verif.Spec.NavSound
import Verif.Lemmas.RealText
import Verif.Props.NavBad
import Verif.Props.BernSound
/-! # C99: a navigation record that was read stands in the file -/
namespace Ggnss

theorem OddNumber.of_nul {a b : List Char} (h : OddNumber (a ++ NUL :: b)) : OddNumber a := by
  rcases RealBegins.of_nul (v := 0) (Or.inr h) with h0 | h0
  · rcases RealBegins.of_nul (v := 1) (Or.inr h) with h1 | h1
    · exact absurd (h0.unique h1) (by norm_num)
    · exact h1
  · exact h0

/-- `strtod` in a buffer that holds a text. -/
theorem strtod_line (a b : List Char) : (∃ v r, strtod (a ++ NUL :: b) = some (v, r, false) ∧ NumberIn a v) ∨
    ((strtod (a ++ NUL :: b) = none ∨ ∃ v r, strtod (a ++ NUL :: b) = some (v, r, true)) ∧ NoNumberIn a) := by
  have hodd : OddNumber a ∨ ¬ OddNumber (a ++ NUL :: b) := by
    by_cases h : OddNumber (a ++ NUL :: b)
    · exact Or.inl h.of_nul
    · exact Or.inr h
  rcases hodd with ho | hn
  · cases h : strtod (a ++ NUL :: b) with
    | none => exact Or.inr ⟨Or.inl rfl, Or.inl ho⟩
    | some x =>
      obtain ⟨v, r, _ | _⟩ := x
      · exact Or.inl ⟨v, r, rfl, Or.inl ho⟩
      · exact Or.inr ⟨Or.inr ⟨v, r, rfl⟩, Or.inl ho⟩
  · rcases strtod_text (a ++ NUL :: b) with h | ⟨h, hno⟩ | ⟨v, r, h, hd⟩
    · exact absurd h hn
    · exact Or.inr ⟨Or.inl h, Or.inr (fun v hv => absurd (hv.nul b) (hno v))⟩
    · have hda : DecBegins a v ∨ OddNumber a := RealBegins.of_nul (Or.inl hd)
      by_cases hf : FitsDouble v
      · rw [dblErange_fits hf] at h
        refine Or.inl ⟨v, r, h, ?_⟩
        rcases hda with hda | hda
        · exact Or.inr ⟨hda, hf⟩
        · exact Or.inl hda
      · rw [(dblErange_iff v).2 hf] at h
        refine Or.inr ⟨Or.inr ⟨v, r, h⟩, ?_⟩
        rcases hda with hda | hda
        · refine Or.inr (fun w hw => ?_)
          rw [hw.unique hda]
          exact hf
        · exact Or.inl hda

/-- The numbers of a line, whatever it looks like. -/
theorem char2double_text (b : List Char) : ∀ (N : Nat) (a : List Char) (e : Bool), (∀ k < N, 19 * k ≤ a.length) → ∀ r, char2double e 19 N (a ++ NUL :: b) = .ok r →
    (r.1 = true ∧ e = false ∧ r.2.length = N ∧ ∀ k < N, ∃ v, r.2[k]? = some v ∧ NumberIn (a.drop (19 * k)) v) ∨
    (r.1 = false ∧ r.2.length ≤ N ∧ (e = false → ∃ k < N, NoNumberIn (a.drop (19 * k)))) := by
  intro N
  induction N with
  | zero =>
    intro a e _ r h
    cases h
    cases e
    · exact Or.inl ⟨rfl, rfl, rfl, fun k hk => absurd hk (Nat.not_lt_zero k)⟩
    · exact Or.inr ⟨rfl, Nat.le_refl _, by simp⟩
  | succ N ih =>
    intro a e hk r h
    rw [char2double] at h
    have hA : strtodA (a ++ NUL :: b) = .ok (strtod (a ++ NUL :: b)) := by unfold strtodA; rw [if_pos (by simp)]
    rw [hA, Res.bind_ok] at h
    have next : ∀ e', ∀ r', char2double e' 19 N ((a ++ NUL :: b).drop 19) = .ok r' →
      (r'.1 = true ∧ e' = false ∧ r'.2.length = N ∧ ∀ k < N, ∃ v, r'.2[k]? = some v ∧ NumberIn (a.drop (19 * (k + 1))) v) ∨
      (r'.1 = false ∧ r'.2.length ≤ N ∧ (e' = false → ∃ k < N, NoNumberIn (a.drop (19 * (k + 1))))) := by
      intro e' r' h'
      cases N with
      | zero =>
        rw [char2double] at h'
        cases h'
        cases e'
        · exact Or.inl ⟨rfl, rfl, rfl, fun k hk => absurd hk (Nat.not_lt_zero k)⟩
        · exact Or.inr ⟨rfl, Nat.le_refl _, by simp⟩
      | succ N =>
        have h19 : 19 ≤ a.length := by simpa using hk 1 (by omega)
        rw [List.drop_append_of_le_length h19] at h'
        have := ih (a.drop 19) e' (fun k hk' => by have := hk (k + 1) (by omega); simp; omega) r' h'
        simpa only [List.drop_drop, show ∀ k, 19 + 19 * k = 19 * (k + 1) from fun k => by omega] using this
    rcases strtod_line a b with ⟨v, rr, hs, hv⟩ | ⟨hs | ⟨v, rr, hs⟩, hno⟩
    · rw [hs] at h
      obtain ⟨r', h', h⟩ := Res.bind_eq_ok.1 h
      cases h
      rw [Bool.or_false] at h'
      rcases next _ _ h' with ⟨g1, g2, g3, g4⟩ | ⟨g1, g2, g3⟩
      · refine Or.inl ⟨g1, g2, by simp [g3], fun k hk' => ?_⟩
        cases k with
        | zero => exact ⟨v, rfl, by simpa using hv⟩
        | succ k => obtain ⟨w, hw1, hw2⟩ := g4 k (by omega); exact ⟨w, by simpa using hw1, hw2⟩
      · refine Or.inr ⟨g1, by simpa using g2, fun he => ?_⟩
        obtain ⟨k, hk', hn⟩ := g3 he
        exact ⟨k + 1, by omega, hn⟩
    · rw [hs] at h
      cases h
      exact Or.inr ⟨rfl, by simp, fun _ => ⟨0, by omega, by simpa using hno⟩⟩
    · rw [hs] at h
      obtain ⟨r', h', h⟩ := Res.bind_eq_ok.1 h
      cases h
      rw [Bool.or_true] at h'
      rcases next _ _ h' with ⟨_, g2, _⟩ | ⟨g1, g2, g3⟩
      · cases g2
      · exact Or.inr ⟨g1, by simpa using g2, fun _ => ⟨0, by omega, by simpa using hno⟩⟩

/-- The middle lines of a record, whatever they look like. -/
theorem orbitLines_text (sys : SatSys) (tail : List Char) :
    ∀ (ls : List (List Char)) (ln : Nat) (buf : List Char) (f : NavFrame) (s : Stream),
      s.good = true → s.rest = linesText ls ++ tail → (∀ l ∈ ls, LineOK l) →
      (∀ i l, ls[i]? = some l → ∀ k < recsOnLine sys (ln + i), 4 + 19 * k ≤ l.length) →
      ∀ o, orbitLines sys 0 ls.length ln buf f s = .ok o →
      o.2.2.1.sys = f.sys ∧ o.2.2.1.prn = f.prn ∧ o.2.2.1.toc = f.toc ∧ o.2.2.1.data.length = f.data.length ∧
      ((o.1 = none ∧ o.2.2.2 = s.adv (linesText ls).length ∧
        (∀ i l, ls[i]? = some l → ∀ k < recsOnLine sys (ln + i), ∃ v, NumberIn (numText l (4 + 19 * k)) v ∧ o.2.2.1.data[3 + 4 * (ln + i) + k]? = some v) ∧
        (∀ m, (∀ i < ls.length, ∀ k < recsOnLine sys (ln + i), m ≠ 3 + 4 * (ln + i) + k) → o.2.2.1.data[m]? = f.data[m]?)) ∨
      (o.1 = some 6 ∧ ∃ j l k, ls[j]? = some l ∧ k < recsOnLine sys (ln + j) ∧ NoNumberIn (numText l (4 + 19 * k)) ∧
        (∀ i < j, ∀ q, ls[i]? = some q → ∀ m < recsOnLine sys (ln + i), ∃ v, NumberIn (numText q (4 + 19 * m)) v) ∧
        o.2.2.2 = s.adv (linesText (ls.take (j + 1))).length)) := by
  intro ls
  induction ls with
  | nil =>
    intro ln buf f s hg hr _ _ o h
    cases h
    refine ⟨rfl, rfl, rfl, rfl, Or.inl ⟨rfl, by simp [linesText], by simp, fun _ _ => rfl⟩⟩
  | cons l ls ih =>
    intro ln buf f s hg hr hok hfld o h
    have hl := hok l (by simp)
    rw [linesText_cons] at hr
    have hgl := Stream.getline_line (n := MAX_RECORD_CHARS) hg
      (l := l) (tail := linesText ls ++ tail) (by rw [hr]; simp) hl.1 (by simpa [MAX_RECORD_CHARS] using hl.2.2)
    have hff : (s.adv (l.length + 1)).fail = false := by
      rw [Stream.adv_fail]; exact ((Stream.good_iff s).1 hg).2
    have hrec : recsOnLine sys ln ≤ 4 ∧ 3 ≤ recsOnLine sys ln := by unfold recsOnLine; split <;> simp
    have h4 : 4 ≤ l.length := by simpa using hfld 0 l rfl 0 (by simp; omega)
    rw [List.length_cons, orbitLines] at h
    simp only [hgl, hff, Bool.false_eq_true, if_false] at h
    rw [fillLine_eq, for2cpp_line l _ hl.2.1, Res.bind_ok, List.drop_append_of_le_length (by simpa using h4)] at h
    obtain ⟨r, hr1, h⟩ := Res.bind_eq_ok.1 h
    obtain ⟨d, hd, h⟩ := Res.bind_eq_ok.1 h
    obtain ⟨hdl, hdb, hdk, hdo⟩ := storeAt_get hd
    have hfields := char2double_text _ (recsOnLine sys ln) ((l.map d2e).drop 4) false (fun k hk => by
      have := hfld 0 l rfl k (by simpa using hk); simp; omega) r (by simpa using hr1)
    have htxt : ∀ k, ((l.map d2e).drop 4).drop (19 * k) = numText l (4 + 19 * k) := by
      intro k; unfold numText; rw [List.drop_drop, List.map_drop]
    simp only [htxt] at hfields
    rcases hfields with ⟨r1, -, r2, r3⟩ | ⟨r1, r2, r3⟩
    · rw [if_pos r1] at h
      have hrest : (s.adv (l.length + 1)).rest = linesText ls ++ tail := by
        have : s.rest = (l ++ ['\n']) ++ (linesText ls ++ tail) := by rw [hr]; simp
        simpa using Stream.adv_rest_append this
      have hrec2 := ih (ln + 1) _ _ (s.adv (l.length + 1)) (by simpa using hg) hrest (fun q hq => hok q (by simp [hq]))
        (fun i q hq k hk => hfld (i + 1) q (by simpa using hq) k (by rwa [show ln + (i + 1) = ln + 1 + i by omega])) o h
      obtain ⟨a1, a2, a3, a4, hcase⟩ := hrec2
      refine ⟨a1, a2, a3, by rw [a4]; exact hdl, ?_⟩
      rcases hcase with ⟨b1, b2, b3, b4⟩ | ⟨b1, j, q, k, b2, b3, b4, b5, b6⟩
      · refine Or.inl ⟨b1, ?_, ?_, ?_⟩
        · rw [b2, Stream.adv_adv, linesText_cons]; simp; congr 1; omega
        · intro i q hq k hk
          cases i with
          | zero =>
            obtain rfl : l = q := by simpa using hq
            simp only [Nat.add_zero] at hk
            obtain ⟨v, hv1, hv2⟩ := r3 k hk
            refine ⟨v, hv2, ?_⟩
            rw [b4 _ (fun i _ k' _ => by omega)]
            have := hdk k (by rw [r2]; exact hk)
            rw [hv1] at this
            rw [← this]
            show d[_]? = d[_]?
            congr 1
            omega
          | succ i =>
            obtain ⟨v, hv1, hv2⟩ := b3 i q (by simpa using hq) k (by rwa [show ln + 1 + i = ln + (i + 1) by omega])
            exact ⟨v, hv1, by rw [← hv2]; congr 1; omega⟩
        · intro m hm
          rw [b4 m (fun i hi k hk => by
            have := hm (i + 1) (by simp; omega) k (by rwa [show ln + (i + 1) = ln + 1 + i by omega])
            omega)]
          refine hdo m ?_
          rw [r2]
          by_contra hc
          push Not at hc
          exact hm 0 (by simp) (m - (3 + ln * 4)) (by simp; omega) (by omega)
      · refine Or.inr ⟨b1, j + 1, q, k, by simpa using b2, by rwa [show ln + (j + 1) = ln + 1 + j by omega], b4, ?_, ?_⟩
        · intro i hi p hp m hm
          cases i with
          | zero =>
            obtain rfl : l = p := by simpa using hp
            obtain ⟨v, _, hv⟩ := r3 m (by simpa using hm)
            exact ⟨v, hv⟩
          | succ i => exact b5 i (by omega) p (by simpa using hp) m (by rwa [show ln + 1 + i = ln + (i + 1) by omega])
        · rw [b6, Stream.adv_adv, List.take_succ_cons, linesText_cons]; simp; congr 1; omega
    · rw [if_neg (by rw [r1]; decide)] at h
      cases h
      obtain ⟨k, hk, hn⟩ := r3 trivial
      exact ⟨rfl, rfl, rfl, hdl, Or.inr ⟨rfl, 0, l, k, rfl, by simpa using hk, hn, fun i hi => absurd hi (Nat.not_lt_zero i), by simp [linesText]⟩⟩

theorem readBlock_text {strptime : List Char → Res DateTime} {junk : List Char} {f : NavFrame} {s : Stream} {sys : SatSys} {ls : List (List Char)} {tail : List Char}
    (hb : IsBlock sys ls) (hrc : ReachesColumns sys ls) (hg : s.good = true) (hr : s.rest = linesText ls ++ tail) {o : NavOut}
    (h : readBlock strptime junk f s 0 = .ok o) :
    ∃ m, RecordOutcome strptime sys ls f o.status o.frame m ∧ o.strm = s.adv (linesText (ls.take m)).length ∧ o.errno = 0 := by
  obtain ⟨n, c, hlps, hsl, hc4, hbnd, hcnt, hlast⟩ := layout sys hb.notMixed
  have hcount := hb.count
  rw [hsl] at hcount
  obtain ⟨l0, rest1, rfl⟩ : ∃ l0 rest1, ls = l0 :: rest1 := by
    cases ls with
    | nil => simp at hcount
    | cons a b => exact ⟨a, b, rfl⟩
  obtain ⟨mid, lst, rfl⟩ : ∃ mid lst, rest1 = mid ++ [lst] := by
    have : rest1 ≠ [] := by intro h; subst h; simp at hcount
    exact ⟨rest1.dropLast, rest1.getLast this, (List.dropLast_append_getLast this).symm⟩
  have hmid : mid.length = n := by simp at hcount; omega
  have ok0 := hb.fits l0 (by simp)
  have okl := hb.fits lst (by simp)
  have hlet := hb.letter l0 rfl
  have hne : l0 ≠ [] := by intro h; rw [h] at hlet; simp at hlet
  have hnum0 : ∀ k < 3, 23 + 19 * k ≤ l0.length := fun k hk => by
    have := hrc 0 l0 rfl k (by simpa [specCount] using hk)
    simpa [navCol] using this
  have h23 : 23 ≤ l0.length := by simpa using hnum0 0 (by omega)
  have hg0 := Stream.getline_line (n := MAX_RECORD_CHARS) hg (l := l0)
    (tail := linesText (mid ++ [lst]) ++ tail) (by rw [hr, linesText_cons]; simp) ok0.1
    (by simpa [MAX_RECORD_CHARS] using ok0.2.2)
  have hf0 : (s.adv (l0.length + 1)).fail = false := by
    rw [Stream.adv_fail]; exact ((Stream.good_iff s).1 hg).2
  have hr1 : (s.adv (l0.length + 1)).rest = linesText mid ++ (linesText [lst] ++ tail) := by
    have : s.rest = (l0 ++ ['\n']) ++ (linesText mid ++ (linesText [lst] ++ tail)) := by
      rw [hr, linesText_cons, linesText_append]; simp
    simpa using Stream.adv_rest_append this
  have hget0 : getAt (fillLine junk l0) 0 = .ok (satsysToChar sys) := by
    unfold getAt fillLine
    cases l0 with
    | nil => exact absurd rfl hne
    | cons a b => simp at hlet; simp [hlet]
  have hsys : charToSatsys (satsysToChar sys) = .ok sys := by cases sys <;> rfl
  have hcstr : cstrOf ((fillLine junk l0).drop 3) = .ok (l0.drop 3) := by
    unfold fillLine
    rw [List.drop_append_of_le_length (by omega)]
    exact cstrOf_append (IsCStr.drop ok0.2.1 3) _
  have hstl : strtolA ((fillLine junk l0).drop 1) = .ok (strtol (l0.drop 1 ++ NUL :: junk.drop (l0.length + 1))) := by
    unfold strtolA fillLine
    rw [List.drop_append_of_le_length (by omega), if_pos (by simp)]
  have hf2c : for2cpp ((fillLine junk l0).drop 23) = .ok ((l0.drop 23).map d2e ++ NUL :: junk.drop (l0.length + 1)) := by
    unfold fillLine
    rw [List.drop_append_of_le_length (by omega)]
    exact for2cpp_line _ _ (IsCStr.drop ok0.2.1 23)
  have htake : ((fillLine junk l0).take 23).length = 23 := by
    unfold fillLine; rw [List.length_take]; simp; omega
  unfold readBlock at h
  simp only [hg0, hf0, Bool.false_eq_true, if_false, hget0, Res.bind_ok, hsys, hcstr, hstl] at h
  obtain ⟨toc, htoc, h⟩ := Res.bind_eq_ok.1 h
  have take1 : (linesText ((l0 :: (mid ++ [lst])).take 1)).length = l0.length + 1 := by simp [linesText]
  have hsat : (strtolErr (strtol (l0.drop 1 ++ NUL :: junk.drop (l0.length + 1))) = false ∧
        PrnOf l0 (toInt32 (strtolVal (strtol (l0.drop 1 ++ NUL :: junk.drop (l0.length + 1)))))) ∨
      ((strtolErr (strtol (l0.drop 1 ++ NUL :: junk.drop (l0.length + 1))) = true ∨ toInt32 (strtolVal (strtol (l0.drop 1 ++ NUL :: junk.drop (l0.length + 1)))) = 0) ∧
        ∀ p, PrnOf l0 p → p = 0) := by
    rcases strtol_text (l0.drop 1) (junk.drop (l0.length + 1)) with ⟨g1, g2⟩ | ⟨v, r, g1, g2, g3, g4⟩ | ⟨w, r, g1, g2⟩
    · rw [g1]
      exact Or.inr ⟨Or.inr rfl, fun p ⟨v, hv, _⟩ => absurd hv (g2 v)⟩
    · rw [g1]
      exact Or.inl ⟨rfl, v, g2, g3, g4, rfl⟩
    · rw [g1]
      refine Or.inr ⟨Or.inl rfl, fun p ⟨v, hv, h1, h2, _⟩ => ?_⟩
      obtain ⟨v', hv', hbig⟩ := g2
      rw [hv'.unique hv] at hbig
      omega
  generalize strtol (l0.drop 1 ++ NUL :: junk.drop (l0.length + 1)) = P at h hsat
  have herr : ∀ a : Bool, ((if a = true then ERANGE else (0 : Int)) = ERANGE) ↔ a = true := by intro a; cases a <;> simp [ERANGE]
  by_cases hbad : toInt32 (strtolVal P) = 0 ∨ strtolErr P = true
  · rw [if_pos (by rw [herr]; exact hbad)] at h
    cases h
    refine ⟨1, .noSatellite _ l0 rfl ?_, by rw [take1], rfl⟩
    rcases hsat with ⟨g1, g2⟩ | ⟨_, g2⟩
    · rw [g1] at hbad
      have hz : toInt32 (strtolVal P) = 0 := by simpa using hbad
      rw [hz] at g2
      intro p hp
      obtain ⟨v, a1, a2, a3, a4⟩ := hp
      obtain ⟨w, b1, b2, b3, b4⟩ := g2
      rw [a4, a1.unique b1, ← b4]
    · exact g2
  rw [if_neg (by rw [herr]; exact hbad)] at h
  push Not at hbad
  have hP : PrnOf l0 (toInt32 (strtolVal P)) := by
    rcases hsat with ⟨_, g⟩ | ⟨g, _⟩
    · exact g
    · rcases g with g | g
      · exact absurd g hbad.2
      · exact absurd g hbad.1
  have hsatOK : ∀ q, (l0 :: (mid ++ [lst])).head? = some q → ∃ p, PrnOf q p ∧ p ≠ 0 := by
    intro q hq
    obtain rfl : l0 = q := by simpa using hq
    exact ⟨_, hP, hbad.1⟩
  rw [if_neg hbad.2] at h
  rw [hf2c, Res.bind_ok, List.drop_append_of_le_length (by omega), List.drop_of_length_le (by omega), List.nil_append] at h
  obtain ⟨r, hr0, h⟩ := Res.bind_eq_ok.1 h
  obtain ⟨d0, hd0, h⟩ := Res.bind_eq_ok.1 h
  obtain ⟨p1, p2, p3, p4⟩ := storeAt_get hd0
  have hfields := char2double_text _ 3 ((l0.drop 23).map d2e) false (fun k hk => by
    have := hnum0 k hk; simp; omega) r (by simpa using hr0)
  have htxt : ∀ k, ((l0.drop 23).map d2e).drop (19 * k) = numText l0 (navCol 0 k) := by
    intro k; unfold numText navCol; simp only [if_true]; rw [← List.map_drop, List.drop_drop]
  simp only [htxt] at hfields
  rcases hfields with ⟨r1, -, r2, r3⟩ | ⟨r1, r2, r3⟩
  swap
  · rw [r1] at h
    simp only [Bool.not_false, if_true] at h
    cases h
    obtain ⟨k, hk, hno⟩ := r3 trivial
    exact ⟨1, .noNumber _ 0 k l0 hsatOK rfl (by simpa [specCount] using hk) hno (fun i hi => absurd hi (Nat.not_lt_zero i)), by rw [take1], rfl⟩
  rw [r1, hlps] at h
  simp only [Bool.not_true, Bool.false_eq_true, if_false] at h
  rw [if_neg (by omega), show ((n : Int) + 2 - 1 - 1).toNat = n by omega] at h
  obtain ⟨q, hq, h⟩ := Res.bind_eq_ok.1 h
  rw [← hmid] at hq
  have hcolm : ∀ i l, mid[i]? = some l → ∀ k < recsOnLine sys (0 + i), 4 + 19 * k ≤ l.length := by
    intro i l hl k hk
    have hi : i < mid.length := (List.getElem?_eq_some_iff.1 hl).1
    have := hrc (i + 1) l (by simp only [List.getElem?_cons_succ]; rw [List.getElem?_append_left hi]; exact hl) k (by
      rw [hcnt i (by omega)]; simpa using hk)
    simpa [navCol] using this
  obtain ⟨a1, a2, a3, a4, hmids⟩ := orbitLines_text sys (linesText [lst] ++ tail) mid 0 _ _ (s.adv (l0.length + 1)) (by simpa using hg) hr1
    (fun l hl => hb.fits l (by simp [hl])) hcolm q hq
  have getmid : ∀ i l, (l0 :: (mid ++ [lst]))[i + 1]? = some l → i < n → mid[i]? = some l := by
    intro i l hl hi
    simp only [List.getElem?_cons_succ] at hl
    rwa [List.getElem?_append_left (by omega)] at hl
  have getlst : ∀ l, (l0 :: (mid ++ [lst]))[n + 1]? = some l → lst = l := by
    intro l hl
    simp only [List.getElem?_cons_succ] at hl
    rw [List.getElem?_append_right (by omega), hmid] at hl
    simpa using hl
  rcases hmids with ⟨b1, b2, b3, b4⟩ | ⟨b1, j, l, k, b2, b3, b4, b5, b6⟩
  swap
  · rw [b1] at h
    simp only at h
    cases h
    have hj : j < mid.length := (List.getElem?_eq_some_iff.1 b2).1
    have hst : badStatus sys (j + 1) = 6 := by unfold badStatus; rw [if_neg (by omega), if_neg (by omega)]
    refine ⟨j + 2, ?_, ?_, rfl⟩
    · rw [← hst]
      refine .noNumber _ (j + 1) k l hsatOK (by simp only [List.getElem?_cons_succ]; rw [List.getElem?_append_left hj]; exact b2) (by rw [hcnt j (by omega)]; simpa using b3)
        (by simpa [navCol] using b4) ?_
      intro i hi x hx m hm
      cases i with
      | zero =>
        obtain rfl : l0 = x := by simpa using hx
        obtain ⟨v, _, hv⟩ := r3 m (by simpa [specCount] using hm)
        exact ⟨v, hv⟩
      | succ i =>
        obtain ⟨v, hv⟩ := b5 i (by omega) x (getmid i x hx (by omega)) m (by rw [hcnt i (by omega)] at hm; simpa using hm)
        exact ⟨v, by simpa [navCol] using hv⟩
    · show q.2.2.2 = _
      rw [b6, Stream.adv_adv, List.take_succ_cons, linesText_cons, List.take_append_of_le_length (by omega)]
      simp; congr 1; omega
  rw [b1] at h
  simp only at h
  have hgm : ((s.adv (l0.length + 1)).adv (linesText mid).length).good = true := by simpa using hg
  have hrm : ((s.adv (l0.length + 1)).adv (linesText mid).length).rest = lst ++ '\n' :: tail := by
    rw [Stream.adv_rest_append hr1]; simp [linesText]
  have hgl := Stream.getline_line (n := MAX_RECORD_CHARS) hgm hrm okl.1
    (by simpa [MAX_RECORD_CHARS] using okl.2.2)
  have hfl : (((s.adv (l0.length + 1)).adv (linesText mid).length).adv (lst.length + 1)).fail = false := by
    simp only [Stream.adv_fail]; exact ((Stream.good_iff s).1 hg).2
  have hnuml : ∀ k < c, 4 + 19 * k ≤ lst.length := by
    intro k hk
    have h1 := hrc (n + 1) lst (by
      simp only [List.getElem?_cons_succ]
      rw [List.getElem?_append_right (by omega)]
      simp [hmid]) k (by rw [hlast]; exact hk)
    simpa [navCol] using h1
  have hc1 : 1 ≤ c := by
    rw [← hlast]; unfold specCount; split <;> (try split) <;> (try split) <;> (try split) <;> omega
  have h4 : 4 ≤ lst.length := by simpa using hnuml 0 (by omega)
  rw [b2] at h
  simp only [hgl, hfl, Bool.false_eq_true, if_false] at h
  rw [fillLine_eq, for2cpp_line lst _ okl.2.1, Res.bind_ok, List.drop_append_of_le_length (by simpa using h4)] at h
  obtain ⟨rl, hrl, h⟩ := Res.bind_eq_ok.1 h
  obtain ⟨d2, hd2, h⟩ := Res.bind_eq_ok.1 h
  obtain ⟨q1, q2, q3, q4⟩ := storeAt_get hd2
  have hfl2 := char2double_text _ c ((lst.map d2e).drop 4) false (fun k hk => by
    have := hnuml k hk; simp; omega) rl (by simpa using hrl)
  have htxtl : ∀ k, ((lst.map d2e).drop 4).drop (19 * k) = numText lst (navCol (n + 1) k) := by
    intro k; unfold numText navCol; rw [List.drop_drop, List.map_drop]; rfl
  simp only [htxtl] at hfl2
  have hstrm : ((s.adv (l0.length + 1)).adv (linesText mid).length).adv (lst.length + 1) = s.adv (linesText ((l0 :: (mid ++ [lst])).take (n + 2))).length := by
    rw [List.take_of_length_le (by simp [hmid]), Stream.adv_adv, Stream.adv_adv, linesText_cons, linesText_append]
    simp [linesText]; congr 1; omega
  have before : ∀ i < n + 1, ∀ x, (l0 :: (mid ++ [lst]))[i]? = some x → ∀ m < specCount sys i, ∃ v, NumberIn (numText x (navCol i m)) v := by
    intro i hi x hx m hm
    cases i with
    | zero =>
      obtain rfl : l0 = x := by simpa using hx
      obtain ⟨v, _, hv⟩ := r3 m (by simpa [specCount] using hm)
      exact ⟨v, hv⟩
    | succ i =>
      obtain ⟨v, hv, _⟩ := b3 i x (getmid i x hx (by omega)) m (by rw [hcnt i (by omega)] at hm; simpa using hm)
      exact ⟨v, by simpa [navCol] using hv⟩
  rcases hfl2 with ⟨s1, -, s2, s3⟩ | ⟨s1, s2, s3⟩
  swap
  · rw [s1] at h
    simp only [Bool.not_false, if_true] at h
    cases h
    obtain ⟨k, hk, hno⟩ := s3 trivial
    have hst : badStatus sys (n + 1) = 8 := by unfold badStatus; rw [if_neg (by omega), if_pos (by omega)]
    refine ⟨n + 2, ?_, hstrm, rfl⟩
    rw [← hst]
    exact .noNumber _ (n + 1) k lst hsatOK (by
      simp only [List.getElem?_cons_succ]
      rw [List.getElem?_append_right (by omega)]
      simp [hmid]) (by rw [hlast]; exact hk) hno before
  rw [s1] at h
  simp only [Bool.not_true, Bool.false_eq_true, if_false] at h
  cases h
  refine ⟨n + 2, ?_, hstrm, rfl⟩
  have hlen2 : (l0 :: (mid ++ [lst])).length = n + 2 := by simp [hmid]
  have hval : ∀ j l, (l0 :: (mid ++ [lst]))[j]? = some l → ∀ k < specCount sys j, ∃ v, NumberIn (numText l (navCol j k)) v ∧ d2[specIndex j k]? = some v := by
    intro j l hl k hk
    have hj : j < n + 2 := by have := (List.getElem?_eq_some_iff.1 hl).1; omega
    cases j with
    | zero =>
      obtain rfl : l0 = l := by simpa using hl
      have hk3 : k < 3 := by simpa [specCount] using hk
      obtain ⟨v, hv1, hv2⟩ := r3 k hk3
      refine ⟨v, hv2, ?_⟩
      have hi : specIndex 0 k = k := rfl
      rw [hi, q4 k (Or.inl (by omega)), b4 k (fun i _ m _ => by omega)]
      have := p3 k (by omega)
      simp only [Nat.zero_add] at this
      exact this.trans hv1
    | succ i =>
      have hidx : specIndex (i + 1) k = 3 + 4 * i + k := by simp [specIndex]
      rw [hidx]
      by_cases hin : i < n
      · rw [hcnt i hin] at hk
        have hrec4 : recsOnLine sys i ≤ 4 := by unfold recsOnLine; split <;> simp
        obtain ⟨v, hv1, hv2⟩ := b3 i l (getmid i l hl hin) k (by simpa using hk)
        refine ⟨v, by simpa [navCol] using hv1, ?_⟩
        rw [q4 _ (Or.inl (by omega))]
        simpa using hv2
      · obtain rfl : i = n := by omega
        rw [hlast] at hk
        obtain rfl := getlst l hl
        obtain ⟨v, hv1, hv2⟩ := s3 k hk
        refine ⟨v, hv2, ?_⟩
        rw [show 3 + 4 * i + k = 3 + i * 4 + k by omega, q3 k (by omega), hv1]
  have hother : ∀ i, (∀ j < n + 2, ∀ k < specCount sys j, i ≠ specIndex j k) → d2[i]? = f.data[i]? := by
    intro i hi
    have hi0 : 3 ≤ i := by
      by_contra h
      exact hi 0 (by omega) i (by simp [specCount]; omega) rfl
    rw [q4 i (by
      by_contra hc
      push Not at hc
      exact hi (n + 1) (by omega) (i - 3 - 4 * n) (by rw [hlast]; omega) (by simp [specIndex]; omega)),
      b4 i (fun a ha k hk => by
        have := hi (a + 1) (by omega) k (by rw [hcnt a (by omega)]; simpa using hk)
        simpa [specIndex] using this)]
    exact p4 i (Or.inr (by omega))
  rw [← hlen2]
  refine .complete _ ⟨a1, ?_, ?_, ?_, ?_, ?_⟩
  · intro l hl
    obtain rfl : l0 = l := by simpa using hl
    show PrnOf l0 q.2.2.1.prn ∧ q.2.2.1.prn ≠ 0
    rw [a2]
    exact ⟨hP, hbad.1⟩
  · intro l hl
    obtain rfl : l0 = l := by simpa using hl
    show strptime _ = .ok q.2.2.1.toc
    rw [a3]
    exact htoc
  · show (if sys = .glonass then gloScale d2 else d2).length = _
    split
    · rw [gloScale_length, q1, a4]; exact p1
    · rw [q1, a4]; exact p1
  · intro j l hl k hk
    obtain ⟨v, hv1, hv2⟩ := hval j l hl k hk
    refine ⟨v, hv1, ?_⟩
    have hj : j < n + 2 := by have := (List.getElem?_eq_some_iff.1 hl).1; omega
    show (if sys = .glonass then gloScale d2 else d2)[_]? = _
    split
    · rename_i hglo
      subst hglo
      rw [gloScale_get, hv2]
      have hn2 : n = 2 := by simp [specLines] at hsl; omega
      subst hn2
      have hk4 : k < 4 := by unfold specCount at hk; split at hk <;> [omega; (split at hk <;> [omega; (split at hk <;> [(split at hk <;> omega); omega])])]
      have hk3 : j = 0 → k < 3 := by intro h; subst h; simpa [specCount] using hk
      have hmem : specIndex j k ∈ [3, 4, 5, 7, 8, 9, 11, 12, 13] ↔ (j ≠ 0 ∧ k ≠ 3) := by
        have hj4 : j = 0 ∨ j = 1 ∨ j = 2 ∨ j = 3 := by omega
        have hk4' : k = 0 ∨ k = 1 ∨ k = 2 ∨ k = 3 := by omega
        rcases hj4 with rfl | rfl | rfl | rfl <;> rcases hk4' with rfl | rfl | rfl | rfl <;>
          simp [specIndex] at hk3 ⊢
      simp only [Option.map_some, specUnit, true_and]
      by_cases hm : j ≠ 0 ∧ k ≠ 3
      · rw [if_pos (hmem.2 hm), if_pos hm]; congr 1; ring
      · rw [if_neg (fun h => hm (hmem.1 h)), if_neg hm]; simp
    · rename_i hglo
      rw [hv2]; simp [specUnit, hglo]
  · rw [hsl]
    intro i hi
    have ho := hother i hi
    show (if sys = .glonass then gloScale d2 else d2)[_]? = _
    split
    · rename_i hglo
      subst hglo
      rw [gloScale_get, ho]
      have hn2 : n = 2 := by simp [specLines] at hsl; omega
      subst hn2
      have hnm : i ∉ [3, 4, 5, 7, 8, 9, 11, 12, 13] := by
        intro hm
        have h1 := hi ((i - 3) / 4 + 1)
        have h2 : i < 14 ∧ 3 ≤ i := by simp at hm; omega
        have h3 := h1 (by omega) ((i - 3) % 4)
        have h4 : specCount .glonass ((i - 3) / 4 + 1) = 4 := by
          have : (i - 3) / 4 = 0 ∨ (i - 3) / 4 = 1 ∨ (i - 3) / 4 = 2 := by omega
          rcases this with h | h | h <;> rw [h] <;> rfl
        rw [h4] at h3
        exact h3 (by omega) (by simp [specIndex]; omega)
      simp only [if_neg hnm]
      cases f.data[i]? <;> rfl
    · exact ho

/-- **C99**.  A record of any lines that reach the columns of their numbers, of any system: whatever `read_next_record` returns is what the lines say - status 0 only if
satellite number and every number could be read, and then they are in the frame, each at its place and in its unit, and everything else in the payload is untouched; status
2, 3, 6 or 8 only if the number it complains about is not one, and it is the first; in every case exactly the lines looked at are consumed. -/
theorem C99_record {dateOf : List Char → Res DateTime} {junk : List Char} {f : NavFrame} {s : Stream} {sys : SatSys} {ls : List (List Char)} {tail : List Char}
    (hb : IsBlock sys ls) (hrc : ReachesColumns sys ls) (hg : s.good = true) (hr : s.rest = linesText ls ++ tail) {o : NavOut}
    (h : readNextRecord dateOf junk f s 0 = .ok o) :
    ∃ m, RecordOutcome dateOf sys ls f o.status o.frame m ∧ o.strm = s.adv (linesText (ls.take m)).length ∧ o.errno = 0 := by
  obtain ⟨l0, rest1, rfl⟩ : ∃ l0 rest1, ls = l0 :: rest1 := by
    have := hb.count
    have hm := hb.notMixed
    cases ls with
    | nil => cases sys <;> simp [specLines] at this hm
    | cons a b => exact ⟨a, b, rfl⟩
  unfold readNextRecord at h
  rw [nav_peek_line hg (by rw [hr, linesText_cons, List.append_assoc]) (hb.letter l0 rfl)] at h
  simp only at h
  unfold setFromRnx3 at h
  have h := Res.noexcept_eq_ok.1 h
  obtain ⟨o', ho', h⟩ := Res.bind_eq_ok.1 h
  obtain ⟨m, h1, h2, h3⟩ := readBlock_text hb hrc hg hr ho'
  split at h
  · cases h
    exact ⟨m, h1, h2, h3⟩
  · split at h
    · obtain ⟨toe, _, h⟩ := Res.bind_eq_ok.1 h
      cases h
      refine ⟨m, ?_, h2, h3⟩
      show RecordOutcome _ _ _ _ o'.status _ _
      generalize o'.status = st at *
      generalize hfr : o'.frame = fr at *
      cases h1 with
      | complete _ hs => exact .complete _ ⟨hs.system, hs.satellite, hs.date, hs.size, hs.numbers, hs.others⟩
      | noSatellite _ l k1 k2 => exact .noSatellite _ l k1 k2
      | noNumber _ j k l k0 k1 k2 k3 k4 => exact .noNumber _ j k l k0 k1 k2 k3 k4
    · cases h
      exact ⟨m, h1, h2, h3⟩

theorem PrnOf.unique {l : List Char} {p q : Int} (hp : PrnOf l p) (hq : PrnOf l q) : p = q := by
  obtain ⟨v, a1, -, -, a4⟩ := hp
  obtain ⟨w, b1, -, -, b4⟩ := hq
  rw [a4, b4, a1.unique b1]

/-- Where no number is hexadecimal, an infinity or "not a number", the lines leave `read_next_record` no choice: `RecordOutcome` determines the status, the lines
consumed, and on success everything the frame holds. -/
theorem C99_determined {dateOf : List Char → Res DateTime} {sys : SatSys} {ls : List (List Char)} {f f1 f2 : NavFrame} {st1 st2 : Int} {m1 m2 : Nat}
    (hodd : ∀ j l, ls[j]? = some l → ∀ k < specCount sys j, ¬ OddNumber (numText l (navCol j k))) (hb : IsBlock sys ls)
    (h1 : RecordOutcome dateOf sys ls f st1 f1 m1) (h2 : RecordOutcome dateOf sys ls f st2 f2 m2) :
    st1 = st2 ∧ m1 = m2 ∧ (st1 = 0 → f1.sys = f2.sys ∧ f1.prn = f2.prn ∧ f1.toc = f2.toc ∧ f1.data = f2.data) := by
  obtain ⟨l0, hl0⟩ : ∃ l0, ls.head? = some l0 := by
    have := hb.count
    have hm := hb.notMixed
    cases ls with
    | nil => cases sys <;> simp [specLines] at this hm
    | cons a b => exact ⟨a, rfl⟩
  have clash : ∀ j l, ls[j]? = some l → ∀ k < specCount sys j, ∀ v, NumberIn (numText l (navCol j k)) v → ¬ NoNumberIn (numText l (navCol j k)) := by
    intro j l hl k hk v hv hn
    have ho := hodd j l hl k hk
    rcases hv with hv | ⟨hv, hf⟩
    · exact ho hv
    · rcases hn with hn | hn
      · exact ho hn
      · exact hn v hv hf
  have hbs : ∀ j, badStatus sys j ≠ 0 := by
    intro j; unfold badStatus; split <;> (try split) <;> decide
  cases h1 with
  | complete _ a =>
    cases h2 with
    | complete _ b =>
      refine ⟨rfl, rfl, fun _ => ⟨a.system.trans b.system.symm, (a.satellite l0 hl0).1.unique (b.satellite l0 hl0).1, ?_, ?_⟩⟩
      · have h1 := a.date l0 hl0
        rw [b.date l0 hl0] at h1
        exact (Res.ok.inj h1).symm
      · apply List.ext_getElem?
        intro i
        by_cases hi : ∃ j, j < specLines sys ∧ ∃ k, k < specCount sys j ∧ i = specIndex j k
        · obtain ⟨j, hj, k, hk, rfl⟩ := hi
          obtain ⟨l, hl⟩ : ∃ l, ls[j]? = some l := ⟨_, List.getElem?_eq_getElem (by rw [hb.count]; exact hj)⟩
          obtain ⟨v, hv, hv2⟩ := a.numbers j l hl k hk
          obtain ⟨w, hw, hw2⟩ := b.numbers j l hl k hk
          rw [hv2, hw2]
          have ho := hodd j l hl k hk
          rcases hv with hv | ⟨hv, _⟩
          · exact absurd hv ho
          · rcases hw with hw | ⟨hw, _⟩
            · exact absurd hw ho
            · rw [hv.unique hw]
        · push Not at hi
          rw [a.others i hi, b.others i hi]
    | noSatellite _ l k1 k2 =>
      rw [hl0] at k1
      cases k1
      exact absurd (k2 _ (a.satellite _ hl0).1) (a.satellite _ hl0).2
    | noNumber _ j k l k0 k1 k2 k3 k4 =>
      obtain ⟨v, hv, _⟩ := a.numbers j l k1 k k2
      exact absurd k3 (clash j l k1 k k2 v hv)
  | noSatellite _ l k1 k2 =>
    rw [hl0] at k1
    cases k1
    cases h2 with
    | complete _ b => exact absurd (k2 _ (b.satellite _ hl0).1) (b.satellite _ hl0).2
    | noSatellite _ l k1' k2' => exact ⟨rfl, rfl, fun h => absurd h (by decide)⟩
    | noNumber _ j k l k0 k1 _ _ _ =>
      obtain ⟨p, hp, hp0⟩ := k0 _ hl0
      exact absurd (k2 p hp) hp0
  | noNumber _ j k l k0 k1 k2 k3 k4 =>
    cases h2 with
    | complete _ b =>
      obtain ⟨v, hv, _⟩ := b.numbers j l k1 k k2
      exact absurd k3 (clash j l k1 k k2 v hv)
    | noSatellite _ q c1 c2 =>
      rw [hl0] at c1
      cases c1
      obtain ⟨p, hp, hp0⟩ := k0 _ hl0
      exact absurd (c2 p hp) hp0
    | noNumber _ i m q c0 c1 c2 c3 c4 =>
      have hij : j = i := by
        rcases Nat.lt_trichotomy j i with h | h | h
        · obtain ⟨v, hv⟩ := c4 j h l k1 k k2
          exact absurd k3 (clash j l k1 k k2 v hv)
        · exact h
        · obtain ⟨v, hv⟩ := k4 i h q c1 m c2
          exact absurd c3 (clash i q c1 m c2 v hv)
      subst hij
      exact ⟨rfl, rfl, fun h => absurd h (hbs j)⟩

/-- A well formed numeral is a number in the sense of C99. -/
theorem numberIn_text {n : Numeral} (hn : n.WF) {rest : List Char} (hr : stopsNumber rest) : NumberIn (n.text ++ rest) n.value := by
  refine Or.inr ⟨⟨List.replicate n.blanks ' ', n, 'E', rest, ?_, ?_, hn.toShape, Or.inr rfl, rfl, fun c hc => (hr c hc).1, ?_, ?_⟩, hn.fits⟩
  · unfold Numeral.text
    simp only [List.append_assoc]
    rfl
  · intro c hc; rw [List.eq_of_mem_replicate hc]; rfl
  · intro _ _ h; exact (hr _ h).2.1 rfl
  · intro _ x s d more he hx
    have := hr x (by rw [he]; rfl)
    rcases hx with rfl | rfl
    · exact absurd rfl this.2.2.1
    · exact absurd rfl this.2.2.2.1

/-- The columns of a well formed record hold numbers in the sense of C99. -/
theorem FieldAt.numberIn {l : List Char} {off : Nat} {n : Numeral} (h : FieldAt l off n) : NumberIn (numText l off) n.value := by
  obtain ⟨_, hn, rest, hr, hs⟩ := h
  unfold numText
  rw [hr]
  exact numberIn_text hn hs

end Ggnss
