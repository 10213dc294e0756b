import Verif.Spec.NavFate
import Verif.Props.NavSound
import Verif.Props.NavSearch
import Verif.Props.Sp3Sound
/-! # C110: exactly when reading a navigation record comes back -/
namespace Ggnss

theorem char2double_total_text (b : List Char) : ∀ (N : Nat) (a : List Char) (e : Bool), (∀ k < N, 19 * k ≤ a.length) →
    ∃ r, char2double e 19 N (a ++ NUL :: b) = .ok r ∧ r.2.length ≤ N := by
  intro N
  induction N with
  | zero => intro a e _; exact ⟨_, rfl, by simp⟩
  | succ N ih =>
    intro a e hk
    have hA : strtodA (a ++ NUL :: b) = .ok (strtod (a ++ NUL :: b)) := by unfold strtodA; rw [if_pos (by simp)]
    have next : ∀ e', ∃ r', char2double e' 19 N ((a ++ NUL :: b).drop 19) = .ok r' ∧ r'.2.length ≤ N := by
      intro e'
      cases N with
      | zero => exact ⟨_, rfl, by simp⟩
      | succ N =>
        have h19 : 19 ≤ a.length := by simpa using hk 1 (by omega)
        rw [List.drop_append_of_le_length h19]
        exact ih (a.drop 19) e' (fun k hk' => by have := hk (k + 1) (by omega); simp; omega)
    rw [char2double, hA, Res.bind_ok]
    cases hs : strtod (a ++ NUL :: b) with
    | none => exact ⟨_, rfl, by simp⟩
    | some x =>
      obtain ⟨v, rr, er⟩ := x
      obtain ⟨r', h1, h2⟩ := next (e || er)
      simp only [h1, Res.bind_ok]
      exact ⟨_, rfl, by simpa using h2⟩

theorem orbitLines_total_text (sys : SatSys) (tail : List Char) :
    ∀ (ls : List (List Char)) (ln : Nat) (buf : List Char) (f : NavFrame) (s : Stream),
      s.good = true → s.rest = linesText ls ++ tail → (∀ l ∈ ls, LineOK l) →
      (∀ i l, ls[i]? = some l → ∀ k < recsOnLine sys (ln + i), 4 + 19 * k ≤ l.length) → 3 + 4 * (ln + ls.length) ≤ f.data.length →
      ∃ o, orbitLines sys 0 ls.length ln buf f s = .ok o ∧ (o.1 = none → o.2.2.2 = s.adv (linesText ls).length) ∧ o.2.2.1.data.length = f.data.length := by
  intro ls
  induction ls with
  | nil => intro ln buf f s _ _ _ _ _; exact ⟨_, rfl, fun _ => by simp [linesText], rfl⟩
  | cons l ls ih =>
    intro ln buf f s hg hr hok hfld hd
    have hl := hok l (by simp)
    rw [linesText_cons] at hr
    have hgl := Stream.getline_line (n := MAX_RECORD_CHARS) hg
      (l := l) (tail := linesText ls ++ tail) (by rw [hr]; simp) hl.1 (by simpa [MAX_RECORD_CHARS] using hl.2.2)
    have hff : (s.adv (l.length + 1)).fail = false := by
      rw [Stream.adv_fail]; exact ((Stream.good_iff s).1 hg).2
    have hrec : recsOnLine sys ln ≤ 4 ∧ 3 ≤ recsOnLine sys ln := by unfold recsOnLine; split <;> simp
    have h4 : 4 ≤ l.length := by simpa using hfld 0 l rfl 0 (by simp; omega)
    have hrest : (s.adv (l.length + 1)).rest = linesText ls ++ tail := by
      have : s.rest = (l ++ ['\n']) ++ (linesText ls ++ tail) := by rw [hr]; simp
      simpa using Stream.adv_rest_append this
    rw [List.length_cons, orbitLines]
    simp only [hgl, hff, Bool.false_eq_true, if_false]
    rw [fillLine_eq, for2cpp_line l _ hl.2.1, Res.bind_ok, List.drop_append_of_le_length (by simpa using h4)]
    obtain ⟨r, hr1, hr2⟩ := char2double_total_text (buf.drop (l.length + 1)) (recsOnLine sys ln) ((l.map d2e).drop 4) false (fun k hk => by
      have := hfld 0 l rfl k (by simpa using hk); simp; omega)
    have hst := storeAt_ok (d := f.data) (vals := r.2) (off := 3 + ln * 4) (by simp at hd; omega)
    simp only [ne_eq, not_true_eq_false, decide_false, hr1, Res.bind_ok, hst]
    have hlen := (storeAt_get hst).1
    split
    · obtain ⟨o, h1, h2, h3⟩ := ih (ln + 1) (l.map d2e ++ NUL :: buf.drop (l.length + 1))
        { f with data := List.take (3 + ln * 4) f.data ++ r.2 ++ List.drop (3 + ln * 4 + r.2.length) f.data } (s.adv (l.length + 1)) (by simpa using hg) hrest
        (fun q hq => hok q (by simp [hq])) (fun i q hq k hk => hfld (i + 1) q (by simpa using hq) k (by rwa [show ln + (i + 1) = ln + 1 + i by omega]))
        (by show _ ≤ (List.take (3 + ln * 4) f.data ++ r.2 ++ List.drop (3 + ln * 4 + r.2.length) f.data).length
            rw [hlen]; simp at hd; omega)
      refine ⟨o, h1, fun hn => ?_, h3.trans hlen⟩
      rw [h2 hn, Stream.adv_adv, linesText_cons]
      simp; congr 1; omega
    · exact ⟨_, rfl, fun h => (by cases h), hlen⟩

/-- Reading the lines of a record ends with a status, unless the date is refused. -/
theorem readBlock_fate {dateOf : List Char → Res DateTime} {junk : List Char} {f : NavFrame} {s : Stream} {sys : SatSys} {ls : List (List Char)} {tail : List Char}
    (hb : IsBlock sys ls) (hrc : ReachesColumns sys ls) (hg : s.good = true) (hr : s.rest = linesText ls ++ tail) (hlen : f.data.length = 31) {l0 : List Char}
    (hhead : ls.head? = some l0) :
    (∀ d, dateOf (l0.drop 3) = .ok d → ∃ o, readBlock dateOf junk f s 0 = .ok o) ∧ (∀ e, dateOf (l0.drop 3) = .throw e → readBlock dateOf junk f s 0 = .throw e) := by
  obtain ⟨n, c, hlps, hsl, hc4, hbnd, hcnt, hlast⟩ := layout sys hb.notMixed
  have hcount := hb.count
  rw [hsl] at hcount
  obtain ⟨rest1, rfl⟩ : ∃ rest1, ls = l0 :: rest1 := by
    cases ls with
    | nil => simp at hcount
    | cons a b => simp at hhead; exact ⟨b, by rw [hhead]⟩
  obtain ⟨mid, lst, rfl⟩ : ∃ mid lst, rest1 = mid ++ [lst] := by
    have : rest1 ≠ [] := by intro h; subst h; simp at hcount
    exact ⟨rest1.dropLast, rest1.getLast this, (List.dropLast_append_getLast this).symm⟩
  have hmid : mid.length = n := by simp at hcount; omega
  have ok0 := hb.fits l0 (by simp)
  have okl := hb.fits lst (by simp)
  have hlet := hb.letter l0 rfl
  have hne : l0 ≠ [] := by intro h; rw [h] at hlet; simp at hlet
  have hnum0 : ∀ k < 3, 23 + 19 * k ≤ l0.length := fun k hk => by
    have := hrc 0 l0 rfl k (by simpa [specCount] using hk)
    simpa [navCol] using this
  have h23 : 23 ≤ l0.length := by simpa using hnum0 0 (by omega)
  have hg0 := Stream.getline_line (n := MAX_RECORD_CHARS) hg (l := l0)
    (tail := linesText (mid ++ [lst]) ++ tail) (by rw [hr, linesText_cons]; simp) ok0.1
    (by simpa [MAX_RECORD_CHARS] using ok0.2.2)
  have hf0 : (s.adv (l0.length + 1)).fail = false := by
    rw [Stream.adv_fail]; exact ((Stream.good_iff s).1 hg).2
  have hr1 : (s.adv (l0.length + 1)).rest = linesText mid ++ (linesText [lst] ++ tail) := by
    have : s.rest = (l0 ++ ['\n']) ++ (linesText mid ++ (linesText [lst] ++ tail)) := by
      rw [hr, linesText_cons, linesText_append]; simp
    simpa using Stream.adv_rest_append this
  have hget0 : getAt (fillLine junk l0) 0 = .ok (satsysToChar sys) := by
    unfold getAt fillLine
    cases l0 with
    | nil => exact absurd rfl hne
    | cons a b => simp at hlet; simp [hlet]
  have hsys : charToSatsys (satsysToChar sys) = .ok sys := by cases sys <;> rfl
  have hcstr : cstrOf ((fillLine junk l0).drop 3) = .ok (l0.drop 3) := by
    unfold fillLine
    rw [List.drop_append_of_le_length (by omega)]
    exact cstrOf_append (IsCStr.drop ok0.2.1 3) _
  have hstl : strtolA ((fillLine junk l0).drop 1) = .ok (strtol (l0.drop 1 ++ NUL :: junk.drop (l0.length + 1))) := by
    unfold strtolA fillLine
    rw [List.drop_append_of_le_length (by omega), if_pos (by simp)]
  have hf2c : for2cpp ((fillLine junk l0).drop 23) = .ok ((l0.drop 23).map d2e ++ NUL :: junk.drop (l0.length + 1)) := by
    unfold fillLine
    rw [List.drop_append_of_le_length (by omega)]
    exact for2cpp_line _ _ (IsCStr.drop ok0.2.1 23)
  have htake : ((fillLine junk l0).take 23).length = 23 := by
    unfold fillLine; rw [List.length_take]; simp; omega
  unfold readBlock
  simp only [hg0, hf0, Bool.false_eq_true, if_false, hget0, Res.bind_ok, hsys, hcstr, hstl]
  constructor
  swap
  · intro e he
    rw [he]; rfl
  intro d hd
  rw [hd, Res.bind_ok]
  generalize strtol (l0.drop 1 ++ NUL :: junk.drop (l0.length + 1)) = P
  have herr : ∀ a : Bool, ((if a = true then ERANGE else (0 : Int)) = ERANGE) ↔ a = true := by intro a; cases a <;> simp [ERANGE]
  by_cases hbad : toInt32 (strtolVal P) = 0 ∨ strtolErr P = true
  · rw [if_pos (by rw [herr]; exact hbad)]
    exact ⟨_, rfl⟩
  rw [if_neg (by rw [herr]; exact hbad)]
  push Not at hbad
  rw [if_neg hbad.2]
  rw [hf2c, Res.bind_ok, List.drop_append_of_le_length (by omega), List.drop_of_length_le (by omega), List.nil_append]
  obtain ⟨r, hr0, hr0l⟩ := char2double_total_text (junk.drop (l0.length + 1)) 3 ((l0.drop 23).map d2e) false (fun k hk => by have := hnum0 k hk; simp; omega)
  have hst0 := storeAt_ok (d := f.data) (vals := r.2) (off := 0) (by omega)
  have hl0 := (storeAt_get hst0).1
  simp only [ne_eq, not_true_eq_false, decide_false, hr0, Res.bind_ok, hst0]
  generalize List.take 0 f.data ++ r.2 ++ List.drop (0 + r.2.length) f.data = d0 at *
  split
  · exact ⟨_, rfl⟩
  have hl1 : (linesPerSatsys sys).1 - 1 = n + 1 := by rw [hlps]; simp; omega
  have hn : ((linesPerSatsys sys).1 - 1 - 1).toNat = n := by rw [hl1]; omega
  rw [if_neg (by rw [hl1]; omega), hn]
  obtain ⟨x, hx, hx1, hx2⟩ := orbitLines_total_text sys (linesText [lst] ++ tail) mid 0 ((fillLine junk l0).take 23 ++ ((l0.drop 23).map d2e ++ NUL :: junk.drop (l0.length + 1)))
    { f with sys := sys, toc := d, prn := toInt32 (strtolVal P), data := d0 } (s.adv (l0.length + 1)) (by simpa using hg) hr1
    (fun q hq => hb.fits q (by simp [hq])) (fun i l hl k hk => by
      have hi : i < mid.length := (List.getElem?_eq_some_iff.1 hl).1
      have := hrc (i + 1) l (by simp only [List.getElem?_cons_succ]; rw [List.getElem?_append_left hi]; exact hl) k (by rw [hcnt i (by omega)]; simpa using hk)
      simpa [navCol] using this) (by show _ ≤ d0.length; omega)
  rw [hmid] at hx
  simp only [hx, Res.bind_ok]
  obtain ⟨x1, xb, xf, xs⟩ := x
  simp only at hx1 hx2 ⊢
  cases x1 with
  | some e =>
    split
    · exact ⟨_, rfl⟩
    · exact ⟨_, rfl⟩
    · rename_i h; cases h
  | none =>
    simp only
    have hxs := hx1 rfl
    subst hxs
    have hgm : ((s.adv (l0.length + 1)).adv (linesText mid).length).good = true := by simpa using hg
    have hrm : ((s.adv (l0.length + 1)).adv (linesText mid).length).rest = lst ++ '\n' :: tail := by
      rw [Stream.adv_rest_append hr1]; simp [linesText]
    have hgl := Stream.getline_line (n := MAX_RECORD_CHARS) hgm hrm okl.1
      (by simpa [MAX_RECORD_CHARS] using okl.2.2)
    have hfl : (((s.adv (l0.length + 1)).adv (linesText mid).length).adv (lst.length + 1)).fail = false := by
      simp only [Stream.adv_fail]; exact ((Stream.good_iff s).1 hg).2
    have hnuml : ∀ k < c, 4 + 19 * k ≤ lst.length := by
      intro k hk
      have h1 := hrc (n + 1) lst (by
        simp only [List.getElem?_cons_succ]
        rw [List.getElem?_append_right (by omega)]
        simp [hmid]) k (by rw [hlast]; exact hk)
      simpa [navCol] using h1
    have hc1 : 1 ≤ c := by
      rw [← hlast]; unfold specCount; split <;> (try split) <;> (try split) <;> (try split) <;> omega
    have h4 : 4 ≤ lst.length := by simpa using hnuml 0 (by omega)
    simp only [hgl, hfl, Bool.false_eq_true, if_false]
    rw [fillLine_eq, for2cpp_line lst _ okl.2.1, Res.bind_ok, List.drop_append_of_le_length (by simpa using h4)]
    obtain ⟨r2, hr2, hr2l⟩ := char2double_total_text (xb.drop (lst.length + 1)) c ((lst.map d2e).drop 4) false (fun k hk => by have := hnuml k hk; simp; omega)
    have hst2 := storeAt_ok (d := xf.data) (vals := r2.2) (off := 3 + n * 4) (by
      have : xf.data.length = d0.length := hx2
      omega)
    simp only [hlps, hr2, Res.bind_ok, hst2]
    split <;> exact ⟨_, rfl⟩

theorem truncRat_lt {v : Rat} {n : Int} (hn : 0 ≤ n) : (truncRat v ≤ n ↔ v < n + 1) ∧ (-n ≤ truncRat v ↔ - (n + 1 : Rat) < v) := by
  obtain ⟨h1, h2⟩ := truncRat_abs v
  rw [abs_lt] at h1
  have hn' : (0 : Rat) ≤ n := by exact_mod_cast hn
  constructor
  · constructor
    · intro h
      have : (truncRat v : Rat) ≤ n := by exact_mod_cast h
      linarith
    · intro h
      by_contra hc
      push Not at hc
      have hc' : ((n : Rat) + 1) ≤ truncRat v := by exact_mod_cast hc
      have h3 : |(truncRat v : Rat)| = truncRat v := abs_of_nonneg (by linarith)
      rw [h3] at h2
      have : 0 ≤ v := by linarith
      rw [abs_of_nonneg this] at h2
      linarith
  · constructor
    · intro h
      have : (-n : Rat) ≤ truncRat v := by exact_mod_cast h
      linarith
    · intro h
      by_contra hc
      push Not at hc
      have hc' : (truncRat v : Rat) ≤ -n - 1 := by
        have : truncRat v ≤ -n - 1 := by omega
        exact_mod_cast this
      have h3 : |(truncRat v : Rat)| = -truncRat v := abs_of_nonpos (by linarith)
      rw [h3] at h2
      have : v ≤ 0 := by linarith
      rw [abs_of_nonpos this] at h2
      linarith

theorem castInt_fate (v : Rat) : (BeyondInt32 v ∧ castInt v = .ub) ∨ (¬ BeyondInt32 v ∧ ∃ n, castInt v = .ok n) := by
  have h1 := (truncRat_lt (v := v) (n := 2147483647) (by decide)).1
  have h2 := (truncRat_lt (v := v) (n := 2147483648) (by decide)).2
  push_cast at h1 h2
  unfold castInt BeyondInt32
  by_cases h : -2147483648 ≤ truncRat v ∧ truncRat v ≤ 2147483647
  · rw [if_pos h]
    have a := h1.1 h.2
    have b := h2.1 h.1
    refine Or.inr ⟨?_, _, rfl⟩
    rintro (h | h) <;> linarith
  · rw [if_neg h]
    refine Or.inl ⟨?_, rfl⟩
    by_contra hc
    push Not at hc
    exact h ⟨h2.2 (by linarith [hc.1]), h1.2 (by linarith [hc.2])⟩

theorem castLong_fate (v : Rat) : (BeyondInt64 v ∧ castLong v = .ub) ∨ (¬ BeyondInt64 v ∧ ∃ n, castLong v = .ok n) := by
  have h1 := (truncRat_lt (v := v) (n := 9223372036854775807) (by decide)).1
  have h2 := (truncRat_lt (v := v) (n := 9223372036854775808) (by decide)).2
  push_cast at h1 h2
  unfold castLong BeyondInt64
  by_cases h : LONG_MIN ≤ truncRat v ∧ truncRat v ≤ LONG_MAX
  · rw [if_pos h]
    have a := h1.1 h.2
    have b := h2.1 h.1
    refine Or.inr ⟨?_, _, rfl⟩
    rintro (h | h) <;> linarith
  · rw [if_neg h]
    refine Or.inl ⟨?_, rfl⟩
    by_contra hc
    push Not at hc
    exact h ⟨h2.2 (by linarith [hc.1]), h1.2 (by linarith [hc.2])⟩

/-- No number of the record is hexadecimal, an infinity or "not a number". -/
def PlainRecord (sys : SatSys) (ls : List (List Char)) : Prop := ∀ j l, ls[j]? = some l → ∀ k < specCount sys j, ¬ OddNumber (numText l (navCol j k))

/-- A number of the record: the one in the payload is the one of the line. -/
theorem record_number {dateOf : List Char → Res DateTime} {sys : SatSys} {ls : List (List Char)} {f f' : NavFrame} (hb : IsBlock sys ls) (hs : RecordSays dateOf sys ls f f')
    (hp : PlainRecord sys ls) {j k : Nat} (hj : j < specLines sys) (hk : k < specCount sys j) (hu : specUnit sys j k = 1) (B : Rat → Prop) :
    ∃ v, f'.data[specIndex j k]? = some v ∧ ((∃ l v, ls[j]? = some l ∧ NumberIn (numText l (navCol j k)) v ∧ B v) ↔ B v) := by
  obtain ⟨l, hl⟩ : ∃ l, ls[j]? = some l := ⟨_, List.getElem?_eq_getElem (by rw [hb.count]; exact hj)⟩
  obtain ⟨v, hv, hv2⟩ := hs.numbers j l hl k hk
  rw [hu, one_mul] at hv2
  refine ⟨v, hv2, ?_, fun h => ⟨l, v, hl, hv, h⟩⟩
  rintro ⟨q, w, hq, hw, hB⟩
  rw [hl] at hq
  cases hq
  rwa [NumberIn.unique (hp j l hl k hk) hv hw]

/-- The time of ephemeris of a record that was read. -/
theorem toe_fate {dateOf : List Char → Res DateTime} {sys : SatSys} {ls : List (List Char)} {f f' : NavFrame} (hb : IsBlock sys ls) (hs : RecordSays dateOf sys ls f f')
    (hp : PlainRecord sys ls) (hsys : sys = .gps ∨ sys = .glonass ∨ sys = .galileo ∨ sys = .beidou) :
    (ToeBeyond sys ls ∧ toe2date f' = .ub) ∨ (¬ ToeBeyond sys ls ∧ ∃ d, toe2date f' = .ok d) := by
  have kep : (sys = .gps ∨ sys = .galileo ∨ sys = .beidou) → ∀ g : Int → Int → DateTime,
      toe2date f' = (do
        let wk ← castInt (← dataAt f'.data 21)
        let sc ← castLong (← dataAt f'.data 11)
        pure (g wk sc)) →
      (ToeBeyond sys ls ∧ toe2date f' = .ub) ∨ (¬ ToeBeyond sys ls ∧ ∃ d, toe2date f' = .ok d) := by
    intro h g hg
    have hl8 : specLines sys = 8 := by rcases h with rfl | rfl | rfl <;> rfl
    obtain ⟨w, hw1, hw2⟩ := record_number hb hs hp (j := 5) (k := 2) (by omega) (by rcases h with rfl | rfl | rfl <;> decide) (by rcases h with rfl | rfl | rfl <;> simp [specUnit]) BeyondInt32
    obtain ⟨x, hx1, hx2⟩ := record_number hb hs hp (j := 3) (k := 0) (by omega) (by rcases h with rfl | rfl | rfl <;> decide) (by rcases h with rfl | rfl | rfl <;> simp [specUnit]) BeyondInt64
    have hng : sys ≠ .glonass := by rcases h with rfl | rfl | rfl <;> decide
    have hT : ToeBeyond sys ls ↔ (BeyondInt32 w ∨ BeyondInt64 x) := by
      unfold ToeBeyond
      rw [show (42 : Nat) = navCol 5 2 from rfl, show (4 : Nat) = navCol 3 0 from rfl, hw2, hx2]
      simp [h, hng]
    have hd1 : dataAt f'.data 21 = .ok w := by unfold dataAt; rw [show (21 : Nat) = specIndex 5 2 from rfl, hw1]
    have hd2 : dataAt f'.data 11 = .ok x := by unfold dataAt; rw [show (11 : Nat) = specIndex 3 0 from rfl, hx1]
    rw [hT, hg, hd1, hd2]
    rcases castInt_fate w with ⟨a, b⟩ | ⟨a, n, b⟩
    · exact Or.inl ⟨Or.inl a, by simp only [Res.bind_ok, b]; rfl⟩
    · rcases castLong_fate x with ⟨a', b'⟩ | ⟨a', n', b'⟩
      · exact Or.inl ⟨Or.inr a', by simp only [Res.bind_ok, b, b']; rfl⟩
      · exact Or.inr ⟨by tauto, _, by simp only [Res.bind_ok, b, b']; rfl⟩
  have hfs := hs.system
  rcases hsys with rfl | rfl | rfl | rfl
  · exact kep (by decide) DateTime.ofGpsWeek (by unfold toe2date; rw [hfs]; rfl)
  · obtain ⟨x, hx1, hx2⟩ := record_number hb hs hp (j := 0) (k := 2) (by decide) (by decide) (by simp [specUnit]) BeyondInt64
    have hT : ToeBeyond .glonass ls ↔ BeyondInt64 x := by
      unfold ToeBeyond
      rw [show (61 : Nat) = navCol 0 2 from rfl, hx2]
      simp
    have hd : dataAt f'.data 2 = .ok x := by unfold dataAt; rw [show (2 : Nat) = specIndex 0 2 from rfl, hx1]
    rw [hT]
    unfold toe2date
    rw [hfs]
    simp only
    unfold gloToe
    rw [hd]
    rcases castLong_fate x with ⟨a', b'⟩ | ⟨a', n', b'⟩
    · exact Or.inl ⟨a', by simp only [Res.bind_ok, b']; rfl⟩
    · exact Or.inr ⟨a', _, by simp only [Res.bind_ok, b']; rfl⟩
  · exact kep (by decide) DateTime.ofGpsWeek (by unfold toe2date; rw [hfs]; rfl)
  · exact kep (by decide) (fun wk sc => DateTime.ofGpsWeek (wk + 1356) sc) (by unfold toe2date; rw [hfs]; rfl)

/-- What a result of the model means for the caller. -/
def navFateOf : Res NavOut → Option CallFate
  | .ok _ => some .returns
  | .ub => some .undefined
  | .diverge => some .never
  | .terminate => some .killed
  | .throw _ => none

/-- Every call has one of the fates. -/
theorem record_fate {dateOf : List Char → Res DateTime} (hL : ∀ t, (∃ d, dateOf t = .ok d) ∨ ∃ e, dateOf t = .throw e) (junk : List Char) {f : NavFrame} {s : Stream}
    {sys : SatSys} {ls : List (List Char)} {tail : List Char} (hb : IsBlock sys ls) (hrc : ReachesColumns sys ls) (hp : PlainRecord sys ls) (hlen : f.data.length = 31)
    (hg : s.good = true) (hr : s.rest = linesText ls ++ tail) :
    ∃ x, navFateOf (readNextRecord dateOf junk f s 0) = some x ∧ RecordFate sys ls (fun t => ∃ d, dateOf t = .ok d) x := by
  obtain ⟨l0, hl0⟩ : ∃ l0, ls.head? = some l0 := by
    have := hb.count
    have hm := hb.notMixed
    cases ls with
    | nil => cases sys <;> simp [specLines] at this hm
    | cons a b => exact ⟨a, rfl⟩
  have hpeek : readNextRecord dateOf junk f s 0 = setFromRnx3 dateOf junk f s 0 := by
    obtain ⟨q, rfl⟩ : ∃ q, ls = l0 :: q := by
      cases ls with
      | nil => cases hl0
      | cons a b => simp at hl0; exact ⟨b, by rw [hl0]⟩
    unfold readNextRecord
    rw [nav_peek_line hg (by rw [hr, linesText_cons, List.append_assoc]) (hb.letter l0 rfl)]
  rw [hpeek]
  unfold setFromRnx3
  obtain ⟨k1, k2⟩ := readBlock_fate (dateOf := dateOf) (junk := junk) hb hrc hg hr hlen hl0
  rcases hL (l0.drop 3) with ⟨d, hd⟩ | ⟨e, he⟩
  swap
  · rw [k2 e he]
    exact ⟨_, rfl, .date l0 hl0 (by rintro ⟨d, hd⟩; rw [he] at hd; cases hd)⟩
  obtain ⟨o, ho⟩ := k1 d hd
  have hv : ∃ d, dateOf (l0.drop 3) = .ok d := ⟨d, hd⟩
  rw [ho, Res.bind_ok]
  obtain ⟨m, h1, h2, h3⟩ := readBlock_text hb hrc hg hr ho
  have hbs : ∀ j, badStatus sys j ≠ 0 := by
    intro j; unfold badStatus; split <;> (try split) <;> decide
  generalize hst : o.status = st at h1
  generalize hfr : o.frame = fr at h1
  cases h1 with
  | noSatellite _ l g1 g2 =>
    rw [hl0] at g1
    cases g1
    rw [if_pos (by decide)]
    exact ⟨_, rfl, .satellite l0 hl0 hv g2⟩
  | noNumber _ j k l g0 g1 g2 g3 g4 =>
    rw [if_pos (hbs j)]
    obtain ⟨p, hp1, hp2⟩ := g0 l0 hl0
    exact ⟨_, rfl, .number l0 p j k l hl0 hv hp1 hp2 g1 g2 g3⟩
  | complete _ hs =>
    rw [if_neg (by simp)]
    obtain ⟨p1, p2⟩ := hs.satellite l0 hl0
    have hnum : ∀ j q, ls[j]? = some q → ∀ k < specCount sys j, ∃ v, NumberIn (numText q (navCol j k)) v := fun j q hq k hk => by
      obtain ⟨v, hv, _⟩ := hs.numbers j q hq k hk
      exact ⟨v, hv⟩
    rw [hs.system]
    by_cases hsys : sys = .gps ∨ sys = .glonass ∨ sys = .galileo ∨ sys = .beidou
    · rw [if_pos hsys]
      rcases toe_fate hb hs hp hsys with ⟨a, b⟩ | ⟨a, t, b⟩
      · rw [b]
        exact ⟨_, rfl, .beyond l0 _ hl0 hv p1 p2 hnum a⟩
      · rw [b]
        exact ⟨_, rfl, .complete l0 _ hl0 hv p1 p2 hnum a⟩
    · rw [if_neg hsys]
      refine ⟨_, rfl, .complete l0 _ hl0 hv p1 p2 hnum ?_⟩
      unfold ToeBeyond
      tauto

/-- C110: the lines leave no choice. -/
theorem C110_determined {sys : SatSys} {ls : List (List Char)} {valid : List Char → Prop} (hp : PlainRecord sys ls) {x y : CallFate}
    (h1 : RecordFate sys ls valid x) (h2 : RecordFate sys ls valid y) : x = y := by
  have hh : ∀ {a b : List Char}, ls.head? = some a → ls.head? = some b → a = b := by
    intro a b h1 h2; rw [h1] at h2; exact Option.some.inj h2
  have hv : ∀ {a b : List Char}, ls.head? = some a → ls.head? = some b → valid (a.drop 3) → ¬ valid (b.drop 3) → False := by
    intro a b h1 h2 h3 h4; rw [hh h1 h2] at h3; exact h4 h3
  have hs : ∀ {a b : List Char} {p : Int}, ls.head? = some a → ls.head? = some b → (∀ p, PrnOf a p → p = 0) → PrnOf b p → p ≠ 0 → False := by
    intro a b p h1 h2 h3 h4 h5; rw [hh h1 h2] at h3; exact h5 (h3 p h4)
  have hn : ∀ {j k : Nat} {q : List Char}, ls[j]? = some q → k < specCount sys j → NoNumberIn (numText q (navCol j k)) →
      (∀ j q, ls[j]? = some q → ∀ k < specCount sys j, ∃ v, NumberIn (numText q (navCol j k)) v) → False := by
    intro j k q g1 g2 g3 g4
    obtain ⟨v, hv⟩ := g4 j q g1 k g2
    exact NumberIn.not_no (hp j q g1 k g2) hv g3
  cases h1 with
  | date l a1 a2 =>
    cases h2 with
    | date => rfl
    | satellite l b1 b2 => exact (hv b1 a1 b2 a2).elim
    | number l p j k q b1 b2 => exact (hv b1 a1 b2 a2).elim
    | complete l p b1 b2 => exact (hv b1 a1 b2 a2).elim
    | beyond l p b1 b2 => exact (hv b1 a1 b2 a2).elim
  | satellite l a1 a2 a3 =>
    cases h2 with
    | date l b1 b2 => exact (hv a1 b1 a2 b2).elim
    | satellite => rfl
    | number => rfl
    | complete => rfl
    | beyond l p b1 b2 b3 b4 => exact (hs a1 b1 a3 b3 b4).elim
  | number l p j k q a1 a2 a3 a4 a5 a6 a7 =>
    cases h2 with
    | date l b1 b2 => exact (hv a1 b1 a2 b2).elim
    | satellite => rfl
    | number => rfl
    | complete => rfl
    | beyond l p b1 b2 b3 b4 b5 => exact (hn a5 a6 a7 b5).elim
  | complete l p a1 a2 a3 a4 a5 a6 =>
    cases h2 with
    | date l b1 b2 => exact (hv a1 b1 a2 b2).elim
    | satellite => rfl
    | number => rfl
    | complete => rfl
    | beyond l p b1 b2 b3 b4 b5 b6 => exact absurd b6 a6
  | beyond l p a1 a2 a3 a4 a5 a6 =>
    cases h2 with
    | date l b1 b2 => exact (hv a1 b1 a2 b2).elim
    | satellite l b1 b2 b3 => exact (hs b1 a1 b3 a3 a4).elim
    | number l p j k q b1 b2 b3 b4 b5 b6 b7 => exact (hn b5 b6 b7 a5).elim
    | complete l p b1 b2 b3 b4 b5 b6 => exact absurd a6 b6
    | beyond => rfl

/-- C110: whatever the lines of a record look like, reading it returns, is undefined or ends the process exactly in the cases of the specification; it never runs for
ever, and no exception leaves it. -/
theorem C110_fate {dateOf : List Char → Res DateTime} (hL : ∀ t, (∃ d, dateOf t = .ok d) ∨ ∃ e, dateOf t = .throw e) (junk : List Char) {f : NavFrame} {s : Stream}
    {sys : SatSys} {ls : List (List Char)} {tail : List Char} (hb : IsBlock sys ls) (hrc : ReachesColumns sys ls)
    (hp : ∀ j l, ls[j]? = some l → ∀ k < specCount sys j, ¬ OddNumber (numText l (navCol j k))) (hlen : f.data.length = 31)
    (hg : s.good = true) (hr : s.rest = linesText ls ++ tail) :
    ((∃ o, readNextRecord dateOf junk f s 0 = .ok o) ↔ RecordFate sys ls (fun t => ∃ d, dateOf t = .ok d) .returns) ∧
    (readNextRecord dateOf junk f s 0 = .ub ↔ RecordFate sys ls (fun t => ∃ d, dateOf t = .ok d) .undefined) ∧
    (readNextRecord dateOf junk f s 0 = .terminate ↔ RecordFate sys ls (fun t => ∃ d, dateOf t = .ok d) .killed) ∧
    readNextRecord dateOf junk f s 0 ≠ .diverge ∧ ∀ e, readNextRecord dateOf junk f s 0 ≠ .throw e := by
  obtain ⟨x, h1, h2⟩ := record_fate hL junk hb hrc hp hlen hg hr
  have key : ∀ y, RecordFate sys ls (fun t => ∃ d, dateOf t = .ok d) y ↔ x = y := fun y => ⟨fun h3 => C110_determined hp h2 h3, fun h3 => h3 ▸ h2⟩
  have hnever : x ≠ .never := by rintro rfl; cases h2
  simp only [key]
  cases hrun : readNextRecord dateOf junk f s 0 <;> rw [hrun] at h1 <;> simp only [navFateOf, Option.some.injEq, reduceCtorEq] at h1 <;> subst h1 <;> simp at hnever ⊢

end Ggnss
