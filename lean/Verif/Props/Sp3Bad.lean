import Verif.Spec.Sp3Bad
import Verif.Props.Sp3
import Verif.Lemmas.BadField
/-!
# C73: malformed SP3 records are reported
-/
namespace Ggnss

theorem noSystem_chars {c : Char} (h : NoSystem c) : ∃ e, charToSatsys c = .throw e := by
  have k : ∀ sys, c ≠ satsysToChar sys := fun sys he => h sys he.symm
  have g := k .gps; have r := k .glonass; have s := k .sbas; have e := k .galileo
  have b := k .beidou; have q := k .qzss; have i := k .irnss; have m := k .mixed
  simp only [satsysToChar] at g r s e b q i m
  exact ⟨.runtime_error, by unfold charToSatsys; simp [g, r, s, e, b, q, i, m]⟩

theorem sp3Col_num {l tail : List Char} {i : Nat} {n : Numeral} (h : NumAt l (4 + 14 * i) n) {errno : Int} (he : errno ≠ ERANGE) (k : Nat)
    {r : List Rat × Option Nat} (hr : sp3Cols errno (l ++ NUL :: tail) k (i + 1) = .ok r) :
    sp3Cols errno (l ++ NUL :: tail) (k + 1) i = .ok (n.value :: r.1, r.2) := by
  obtain ⟨w, hw⟩ := strtodA_num (tail := tail) h
  unfold sp3Cols
  rw [hw, Res.bind_ok]
  simp only [he, Bool.false_eq_true, or_self, if_false, hr, Res.bind_ok]
  rfl

theorem sp3Col_bad {l tail : List Char} {i : Nat} (ho : 4 + 14 * i ≤ l.length) (h : BadReal (l.drop (4 + 14 * i))) (errno : Int) (k : Nat) :
    sp3Cols errno (l ++ NUL :: tail) (k + 1) i = .ok ([], some i) := by
  obtain ⟨p, hp, h⟩ := strtodA_badReal ho h tail
  unfold sp3Cols
  rw [hp, Res.bind_ok]
  rcases h with rfl | ⟨v, r, rfl⟩
  · rfl
  · simp

theorem position_refused {l : List Char} {st : Int} (h : PosBad l st) (hP : l.head? = some 'P') (tail : List Char) (r0 : Sp3Rec) {errno : Int}
    (he : errno ≠ ERANGE) :
    ∃ r errno', getNextPosition (l ++ NUL :: tail) r0 errno = .ok ⟨st, r, errno'⟩ ∧ errno' ≠ ERANGE := by
  have h0 : getAt (l ++ NUL :: tail) 0 = .ok 'P' := getAt_of (by rw [← List.head?_eq_getElem?]; exact hP)
  have hzero : (0 : Int) ≠ ERANGE := by decide
  have go : ∀ (sys : SatSys) (prn : Nat), l[1]? = some (satsysToChar sys) → NatAt l 2 prn → ∀ (vs : List Rat) (i : Nat),
      sp3Cols errno (l ++ NUL :: tail) 4 0 = .ok (vs, some i) →
      ∃ r errno', getNextPosition (l ++ NUL :: tail) r0 errno = .ok ⟨5 + (i : Int), r, errno'⟩ ∧ errno' ≠ ERANGE := by
    intro sys prn hs hn vs i hc
    obtain ⟨w, hw⟩ := strtol_nat (tail := tail) hn
    refine ⟨{ r0 with flag := r0.flag.reset }, 0, ?_, hzero⟩
    unfold getNextPosition
    simp only [h0, Res.bind_ok, ne_eq, not_true_eq_false, if_false, getAt_of hs, charToSatsys_letter, hw, strtolErr, Bool.false_eq_true, he,
      reduceCtorEq, or_self, hc]
    rfl
  cases h with
  | system c hc hno =>
    obtain ⟨e, hce⟩ := noSystem_chars hno
    refine ⟨{ r0 with flag := r0.flag.reset }, errno, ?_, he⟩
    unfold getNextPosition
    simp only [h0, Res.bind_ok, ne_eq, not_true_eq_false, if_false, getAt_of hc, hce]
    rfl
  | number sys hs hb =>
    have h2 : 2 ≤ l.length := by
      obtain ⟨h1, _⟩ := List.getElem?_eq_some_iff.1 hs
      omega
    obtain ⟨p, hp, hbad⟩ := strtolA_badInt h2 hb tail
    refine ⟨{ r0 with flag := r0.flag.reset }, 0, ?_, hzero⟩
    unfold getNextPosition
    simp only [h0, Res.bind_ok, ne_eq, not_true_eq_false, if_false, getAt_of hs, charToSatsys_letter, hp]
    rw [if_pos]
    · rfl
    · rcases hbad with rfl | hb
      · exact Or.inr rfl
      · left; rw [hb]; rfl
  | x sys prn hs hn ho hb => exact go sys prn hs hn [] 0 (sp3Col_bad ho hb errno 3)
  | y sys prn x hs hn hx ho hb => exact go sys prn hs hn _ 1 (sp3Col_num (i := 0) hx he 3 (sp3Col_bad (i := 1) ho hb errno 2))
  | z sys prn x y hs hn hx hy ho hb =>
    exact go sys prn hs hn _ 2 (sp3Col_num (i := 0) hx he 3 (sp3Col_num (i := 1) hy he 2 (sp3Col_bad (i := 2) ho hb errno 1)))
  | clock sys prn x y z hs hn hx hy hz ho hb =>
    exact go sys prn hs hn _ 3 (sp3Col_num (i := 0) hx he 3 (sp3Col_num (i := 1) hy he 2 (sp3Col_num (i := 2) hz he 1
      (sp3Col_bad (i := 3) ho hb errno 0))))

theorem PosBad.pos {l : List Char} {st : Int} (h : PosBad l st) : 0 < st := by cases h <;> decide
theorem EpochBad.pos {l : List Char} {st : Int} (h : EpochBad l st) : 0 < st := by cases h <;> decide

/-- **C73**.  An epoch whose records are well formed up to a position line with a defect: `get_next_epoch` returns 20 more than the number of
the defect, the time of the epoch and the records before the defect; the number of satellites of the caller is not touched; nothing behind the
defective line is read. -/
theorem C73_record_refused {h : EpochLine} (hw : h.WF) {ls : List (List Char)} {ps : List PosLine}
    (hb : IsEpochBody ls ps) {l : List Char} {st : Int} (hok : LineOK l) (hP : l.head? = some 'P') (hbad : PosBad l st)
    (junk : List Char) (hj : junk.length = 128) (fuel : Nat) (hfuel : ls.length < fuel)
    (t0 : Sp3Epoch) (vec : List Sp3Rec) (hsz : ps.length ≤ vec.length) (sr : Int) (s : Stream) (tail : List Char)
    {errno : Int} (he : errno ≠ ERANGE) (hg : s.good = true)
    (hr : s.rest = h.line ++ '\n' :: (linesText ls ++ (l ++ '\n' :: tail))) :
    ∃ t recs s' errno', getNextEpoch junk fuel t0 vec sr s errno = .ok ⟨20 + st, t, recs ++ vec.drop ps.length, sr, s', errno'⟩ ∧
      h.Is t ∧ List.Forall₂ Decoded ps recs ∧ s'.rest = tail ∧ s'.good = true ∧ errno' ≠ ERANGE := by
  obtain ⟨t, h1, h2, h3⟩ := getNextEpoch_head hw junk fuel t0 vec sr s he hg hr
  obtain ⟨f, rfl⟩ : ∃ f, fuel = ls.length + (f + 1) := ⟨fuel - ls.length - 1, by omega⟩
  obtain ⟨recs, buf', h4, h5, h6⟩ := sp3Loop_body t sr (f + 1) errno he (l ++ '\n' :: tail) ls ps (fillLine junk h.line) []
    vec (s.adv (h.line.length + 1)) hb hg h3 (fillLine_length _ _ _ (by omega)) hsz
  simp only [List.nil_append, List.length_nil, Nat.zero_add] at h6
  have hrest : ((s.adv (h.line.length + 1)).adv (linesText ls).length).rest = l ++ '\n' :: tail := Stream.adv_rest_append h3
  obtain ⟨r, errno', hp, he'⟩ := position_refused hbad hP (buf'.drop (l.length + 1)) {} he
  have hline : sp3Line (fillLine buf' l) (recs ++ vec.drop ps.length) ps.length errno = .ok (.inr (st + 20, errno')) := by
    unfold sp3Line
    have h0 : l.head?.getD NUL = 'P' := by simp [hP]
    have hp' : getNextPosition (fillLine buf' l) {} errno = .ok ⟨st, r, errno'⟩ := hp
    simp only [getAt_head, Res.bind_ok, h0, if_true, hp']
    rw [if_pos (by have := hbad.pos; omega)]
    rfl
  have hstep := sp3Loop_step t sr f buf' (recs ++ vec.drop ps.length) ps.length ((s.adv (h.line.length + 1)).adv (linesText ls).length) errno hg hrest hok (by rw [hP]; decide)
  rw [hline] at hstep
  simp only at hstep
  rw [if_neg (by have := hbad.pos; omega)] at hstep
  refine ⟨t, recs, ((s.adv (h.line.length + 1)).adv (linesText ls).length).adv (l.length + 1), errno', ?_, h1, h4, ?_, ?_, he'⟩
  · rw [h2, h6, hstep, Int.add_comm]
    rfl
  · have := Stream.adv_rest_append (s := (s.adv (h.line.length + 1)).adv (linesText ls).length) (a := l ++ ['\n']) (b := tail) (by rw [hrest]; simp)
    simpa using this
  · exact hg

theorem sp3Date_num {l tail : List Char} {i v : Nat} (h : NatAt l (8 + 3 * (i - 1)) v) {errno : Int} (he : errno ≠ ERANGE) (k : Nat)
    {r : List Int × Option Nat} (hr : sp3Date errno (l ++ NUL :: tail) k (i + 1) = .ok r) :
    ∃ vs, sp3Date errno (l ++ NUL :: tail) (k + 1) i = .ok (vs, r.2) := by
  obtain ⟨w, hw⟩ := strtol_nat (tail := tail) h
  refine ⟨toInt32 (v : Int) :: r.1, ?_⟩
  unfold sp3Date
  generalize (v : Int) = z at *
  rw [hw, Res.bind_ok]
  simp only [strtolErr, Bool.false_eq_true, if_false, he, reduceCtorEq, or_self, hr, Res.bind_ok, strtolVal]
  rfl

theorem sp3Date_bad {l tail : List Char} {i : Nat} (ho : 8 + 3 * (i - 1) ≤ l.length) (h : BadInt (l.drop (8 + 3 * (i - 1)))) (errno : Int) (k : Nat) :
    sp3Date errno (l ++ NUL :: tail) (k + 1) i = .ok ([], some i) := by
  obtain ⟨p, hp, h⟩ := strtolA_badInt ho h tail
  unfold sp3Date
  rw [hp, Res.bind_ok, if_pos]
  · rfl
  · rcases h with rfl | h
    · exact Or.inr rfl
    · left; rw [h]; rfl

theorem sp3Header_year {buf : List Char} {errno : Int} {p : Option (Int × List Char × Bool)}
    (h0 : getAt buf 0 = .ok '*') (h1 : getAt buf 1 = .ok ' ') (hp : strtolA (buf.drop 3) = .ok p)
    (hbad : toInt32 (strtolVal p) = 0 ∨ strtolErr p = true) : sp3Header buf errno = .ok (.error 5, 0) := by
  unfold sp3Header
  rcases hbad with hbad | hbad <;> simp [h0, h1, hp, hbad]

theorem sp3Header_date {buf : List Char} {errno y : Int} {p : Option (Int × List Char × Bool)} {vs : List Int} {i : Nat}
    (h0 : getAt buf 0 = .ok '*') (h1 : getAt buf 1 = .ok ' ') (hp : strtolA (buf.drop 3) = .ok p) (hpe : strtolErr p = false)
    (hy : toInt32 (strtolVal p) = y) (hy0 : y ≠ 0) (he : errno ≠ ERANGE) (hd : sp3Date errno buf 4 1 = .ok (vs, some i)) :
    sp3Header buf errno = .ok (.error (5 + (i : Int)), 0) := by
  unfold sp3Header
  simp [h0, h1, hp, hpe, hy, hy0, he, hd]

theorem sp3Header_sec {buf : List Char} {errno y : Int} {p : Option (Int × List Char × Bool)} {vs : List Int}
    {v : Option (Rat × List Char × Bool)}
    (h0 : getAt buf 0 = .ok '*') (h1 : getAt buf 1 = .ok ' ') (hp : strtolA (buf.drop 3) = .ok p) (hpe : strtolErr p = false)
    (hy : toInt32 (strtolVal p) = y) (hy0 : y ≠ 0) (he : errno ≠ ERANGE) (hd : sp3Date errno buf 4 1 = .ok (vs, none))
    (hv : strtodA (buf.drop 20) = .ok v) (hbad : v = none ∨ ∃ x r, v = some (x, r, true)) :
    sp3Header buf errno = .ok (.error 11, 0) := by
  unfold sp3Header
  rcases hbad with rfl | ⟨x, r, rfl⟩ <;> simp [h0, h1, hp, hpe, hy, hy0, he, hd, hv]

theorem toInt32_zero : toInt32 0 = 0 := by decide

theorem header_refused {l : List Char} {st : Int} (h : EpochBad l st) (tail : List Char) (hnul : NUL ∉ l) (ht : l.length = 0 → tail ≠ [])
    {errno : Int} (he : errno ≠ ERANGE) :
    ∃ errno', sp3Header (l ++ NUL :: tail) errno = .ok (.error st, errno') ∧ errno' ≠ ERANGE := by
  have hzero : (0 : Int) ≠ ERANGE := by decide
  have star : c!"* " <+: l → getAt (l ++ NUL :: tail) 0 = .ok '*' ∧ getAt (l ++ NUL :: tail) 1 = .ok ' ' := by
    rintro ⟨r, rfl⟩
    exact ⟨rfl, rfl⟩
  have go : c!"* " <+: l → ∀ y : Nat, NatAt l 3 y → y ≠ 0 → ∀ (vs : List Int) (i : Nat), sp3Date errno (l ++ NUL :: tail) 4 1 = .ok (vs, some i) →
      ∃ errno', sp3Header (l ++ NUL :: tail) errno = .ok (.error (5 + (i : Int)), errno') ∧ errno' ≠ ERANGE := by
    intro hs y hy hy0 vs i hd
    obtain ⟨h1, h2⟩ := star hs
    obtain ⟨w, hw⟩ := strtol_nat (tail := tail) hy
    have hlt : y < 2147483648 := by
      obtain ⟨_, _, _, _, _, _, _, _, _, hh⟩ := hy; exact hh
    have y0 : (y : Int) ≠ 0 := by exact_mod_cast hy0
    exact ⟨0, sp3Header_date h1 h2 hw rfl (toInt32_nat hlt) y0 he hd, hzero⟩
  cases h with
  | start hs =>
    refine ⟨errno, ?_, he⟩
    have key : ∃ a b, getAt (l ++ NUL :: tail) 0 = .ok a ∧ getAt (l ++ NUL :: tail) 1 = .ok b ∧ (a ≠ '*' ∨ b ≠ ' ') := by
      match l, hs, ht with
      | [], _, ht =>
        cases tail with
        | nil => exact absurd rfl (ht rfl)
        | cons b r => exact ⟨NUL, b, rfl, rfl, Or.inl (by decide)⟩
      | [a], _, _ => exact ⟨a, NUL, rfl, rfl, Or.inr (by decide)⟩
      | a :: b :: r, hs, _ =>
        refine ⟨a, b, rfl, rfl, ?_⟩
        by_contra hh
        push Not at hh
        exact hs ⟨r, by rw [hh.1, hh.2]; rfl⟩
    obtain ⟨a, b, ha, hb, hab⟩ := key
    unfold sp3Header
    simp only [ha, hb, Res.bind_ok]
    rw [if_pos hab]
    rfl
  | year hs ho hy =>
    obtain ⟨h1, h2⟩ := star hs
    rcases hy with hy | hy
    · obtain ⟨p, hp, h⟩ := strtolA_badInt ho hy tail
      refine ⟨0, sp3Header_year h1 h2 hp ?_, hzero⟩
      rcases h with rfl | h
      · exact Or.inl toInt32_zero
      · exact Or.inr h
    · obtain ⟨w, hw⟩ := strtol_nat (tail := tail) hy
      exact ⟨0, sp3Header_year h1 h2 hw (Or.inl toInt32_zero), hzero⟩
  | month y hs hy hy0 ho hb => exact go hs y hy hy0 _ 1 (sp3Date_bad (i := 1) ho hb errno 3)
  | day y m hs hy hy0 hm ho hb =>
    obtain ⟨vs, h1⟩ := sp3Date_num (i := 1) hm he 3 (sp3Date_bad (i := 2) ho hb errno 2)
    exact go hs y hy hy0 _ 2 h1
  | hour y m d hs hy hy0 hm hd ho hb =>
    obtain ⟨vs, h2⟩ := sp3Date_num (i := 2) hd he 2 (sp3Date_bad (i := 3) ho hb errno 1)
    obtain ⟨vs, h1⟩ := sp3Date_num (i := 1) hm he 3 h2
    exact go hs y hy hy0 _ 3 h1
  | minute y m d hh hs hy hy0 hm hd hh' ho hb =>
    obtain ⟨vs, h3⟩ := sp3Date_num (i := 3) hh' he 1 (sp3Date_bad (i := 4) ho hb errno 0)
    obtain ⟨vs, h2⟩ := sp3Date_num (i := 2) hd he 2 h3
    obtain ⟨vs, h1⟩ := sp3Date_num (i := 1) hm he 3 h2
    exact go hs y hy hy0 _ 4 h1
  | seconds y m d hh mi hs hy hy0 hm hd hh' hmi ho hb =>
    obtain ⟨h1, h2⟩ := star hs
    obtain ⟨vs4, k4⟩ := sp3Date_num (i := 4) (errno := errno) (tail := tail) hmi he 0 (r := ([], none)) rfl
    obtain ⟨vs3, k3⟩ := sp3Date_num (i := 3) hh' he 1 k4
    obtain ⟨vs2, k2⟩ := sp3Date_num (i := 2) hd he 2 k3
    obtain ⟨vs1, k1⟩ := sp3Date_num (i := 1) hm he 3 k2
    obtain ⟨w, hw⟩ := strtol_nat (tail := tail) hy
    have hlt : y < 2147483648 := by
      obtain ⟨_, _, _, _, _, _, _, _, _, hh⟩ := hy; exact hh
    have y0 : (y : Int) ≠ 0 := by exact_mod_cast hy0
    obtain ⟨p, hp, hbad⟩ := strtodA_badReal ho hb tail
    exact ⟨0, sp3Header_sec h1 h2 hw rfl (toInt32_nat hlt) y0 he k1 hp hbad, hzero⟩

/-- **C73**.  A line in the place of an epoch header that is none: `get_next_epoch` returns the number of the defect; time, records and number
of satellites of the caller are untouched, and nothing behind the line is read. -/
theorem C73_header_refused {l : List Char} {st : Int} (hok : LineOK l) (hbad : EpochBad l st)
    (junk : List Char) (hj : junk.length = 128) (fuel : Nat) (t0 : Sp3Epoch) (vec : List Sp3Rec) (sr : Int) (s : Stream) (tail : List Char)
    {errno : Int} (he : errno ≠ ERANGE) (hg : s.good = true) (hr : s.rest = l ++ '\n' :: tail) :
    ∃ s' errno', getNextEpoch junk fuel t0 vec sr s errno = .ok ⟨st, t0, vec, sr, s', errno'⟩ ∧ s'.rest = tail ∧ s'.good = true ∧
      errno' ≠ ERANGE := by
  have hgl := Stream.getline_line (n := MAX_RECORD_CHARS) hg hr hok.1 (by simpa [MAX_RECORD_CHARS] using hok.2.2)
  obtain ⟨errno', h1, h2⟩ := header_refused hbad (junk.drop (l.length + 1)) hok.2.1 (by
    intro h0 hn
    have := congrArg List.length hn
    simp [h0, hj] at this) he
  refine ⟨s.adv (l.length + 1), errno', ?_, ?_, hg, h2⟩
  · unfold getNextEpoch
    have h1' : sp3Header (fillLine junk l) errno = .ok (.error st, errno') := h1
    simp only [hg, Bool.not_true, Bool.false_eq_true, if_false, hgl, h1', Res.bind_ok]
    rfl
  · have := Stream.adv_rest_append (s := s) (a := l ++ ['\n']) (b := tail) (by rw [hr]; simp)
    simpa using this

end Ggnss
