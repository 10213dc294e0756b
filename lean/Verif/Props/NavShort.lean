import Verif.Props.NavBad
/-!
# C75: records cut short
-/
namespace Ggnss

/-- The middle lines in two portions. -/
theorem orbitLines_add (sys : SatSys) (e : Int) : ∀ (a b ln : Nat) (buf : List Char) (f : NavFrame) (s : Stream)
    (buf' : List Char) (f' : NavFrame) (s' : Stream), orbitLines sys e a ln buf f s = .ok (none, buf', f', s') →
    orbitLines sys e (a + b) ln buf f s = orbitLines sys e b (ln + a) buf' f' s' := by
  intro a
  induction a with
  | zero =>
    intro b ln buf f s buf' f' s' h
    simp only [orbitLines, Res.ok.injEq, Prod.mk.injEq, true_and] at h
    obtain ⟨rfl, rfl, rfl⟩ := h
    simp
  | succ a ih =>
    intro b ln buf f s buf' f' s' h
    rw [show a + 1 + b = (a + b) + 1 by omega]
    rw [orbitLines.eq_2] at h
    rw [orbitLines.eq_2]
    simp only at h ⊢
    by_cases hf : (s.getline MAX_RECORD_CHARS).2.fail = true
    · rw [if_pos hf] at h; simp at h
    · rw [if_neg hf] at h ⊢
      rw [Res.bind_eq_ok] at h
      obtain ⟨b1, h1, h⟩ := h
      rw [Res.bind_eq_ok] at h
      obtain ⟨r, h2, h⟩ := h
      rw [Res.bind_eq_ok] at h
      obtain ⟨d, h3, h⟩ := h
      simp only [h1, Res.bind_ok, h2, h3]
      by_cases hr : r.1 = true
      · rw [if_pos hr] at h ⊢
        rw [ih b _ _ _ _ _ _ _ h, show ln + 1 + a = ln + (a + 1) by omega]
      · rw [if_neg hr] at h; simp at h

/-- The lines of a record of system `sys` from its first line on, all of them readable, at least one and not all. -/
structure CutRecord (sys : SatSys) (prn : Int) (ls : List (List Char)) : Prop where
  nonempty : ls ≠ []
  notAll : ls.length < specLines sys
  fits : ∀ l ∈ ls, LineOK l
  letter : ∀ l, ls.head? = some l → l.head? = some (satsysToChar sys)
  prn : ∀ l, ls.head? = some l → PrnAt l prn
  numbers : ∀ i l, ls[i]? = some l → ∀ k < specCount sys i, FieldGood l (navCol i k)

/-- C75: a record cut by the end of the file is refused, with status 7 when only its last line is missing and 5
otherwise. -/
theorem C75_cut_refused (dateOf : List Char → Res DateTime) (junk : List Char) (f : NavFrame) (s : Stream)
    (sys : SatSys) (prn : Int) (ls : List (List Char)) (toc : DateTime)
    (h : CutRecord sys prn ls) (hdate : ∀ l, ls.head? = some l → dateOf (l.drop 3) = .ok toc)
    (hg : s.good = true) (hrest : s.rest = linesText ls) (hlen : f.data.length = 31) :
    ∃ f' s', readNextRecord dateOf junk f s 0 = .ok ⟨if ls.length + 1 = specLines sys then 7 else 5, f', s', 0⟩ ∧
      s'.eof = true ∧ s'.rest = [] ∧ f'.sys = sys ∧ f'.prn = prn ∧ f'.toc = toc ∧ f'.data.length = 31 := by
  have hmix : sys ≠ .mixed := by rintro rfl; have := h.notAll; simp [specLines] at this
  obtain ⟨n, c, hlps, hsl, hc4, hbnd, hcnt, hlast⟩ := layout sys hmix
  have hin := h.notAll
  obtain ⟨l0, mid, rfl⟩ : ∃ l0 rest, ls = l0 :: rest := by
    have := h.nonempty
    cases ls with
    | nil => exact absurd rfl this
    | cons a b => exact ⟨a, b, rfl⟩
  have ok0 := h.fits l0 (by simp)
  have hlet := h.letter l0 rfl
  have hp := h.prn l0 rfl
  have hr0 : s.rest = l0 ++ '\n' :: linesText mid := by rw [hrest, linesText_cons]
  have hpk := nav_peek_line (t := '\n' :: linesText mid) hg hr0 hlet
  obtain ⟨hg1, hr1⟩ := adv_next hg hr0
  have hgood0 : ∀ k < 3, FieldGood l0 (23 + 19 * k) := fun k hk => h.numbers 0 l0 rfl k hk
  obtain ⟨buf, d, hd, hrun⟩ := readBlock_first_good dateOf junk f s sys prn l0 _ toc hmix ok0 hlet hp (hdate l0 rfl)
    hgood0 hg hr0 hlen
  simp only [List.length_cons] at hin ⊢
  have hall' : ∀ i, ∃ num : Nat → Numeral, ∀ l, mid[i]? = some l → ∀ k < recsOnLine sys i, FieldAt l (4 + 19 * k) (num k) := by
    intro i
    rcases hl : mid[i]? with _ | l
    · exact ⟨fun _ => ⟨0, none, [], none, none⟩, fun l hl => by cases hl⟩
    · have hi : i < mid.length := by rw [List.getElem?_eq_some_iff] at hl; exact hl.1
      obtain ⟨num, hnum⟩ := choose_fields (l := l) (off := 4) (N := recsOnLine sys i) (fun k hk => by
        have := h.numbers (i + 1) l (by simpa using hl) k (by rw [hcnt i (by omega)]; exact hk)
        simpa [navCol] using this)
      exact ⟨num, fun l' hl' => by cases hl'; exact hnum⟩
  choose num hnum using hall'
  obtain ⟨buf', d', e1, e2, -, -⟩ := orbitLines_ok sys (fun i => num (i - 1)) [] mid 0 buf
    { f with sys := sys, toc := toc, prn := prn, data := d } (s.adv (l0.length + 1)) hg1
    (by rw [hr1]; simp) (fun l hl => h.fits l (by simp [hl]))
    (fun i l hl k hk => by
      simp only [Nat.zero_add] at hk ⊢
      rw [show 1 + i - 1 = i by omega]
      exact hnum i l hl k hk) hd (by omega)
  have hgm : ((s.adv (l0.length + 1)).adv (linesText mid).length).good = true := by simpa using hg
  have hrm : ((s.adv (l0.length + 1)).adv (linesText mid).length).rest = [] := by
    have : (s.adv (l0.length + 1)).rest = linesText mid ++ [] := by rw [hr1]; simp
    rw [Stream.adv_rest_append this]
  generalize (s.adv (l0.length + 1)).adv (linesText mid).length = s2 at *
  have hgl := Stream.getline_last (n := MAX_RECORD_CHARS) hgm hrm (by simp) (by simp)
  simp only [List.length_nil, Nat.add_zero, List.isEmpty_nil] at hgl
  have hrest2 : ({ s2 with pos := s2.pos, eof := true, fail := true } : Stream).rest = [] := by simpa [Stream.rest] using hrm
  have hn : ((n : Int) + 2 - 1 - 1).toNat = n := by omega
  by_cases hend : mid.length + 1 + 1 = specLines sys
  · have hmn : mid.length = n := by omega
    rw [if_pos hend]
    refine ⟨_, _, readNextRecord_refused hpk (o := ⟨7, { f with sys := sys, toc := toc, prn := prn, data := d' },
      { s2 with pos := s2.pos, eof := true, fail := true }, 0⟩) ?_ (show (7 : Int) ≠ 0 by decide), rfl, hrest2, rfl, rfl, rfl, e2⟩
    rw [hrun]
    unfold blockRest
    rw [hlps]
    simp only
    rw [if_neg (by omega), hn]
    rw [hmn] at e1
    rw [e1]
    simp only [Res.bind_ok, hgl, if_true, Res.pure_eq]
  · rw [if_neg hend]
    obtain ⟨b, hb⟩ : ∃ b, n = mid.length + (b + 1) := ⟨n - mid.length - 1, by omega⟩
    refine ⟨_, _, readNextRecord_refused hpk (o := ⟨5, { f with sys := sys, toc := toc, prn := prn, data := d' },
      { s2 with pos := s2.pos, eof := true, fail := true }, 0⟩) ?_ (show (5 : Int) ≠ 0 by decide), rfl, hrest2, rfl, rfl, rfl, e2⟩
    rw [hrun]
    unfold blockRest
    rw [hlps]
    simp only
    rw [if_neg (by omega), hn, hb, orbitLines_add _ _ _ _ _ _ _ _ _ _ _ e1]
    unfold orbitLines
    simp only [hgl, if_true, Res.pure_eq, Res.bind_ok]

/-- A line too short to reach its number columns leaves the numbers of the line before it in the line array, and
they are taken for its own: any GLONASS record whose third line is emptied is read without complaint, with the
numbers of its second line twice. -/
theorem C75_short_line_taken_for_previous (dateOf : List Char → Res DateTime) (junk : List Char) (f : NavFrame)
    (s : Stream) (r : NavItem) (l0 l1 l2 l3 tail : List Char) (hr : r.WF dateOf) (hsys : r.sys = .glonass)
    (hlines : r.lines = [l0, l1, l2, l3]) (hg : s.good = true)
    (hrest : s.rest = linesText [l0, l1, [], l3] ++ tail) (hlen : f.data.length = 31) :
    ∃ f', readNextRecord dateOf junk f s 0 = .ok ⟨0, f', s.adv (linesText [l0, l1, [], l3]).length, 0⟩ ∧
      f'.sys = .glonass ∧ f'.prn = r.prn ∧
      ∀ k < 4, f'.data[specIndex 2 k]? = some (r.val 1 k) ∧ f'.data[specIndex 1 k]? = some (r.val 1 k) := by
  have hrec := hr.record
  rw [hsys, hlines] at hrec
  have ok0 := hrec.fits l0 (by simp)
  have ok1 := hrec.fits l1 (by simp)
  have ok3 := hrec.fits l3 (by simp)
  have hlet := hrec.letter l0 rfl
  have hp := hrec.prn l0 rfl
  have hn0 : ∀ k < 3, FieldAt l0 (23 + 19 * k) (r.num 0 k) := fun k hk => hrec.numbers 0 l0 rfl k hk
  have hn1 : ∀ k < 4, FieldAt l1 (4 + 19 * k) (r.num 1 k) := fun k hk => hrec.numbers 1 l1 rfl k hk
  have hn3 : ∀ k < 4, FieldAt l3 (4 + 19 * k) (r.num 3 k) := fun k hk => hrec.numbers 3 l3 rfl k hk
  have hr0 : s.rest = l0 ++ '\n' :: (l1 ++ '\n' :: ([] ++ '\n' :: (l3 ++ '\n' :: tail))) := by
    rw [hrest]; simp [linesText]
  have hc0 := char2double_line l0 (junk.drop (l0.length + 1)) 23 3 (r.num 0) hn0
  obtain ⟨buf, d, ⟨hd, hdk⟩, hrun⟩ := readBlock_first dateOf junk f s .glonass r.prn l0 _ r.toc _ (by decide) ok0 hlet hp
    (hn0 0 (by omega)).1 (hr.date l0 (by rw [hlines]; rfl)) hc0 (by simp) hg hr0 hlen
  have hdk2 : d[2]? = some (r.num 0 2).value := by rw [hdk 2 (by simp)]; simp
  simp only [if_true] at hrun
  obtain ⟨hg1, hr1⟩ := adv_next hg hr0
  have hf1 : s.fail = false := ((Stream.good_iff s).1 hg).2
  have hgl1 := Stream.getline_line (n := MAX_RECORD_CHARS) hg1 hr1 ok1.1 (by simpa [MAX_RECORD_CHARS] using ok1.2.2)
  obtain ⟨hg2, hr2⟩ := adv_next hg1 hr1
  have hgl2 := Stream.getline_line (n := MAX_RECORD_CHARS) hg2 hr2 (by simp) (by simp)
  obtain ⟨hg3, hr3⟩ := adv_next hg2 hr2
  have hgl3 := Stream.getline_line (n := MAX_RECORD_CHARS) hg3 hr3 ok3.1 (by simpa [MAX_RECORD_CHARS] using ok3.2.2)
  have hlong : 4 ≤ l1.length := (hn1 0 (by omega)).1
  have hc1 := char2double_line l1 (buf.drop (l1.length + 1)) 4 4 (r.num 1) hn1
  -- the array after the empty line
  have hfill : fillLine (l1.map d2e ++ NUL :: buf.drop (l1.length + 1)) [] =
      NUL :: (l1.map d2e ++ NUL :: buf.drop (l1.length + 1)).drop 1 := rfl
  have hc2 : char2double false 19 4 ((NUL :: (l1.map d2e ++ NUL :: buf.drop (l1.length + 1)).drop 1).drop 4)
      = .ok (true, (List.range 4).map (fun k => (r.num 1 k).value)) := by
    rw [List.drop_succ_cons, List.drop_drop]; exact hc1
  have hf2c : for2cpp (NUL :: (l1.map d2e ++ NUL :: buf.drop (l1.length + 1)).drop 1)
      = .ok (NUL :: (l1.map d2e ++ NUL :: buf.drop (l1.length + 1)).drop 1) := by
    rw [for2cpp]; simp
  generalize hB : NUL :: (l1.map d2e ++ NUL :: buf.drop (l1.length + 1)).drop 1 = B at *
  have hc3 := char2double_line l3 (B.drop (l3.length + 1)) 4 4 (r.num 3) hn3
  generalize hv1 : (List.range 4).map (fun k => (r.num 1 k).value) = v1 at *
  generalize hv3 : (List.range 4).map (fun k => (r.num 3 k).value) = v3 at *
  have hl1 : v1.length = 4 := by rw [← hv1]; simp
  have hl3 : v3.length = 4 := by rw [← hv3]; simp
  obtain ⟨d1, hd1⟩ : ∃ d1, storeAt d (3 + 0 * 4) v1 = .ok d1 := ⟨_, storeAt_ok (by omega)⟩
  obtain ⟨a1, -, a2, a3⟩ := storeAt_get hd1
  obtain ⟨d2, hd2⟩ : ∃ d2, storeAt d1 (3 + (0 + 1) * 4) v1 = .ok d2 := ⟨_, storeAt_ok (by omega)⟩
  obtain ⟨b1, -, b2, b3⟩ := storeAt_get hd2
  obtain ⟨d3, hd3⟩ : ∃ d3, storeAt d2 (3 + 2 * 4) v3 = .ok d3 := ⟨_, storeAt_ok (by omega)⟩
  obtain ⟨c1, -, c2, c3⟩ := storeAt_get hd3
  have hvk : ∀ k < 4, v1[k]? = some (r.num 1 k).value := by intro k hk; rw [← hv1]; simp [hk]
  have hblock : readBlock dateOf junk f s 0 = .ok ⟨0, { f with sys := .glonass, toc := r.toc, prn := r.prn, data := gloScale d3 },
      s.adv (linesText [l0, l1, [], l3]).length, 0⟩ := by
    rw [hrun]
    unfold blockRest
    simp only [linesPerSatsys, show ((4 : Int) - 1 < 0) = False by simp, if_false,
      show ((4 : Int) - 1 - 1).toNat = 2 from rfl, orbitLines, hgl1, hgl2, Stream.adv_fail, hf1, Bool.false_eq_true, fillLine_eq]
    rw [for2cpp_line _ _ ok1.2.1]
    simp only [Res.bind_ok, show recsOnLine .glonass 0 = 4 from rfl, show recsOnLine .glonass (0 + 1) = 4 from rfl, ne_eq, not_true_eq_false, decide_false, hc1, hd1, if_true, List.nil_append,
      List.length_nil, Nat.zero_add]
    simp only [Nat.zero_add] at hB hd2
    rw [hB]
    simp only [hf2c, Res.bind_ok, hc2, hd2, if_true, Stream.adv_adv]
    simp only [Stream.adv_adv, List.length_nil, Nat.zero_add] at hgl3
    rw [hgl3]
    simp only [Stream.adv_fail, hf1, Bool.false_eq_true, if_false]
    rw [for2cpp_line _ _ ok3.2.1]
    simp only [Res.bind_ok, hc3, hd3, Bool.not_true, Bool.false_eq_true, if_false, Res.pure_eq]
    congr 3
    simp [linesText]; omega
  unfold readNextRecord
  rw [nav_peek_line hg hr0 hlet]
  simp only
  unfold setFromRnx3
  rw [hblock]
  simp only [Res.bind_ok, ne_eq, not_true_eq_false, if_false, reduceCtorEq, or_true, true_or, if_true]
  obtain ⟨toe0, htoe⟩ := hr.toe
  unfold NavItem.toeIs at htoe
  rw [hsys] at htoe
  obtain ⟨sow, hsow, -⟩ := htoe
  have hg2' : (gloScale d3)[2]? = some (sow : Rat) := by
    rw [gloScale_get, c3 2 (Or.inl (by omega)), b3 2 (Or.inl (by omega)), a3 2 (Or.inl (by omega)), hdk2]
    have := hsow.1
    simp only [NavItem.val, specUnit] at this
    rw [if_neg (by simp)] at this
    simp [← this]
  have htoe2 : ∃ t, toe2date { f with sys := .glonass, toc := r.toc, prn := r.prn, data := gloScale d3 } = .ok t := by
    unfold toe2date gloToe dataAt
    simp only [hg2', Res.bind_ok, castLong_int hsow.2.1 hsow.2.2, Res.pure_eq]
    exact ⟨_, rfl⟩
  obtain ⟨t, ht⟩ := htoe2
  simp only [ht, Res.bind_ok, Res.pure_eq, Res.noexcept_ok]
  refine ⟨_, rfl, rfl, rfl, ?_⟩
  have hval : ∀ k < 4, (if 3 + k ∈ [3, 4, 5, 7, 8, 9, 11, 12, 13] then (r.num 1 k).value * 1000 else (r.num 1 k).value) = r.val 1 k ∧
      (if 7 + k ∈ [3, 4, 5, 7, 8, 9, 11, 12, 13] then (r.num 1 k).value * 1000 else (r.num 1 k).value) = r.val 1 k := by
    intro k hk
    rw [NavItem.val, specUnit, hsys]
    match k, hk with
    | 0, _ => simp [mul_comm]
    | 1, _ => simp [mul_comm]
    | 2, _ => simp [mul_comm]
    | 3, _ => simp
  intro k hk
  constructor
  · rw [show specIndex 2 k = 7 + k by simp [specIndex]]
    simp only
    rw [gloScale_get, c3 _ (Or.inl (by omega))]
    have := b2 k (by omega)
    rw [show 3 + (0 + 1) * 4 + k = 7 + k by omega] at this
    rw [this, hvk k hk, Option.map_some, (hval k hk).2]
  · rw [show specIndex 1 k = 3 + k by simp [specIndex]]
    simp only
    rw [gloScale_get, c3 _ (Or.inl (by omega)), b3 _ (Or.inl (by omega))]
    have := a2 k (by omega)
    rw [show 3 + 0 * 4 + k = 3 + k by omega] at this
    rw [this, hvk k hk, Option.map_some, (hval k hk).1]

end Ggnss
