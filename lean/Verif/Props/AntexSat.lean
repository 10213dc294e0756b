import Verif.Props.Antex
import Verif.Props.Str
import Verif.Lemmas.Term
/-!
# C36, C37, C50, C51: satellite antennas in ANTEX files
-/
namespace Ggnss

/-! ## Specification -/

/-- The record is for satellite `prn` of system `ss` and valid at `eph`. -/
def AtxBlock.For (prn : Int) (ss : SatSys) (eph : DateTime) (b : AtxBlock) : Prop :=
  ∃ i, b.sat = some i ∧ (i.prn : Int) = prn ∧ i.sys = ss ∧ b.ValidAt eph

/-- The last SVN given in these records, `init` if there is none. -/
def lastSvn (init : Int) (bs : List AtxBlock) : Int :=
  bs.foldl (fun v b => match b.sat.bind (·.svn) with | some n => (n : Int) | none => v) init

/-- The last COSPAR id given in these records (as bytes with terminator). -/
def lastCospar (init : List Char) (bs : List AtxBlock) : List Char :=
  bs.foldl (fun v b => match b.sat.bind (·.cospar) with | some c => c ++ [NUL] | none => v) init

/-! ## The line -/

theorem satAntCopy_long {g c : List Char} (hg : g.length = 21) (hc : 20 ≤ c.length) : satAntCopy g c = .ok (c.take 20 ++ [NUL]) := by
  unfold satAntCopy setAt
  simp only [Nat.min_eq_right hc]
  rw [memcpyAt_ok (by simp [hg])]
  simp only [Res.bind_ok, List.take_zero, List.nil_append, Nat.zero_add]
  have hl : (c.take 20).length = 20 := by simp [hc]
  rw [hl, memcpyAt_ok (by simp [hg, hc])]
  rw [List.take_append_of_le_length (by omega), List.take_of_length_le (by omega)]
  simp [hg, hc]

theorem blank_iff {l : List Char} {a n : Nat} (h : a + n ≤ l.length) :
    (∀ c ∈ (l.drop a).take n, c = ' ') ↔ BlankCols l a (a + n) := by
  unfold BlankCols
  constructor
  · intro hh i h1 h2
    have hi : i < l.length := by omega
    rw [List.getElem?_eq_getElem hi]
    congr 1
    apply hh
    rw [List.mem_iff_getElem?]
    refine ⟨i - a, ?_⟩
    rw [List.getElem?_take_of_lt (by omega), List.getElem?_drop, show a + (i - a) = i by omega, List.getElem?_eq_getElem hi]
  · intro hh c hc
    rw [List.mem_iff_getElem?] at hc
    obtain ⟨i, hi⟩ := hc
    rw [List.getElem?_take] at hi
    split at hi
    · rw [List.getElem?_drop] at hi
      have := hh (a + i) (by omega) (by omega)
      rw [hi] at this
      exact Option.some.inj this
    · cases hi

instance (l : List Char) (a b : Nat) : Decidable (BlankCols l a b) :=
  decidable_of_iff (∀ i < b, a ≤ i → l[i]? = some ' ') ⟨fun h i h1 h2 => h i h2 h1, fun h i h1 h2 => h i h2 h1⟩

theorem getAt_left {l t : List Char} {i : Nat} {c : Char} (h : l[i]? = some c) : getAt (l ++ t) i = .ok c := by
  obtain ⟨hi, rfl⟩ := List.getElem?_eq_some_iff.1 h
  exact getAt_append_left hi

theorem isEmpty_cols {l y : List Char} {a n : Nat} (hl : NUL ∉ l) (h : a + n ≤ l.length) :
    stringIsEmpty ((l ++ NUL :: y).drop a) (some n) = .ok (decide (BlankCols l a (a + n))) := by
  rw [drop_line (by omega), C07_is_empty _ _ (IsCStr.drop hl a)]
  congr 1
  apply decide_eq_decide.2
  rw [← blank_iff h]
  unfold considered
  simp

section line
variable {l x y : List Char}

theorem col_eq (h60 : 60 ≤ l.length) {i : Nat} (hi : i < 60) : (l.take 60 ++ x)[i]? = l[i]? := by
  rw [List.getElem?_append_left (by simp; omega), List.getElem?_take_of_lt hi]

theorem cols_eq (h60 : 60 ≤ l.length) {a n : Nat} (hi : a + n ≤ 60) : ((l.take 60 ++ x).drop a).take n = (l.drop a).take n := by
  rw [List.drop_append_of_le_length (by simp; omega), List.take_append_of_le_length (by simp; omega), List.drop_take, List.take_take]
  congr 1; omega

theorem blankCols_eq (h60 : 60 ≤ l.length) {a b : Nat} (hi : b ≤ 60) : BlankCols (l.take 60 ++ x) a b ↔ BlankCols l a b := by
  unfold BlankCols
  constructor
  · intro h i h1 h2; rw [← col_eq (x := x) h60 (by omega)]; exact h i h1 h2
  · intro h i h1 h2; rw [col_eq h60 (by omega)]; exact h i h1 h2

end line

theorem charToSatsys_none {c : Char} (h : ∀ sys, c ≠ satsysToChar sys) : ∀ sys, charToSatsys c ≠ .ok sys := by
  intro sys he
  unfold charToSatsys at he
  have hG := h .gps
  have hR := h .glonass
  have hE := h .galileo
  have hS := h .sbas
  have hJ := h .qzss
  have hC := h .beidou
  have hI := h .irnss
  have hM := h .mixed
  simp only [satsysToChar] at *
  rw [if_neg hG, if_neg hR, if_neg hE, if_neg hS, if_neg hJ, if_neg hC, if_neg hI, if_neg hM] at he
  cases he

/-- A line without satellite is rejected. -/
theorem resolve_none {l x y : List Char} (h60 : 60 ≤ l.length) (hl : NUL ∉ l) (hx : NUL ∉ x) (h : SatIdAt l none) {sat : AtxSat}
    (hs : sat.ant.length = 21) :
    ∃ st ant, atxResolve (l.take 60 ++ x ++ NUL :: y) sat = .ok (st, { sat with ant := ant }) ∧ st ≠ 0 ∧ ant.length = 21 := by
  have hL : IsCStr (l.take 60 ++ x) := IsCStr.append (IsCStr.take hl 60) hx
  have hlen : 60 ≤ (l.take 60 ++ x).length := by simp; omega
  have h20 : 20 < l.length := by omega
  have hg : getAt (l.take 60 ++ x ++ NUL :: y) 20 = .ok l[20] := by
    apply getAt_left
    rw [col_eq h60 (by omega), List.getElem?_eq_getElem h20]
  unfold atxResolve
  rw [cstrOf_append hL, Res.bind_ok, if_neg (by omega), satAntCopy_long hs (by omega), Res.bind_ok]
  simp only [hg, Res.bind_ok]
  have hal : ((l.take 60 ++ x).take 20 ++ [NUL]).length = 21 := by
    simp only [List.length_append, List.length_take, List.length_cons, List.length_nil]; omega
  by_cases hb : l[20] = ' '
  · rw [if_neg (by simp [hb])]
    exact ⟨5, _, rfl, by decide, hal⟩
  · rw [if_pos hb]
    unfold atxSysPrn
    rw [hg, Res.bind_ok]
    have hn : ∀ sys, charToSatsys l[20] ≠ .ok sys :=
      charToSatsys_none (fun sys he => h sys (by rw [List.getElem?_eq_getElem h20, he]))
    cases hcs : charToSatsys l[20] with
    | ok sys => exact absurd hcs (hn sys)
    | _ => exact ⟨5, _, rfl, by decide, hal⟩

/-- A line with a satellite is decoded. -/
theorem resolve_some {l x y : List Char} (h60 : 60 ≤ l.length) (hl : NUL ∉ l) (hx : NUL ∉ x) {i : AtxSatId} (h : SatIdAt l (some i))
    {sat : AtxSat} (hs : sat.ant.length = 21) :
    atxResolve (l.take 60 ++ x ++ NUL :: y) sat = .ok (0, ⟨i.sys, i.prn,
      (match i.svn with | some n => (n : Int) | none => sat.svn), l.take 20 ++ [NUL],
      (match i.cospar with | some c => c ++ [NUL] | none => sat.cospar)⟩) := by
  obtain ⟨h1, h2, h3, h4⟩ := h
  have hL : IsCStr (l.take 60 ++ x) := IsCStr.append (IsCStr.take hl 60) hx
  have hlen : 60 ≤ (l.take 60 ++ x).length := by simp; omega
  have hgen : ∀ j c, l[j]? = some c → j < 60 → getAt (l.take 60 ++ x ++ NUL :: y) j = .ok c := by
    intro j c hc hj
    apply getAt_left
    rw [col_eq h60 hj]; exact hc
  have hcols : ∀ a n, a + n ≤ 60 → ((l.take 60 ++ x ++ NUL :: y).drop a).take n = (l.drop a).take n := by
    intro a n ha
    rw [drop_line (by omega), List.take_append_of_le_length (by rw [List.length_drop]; omega), cols_eq h60 ha]
  have hg := hgen 20 _ h1 (by decide)
  have hns : satsysToChar i.sys ≠ ' ' := by cases i.sys <;> decide
  unfold atxResolve
  rw [cstrOf_append hL, Res.bind_ok, if_neg (by omega), satAntCopy_long hs (by omega), Res.bind_ok]
  simp only [hg, Res.bind_ok]
  rw [if_pos hns]
  unfold atxSysPrn
  rw [hg, Res.bind_ok, charToSatsys_letter]
  simp only [hcols 21 5 (by decide), stoi_nat h2, Res.pure_eq, Res.bind_ok]
  have hant : (l.take 60 ++ x).take 20 = l.take 20 := by
    rw [List.take_append_of_le_length (by simp; omega), List.take_take]; rfl
  rw [hant]
  have hcos : ∀ sv : Int, atxCospar (l.take 60 ++ x ++ NUL :: y) ⟨i.sys, i.prn, sv, l.take 20 ++ [NUL], sat.cospar⟩ =
      .ok ⟨i.sys, i.prn, sv, l.take 20 ++ [NUL], (match i.cospar with | some c => c ++ [NUL] | none => sat.cospar)⟩ := by
    intro sv
    unfold atxCospar
    rw [isEmpty_cols (a := 50) (n := 10) hL (by omega), Res.bind_ok]
    cases hc : i.cospar with
    | none =>
      rw [hc] at h4
      rw [if_pos (decide_eq_true ((blankCols_eq h60 (by decide)).2 h4))]
      rfl
    | some c =>
      rw [hc] at h4
      have : ¬ BlankCols (l.take 60 ++ x) 50 (50 + 10) := fun hh => h4.1 ((blankCols_eq h60 (by decide)).1 hh)
      rw [if_neg (by simp [this]), hcols 50 8 (by decide), ← h4.2]
      rfl
  unfold atxSvn
  rw [isEmpty_cols (a := 40) (n := 10) hL (by omega), Res.bind_ok]
  cases hv : i.svn with
  | none =>
    rw [hv] at h3
    rw [if_pos (decide_eq_true ((blankCols_eq h60 (by decide)).2 h3))]
    simp only [Res.pure_eq, Res.bind_ok, hcos]
  | some n =>
    rw [hv] at h3
    have hnb : ¬ BlankCols (l.take 60 ++ x) 40 (40 + 10) := by
      intro hh
      have := ((blankCols_eq h60 (by decide)).1 hh) 40 (by decide) (by decide)
      rw [h3.1, h1] at this
      exact hns (Option.some.inj this)
    rw [if_neg (by simp [hnb]), hgen 40 _ (h3.1.trans h1) (by decide), hg, Res.bind_ok, Res.bind_ok, if_neg (by simp)]
    simp only [hcols 41 5 (by decide), stoi_nat h3.2, Res.pure_eq, Res.bind_ok, hcos]

/-! ## Validity -/

theorem ctiLine_opt {strptime : List Char → Res DateTime} {o : AtxOpt} (h : o.WF strptime) (buf : List Char) (fr un : Option DateTime) :
    ctiLine strptime (fillLine buf o.line) fr un = .ok (.inl (o.from?.or fr, o.until?.or un)) := by
  have hi := AtxOpt.inner h
  have h60 := hi.1.1.2
  have hn := hi.2.2.2.1
  cases o with
  | validFrom d l =>
    obtain ⟨h1, h2⟩ := h
    show ctiLine strptime (fillLine buf l) fr un = _
    change 60 ≤ l.length at h60
    change NUL ∉ l at hn
    unfold ctiLine
    rw [atxLabel_line hn h60 (by decide), Res.bind_ok, if_pos (decide_eq_true h1.2)]
    have := h2 (buf.drop (l.length + 1))
    rw [List.drop_zero] at this
    unfold fillLine
    rw [this]; rfl
  | validUntil d l =>
    obtain ⟨h1, h2⟩ := h
    have hx : ¬ HasLabel l c!"VALID FROM" := h1.2.excl (by decide) (by decide)
    show ctiLine strptime (fillLine buf l) fr un = _
    change 60 ≤ l.length at h60
    change NUL ∉ l at hn
    unfold ctiLine
    rw [atxLabel_line hn h60 (by decide), Res.bind_ok, if_neg (by simp [hx]), atxLabel_line hn h60 (by decide), Res.bind_ok,
      if_pos (decide_eq_true h1.2)]
    have := h2 (buf.drop (l.length + 1))
    rw [List.drop_zero] at this
    unfold fillLine
    rw [this]; rfl
  | other l =>
    obtain ⟨h1, h2, h3, h4, h5, h6⟩ := h
    show ctiLine strptime (fillLine buf l) fr un = _
    change NUL ∉ l at hn
    unfold ctiLine
    rw [atxLabel_line hn h2 (by decide), Res.bind_ok, if_neg (by simp [h3]), atxLabel_line hn h2 (by decide), Res.bind_ok,
      if_neg (by simp [h4])]
    rfl

theorem ctiLine_start {strptime : List Char → Res DateTime} {l : List Char} (h : Labelled l c!"START OF FREQUENCY") (buf : List Char)
    (fr un : Option DateTime) : ctiLine strptime (fillLine buf l) fr un = .ok (.inl (fr, un)) := by
  have h60 := h.2.long (by decide)
  have h1 : ¬ HasLabel l c!"VALID FROM" := h.2.excl (by decide) (by decide)
  have h2 : ¬ HasLabel l c!"VALID UNTIL" := h.2.excl (by decide) (by decide)
  unfold ctiLine
  rw [atxLabel_line h.1.2.1 (Nat.le_of_lt h60) (by decide), atxLabel_line h.1.2.1 (Nat.le_of_lt h60) (by decide)]
  simp only [decide_eq_false h1, decide_eq_false h2, Res.bind_ok, Bool.false_eq_true, if_false]
  rfl

theorem ctiLoop_opts {strptime : List Char → Res DateTime} {eph : DateTime} {st : List Char} (hst : Labelled st c!"START OF FREQUENCY")
    {t : List Char} :
    ∀ (os : List AtxOpt), (∀ o ∈ os, o.WF strptime) →
    ∀ (fuel : Nat) (buf : List Char) (fr un : Option DateTime) (s : Stream), s.good = true →
      s.rest = linesText (os.map (·.line) ++ [st]) ++ t → os.length < fuel → (fr.isSome && un.isSome) = false →
      (fr.toList ++ os.filterMap (·.from?)).length ≤ 1 → (un.toList ++ os.filterMap (·.until?)).length ≤ 1 →
    ∃ pre ls, os.map (·.line) ++ [st] = pre ++ ls ∧
      ctiLoop strptime eph fuel buf fr un s =
        .ok (ctiVerdict eph (fr.or (os.findSome? (·.from?))) (un.or (os.findSome? (·.until?))), s.past pre) := by
  intro os
  induction os with
  | nil =>
    intro _ fuel buf fr un s hg hr hf hne _ _
    obtain ⟨fuel, rfl⟩ : ∃ k, fuel = k + 1 := ⟨fuel - 1, by simp at hf; omega⟩
    refine ⟨[st], [], by simp, ?_⟩
    have hgl := getline_past (n := ATX_GRID_CHARS) hg (l := st) (ls := []) (t := t) (by simpa using hr) hst.1.1
      (by have := hst.1.2.2; unfold ATX_GRID_CHARS; omega)
    unfold ctiLoop
    simp only [hgl, ctiLine_start hst, Res.bind_ok, hne, Bool.false_eq_true, if_false,
      atxLabel_line hst.1.2.1 (Nat.le_of_lt (hst.2.long (by decide))) (by decide : IsCStr c!"START OF FREQUENCY"),
      decide_eq_true hst.2, if_true, Res.pure_eq, List.findSome?_nil, Option.or_none]
  | cons o os ih =>
    intro hw fuel buf fr un s hg hr hf hne h1 h2
    obtain ⟨fuel, rfl⟩ : ∃ k, fuel = k + 1 := ⟨fuel - 1, by simp at hf; omega⟩
    have ho := hw o (by simp)
    have hi := AtxOpt.inner ho
    have hgl := getline_past (n := ATX_GRID_CHARS) hg (l := o.line) (ls := os.map (·.line) ++ [st]) (t := t) (by simpa using hr) hi.1.1.1.1
      hi.1.1.1.2.2
    have hrc : (s.past [o.line]).rest = linesText (os.map (·.line) ++ [st]) ++ t := rest_cons (by simpa using hr)
    have hfrom : (o.from?.or fr).or (os.findSome? (·.from?)) = fr.or ((o :: os).findSome? (·.from?)) := by
      rw [List.findSome?_cons]
      cases hof : o.from? with
      | none => simp
      | some d =>
        cases fr with
        | none => rfl
        | some e => simp [hof] at h1
    have huntil : (o.until?.or un).or (os.findSome? (·.until?)) = un.or ((o :: os).findSome? (·.until?)) := by
      rw [List.findSome?_cons]
      cases hof : o.until? with
      | none => simp
      | some d =>
        cases un with
        | none => rfl
        | some e => simp [hof] at h2
    have h1' : ((o.from?.or fr).toList ++ os.filterMap (·.from?)).length ≤ 1 := by
      cases hof : o.from? with
      | none => simpa [hof] using h1
      | some d =>
        cases fr with
        | none => simpa [hof] using h1
        | some e => simp [hof] at h1
    have h2' : ((o.until?.or un).toList ++ os.filterMap (·.until?)).length ≤ 1 := by
      cases hof : o.until? with
      | none => simpa [hof] using h2
      | some d =>
        cases un with
        | none => simpa [hof] using h2
        | some e => simp [hof] at h2
    unfold ctiLoop
    simp only [hgl, ctiLine_opt ho, Res.bind_ok]
    cases hb : ((o.from?.or fr).isSome && (o.until?.or un).isSome) with
    | true =>
      refine ⟨[o.line], os.map (·.line) ++ [st], by simp, ?_⟩
      simp only [if_true, Res.pure_eq]
      rw [← hfrom, ← huntil]
      simp only [Bool.and_eq_true] at hb
      obtain ⟨d, hd⟩ := Option.isSome_iff_exists.1 hb.1
      obtain ⟨e, he⟩ := Option.isSome_iff_exists.1 hb.2
      rw [hd, he]; rfl
    | false =>
      simp only [Bool.false_eq_true, if_false, atxLabel_line hi.2.2.2.1 hi.1.1.2 (by decide : IsCStr c!"START OF FREQUENCY"),
        decide_eq_false hi.2.1, Res.bind_ok]
      obtain ⟨pre, ls, e1, e2⟩ := ih (fun q hq => hw q (by simp [hq])) fuel (fillLine buf o.line) _ _ (s.past [o.line]) hg hrc
        (by simp at hf; omega) hb h1' h2'
      refine ⟨o.line :: pre, ls, by simp [e1], ?_⟩
      rw [e2, Stream.past_past, hfrom, huntil]; rfl

theorem ctiVerdict_iff (b : AtxBlock) (eph : DateTime) : ctiVerdict eph b.validFrom b.validUntil = 0 ↔ b.ValidAt eph := by
  unfold AtxBlock.ValidAt
  cases h1 : b.validFrom with
  | none => simp [ctiVerdict]
  | some d =>
    cases h2 : b.validUntil with
    | none => simp [ctiVerdict]
    | some e =>
      simp only [ctiVerdict, Option.some.injEq, exists_eq_left', forall_eq']
      by_cases h : d.total ≤ eph.total ∧ eph.total ≤ e.total
      · simp [h]
      · simp only [h, if_false, iff_false]; decide

/-- **C37** (the test itself).  On a well-formed record the validity test ends, and accepts exactly
when `VALID FROM ≤ t`, and `t ≤ VALID UNTIL` unless that is missing. -/
theorem C37_interval_partial {strptime : List Char → Res DateTime} {J : AtxJunk} {b : AtxBlock} (h : b.WF strptime) (eph : DateTime)
    {fuel : Nat} {s : Stream} {t : List Char} (hg : s.good = true) (hr : s.rest = linesText b.body ++ t)
    (hfuel : s.rest.length < fuel) :
    ∃ st pre ls, checkTimeInterval strptime J fuel eph s = .ok (st, s.past pre) ∧ (st = 0 ↔ b.ValidAt eph) ∧ b.inside = pre ++ ls := by
  obtain ⟨f, fs, hfs⟩ : ∃ f fs, b.freqs = f :: fs := by
    cases hb : b.freqs with
    | nil => exact absurd hb h.some_
    | cons f fs => exact ⟨f, fs, rfl⟩
  have hff : f.WF := h.freqs f (by rw [hfs]; simp)
  have hoth : ∀ {l p : List Char}, Labelled l p → p ≠ [] → ¬ p <+: c!"VALID FROM" → ¬ c!"VALID FROM" <+: p →
      ¬ p <+: c!"VALID UNTIL" → ¬ c!"VALID UNTIL" <+: p → ¬ p <+: c!"START OF FREQUENCY" → ¬ c!"START OF FREQUENCY" <+: p →
      ¬ p <+: c!"END OF ANTENNA" → ¬ c!"END OF ANTENNA" <+: p → (AtxOpt.other l).WF strptime := by
    intro l p hl hp a1 a2 a3 a4 a5 a6 a7 a8
    exact ⟨hl.1, Nat.le_of_lt (hl.2.long hp), hl.2.excl a1 a2, hl.2.excl a3 a4, hl.2.excl a5 a6, hl.2.excl a7 a8⟩
  have hw : ∀ o ∈ AtxOpt.other b.dazi :: AtxOpt.other b.zen :: AtxOpt.other b.num :: b.opts, o.WF strptime := by
    intro o ho
    simp only [List.mem_cons] at ho
    rcases ho with rfl | rfl | rfl | ho
    · exact hoth h.dazi (by decide) (by decide) (by decide) (by decide) (by decide) (by decide) (by decide) (by decide) (by decide)
    · exact hoth h.zen (by decide) (by decide) (by decide) (by decide) (by decide) (by decide) (by decide) (by decide) (by decide)
    · exact hoth h.num (by decide) (by decide) (by decide) (by decide) (by decide) (by decide) (by decide) (by decide) (by decide)
    · exact h.opts o ho
  let os := AtxOpt.other b.dazi :: AtxOpt.other b.zen :: AtxOpt.other b.num :: b.opts
  obtain ⟨rest, hbody⟩ : ∃ rest, b.inside = b.meth :: (os.map (·.line) ++ [f.start] ++ rest) := by
    refine ⟨f.neu :: (f.pattern ++ f.stop :: f.rmsLines) ++ (fs.map (·.lines)).flatten, ?_⟩
    unfold AtxBlock.inside
    rw [hfs, List.map_cons, List.flatten_cons, AtxFreq.lines_cons]
    simp [os, AtxOpt.line]
  rw [AtxBlock.body_eq, hbody] at hr
  have r1 : (s.past [b.meth]).rest = linesText (os.map (·.line) ++ [f.start]) ++ (linesText (rest ++ [b.last]) ++ t) := by
    rw [rest_cons (by simpa using hr)]; simp [linesText_append, linesText_cons, show linesText [] = [] from rfl]
  have hlen : os.length < fuel := by
    have h1 := length_linesText (os.map (·.line))
    rw [List.length_map] at h1
    have h2 : (linesText (os.map (·.line))).length ≤ s.rest.length := by
      rw [hr]; simp [linesText_append, linesText_cons]; omega
    omega
  obtain ⟨pre, ls, e1, e2⟩ := ctiLoop_opts (eph := eph) hff.start os hw fuel (fillLine (J.grid s.pos) b.meth) none none (s.past [b.meth]) hg r1 hlen
    rfl (by simpa [os, AtxOpt.from?] using h.oneFrom) (by simpa [os, AtxOpt.until?] using h.oneUntil)
  refine ⟨_, b.meth :: pre, ls ++ rest, ?_, ctiVerdict_iff b eph, ?_⟩
  · unfold checkTimeInterval
    have hm := expect_line (n := ATX_GRID_CHARS) (buf := J.grid s.pos) (pat := c!"METH / BY / # / DATE") hg
      (l := b.meth) (ls := os.map (·.line) ++ [f.start] ++ rest ++ [b.last]) (t := t) (by simpa using hr)
      (GridLine.of_labelled h.meth (by decide)).1 (Nat.le_of_lt (h.meth.2.long (by decide))) (by decide)
    rw [hm, decide_eq_true h.meth.2, Res.bind_ok]
    simp only [Bool.true_eq_false, if_false]
    rw [e2]
    simp only [Res.noexcept_ok, Stream.past_past]
    rfl
  · rw [hbody, e1]; simp

/-! ## The search -/

/-- Where a search for a satellite ends up. -/
def SatResult (content : List Char) (bs : List AtxBlock) (prn : Int) (ss : SatSys) (eph : DateTime) (svn : Int) (cospar : List Char)
    (m : AtxSatOut) : Prop :=
  m.strm.content = content ∧ m.strm.fail = false ∧
  ((∃ i b q more, FirstIdx bs (AtxBlock.For prn ss eph) i b ∧ m.status = 0 ∧ m.pos = some q ∧ content.drop q = linesText b.body ++ more ∧
      m.sat = ⟨ss, prn, lastSvn svn (bs.take (i + 1)), b.model ++ [NUL], lastCospar cospar (bs.take (i + 1))⟩) ∨
   ((∀ b ∈ bs, ¬ b.For prn ss eph) ∧ m.status = 10))

/-- One record is tested. -/
theorem satTest_block {strptime : List Char → Res DateTime} {J : AtxJunk} {b : AtxBlock} (h : b.WF strptime) (prn : Int) (ss : SatSys)
    (eph : DateTime) {fuel : Nat} {s : Stream} {t c : List Char} (hg : s.good = true) (hr : s.rest = linesText b.body ++ t)
    (hfuel : s.rest.length < fuel) (hc : NUL ∈ c) {sat : AtxSat} (hs : sat.ant.length = 21) :
    ∃ r sat' pre ls, atxSatTest strptime J fuel prn ss eph (b.type.take 60 ++ c) sat s = .ok (r, sat', s.past pre) ∧
      (r = true ↔ b.For prn ss eph) ∧ b.inside = pre ++ ls ∧ sat'.ant.length = 21 ∧ sat'.svn = lastSvn sat.svn [b] ∧
      sat'.cospar = lastCospar sat.cospar [b] ∧ (r = true → sat'.sys = ss ∧ sat'.prn = prn ∧ sat'.ant = b.model ++ [NUL]) := by
  have h60 := h.type.2.long (by decide)
  obtain ⟨x, y, rfl, hx⟩ := nul_split hc
  unfold atxSatTest
  rw [← List.append_assoc]
  cases hsat : b.sat with
  | none =>
    have hid := h.sat
    rw [hsat] at hid
    obtain ⟨st, ant, e1, e2, e3⟩ := resolve_none (y := y) (Nat.le_of_lt h60) h.type.1.2.1 hx hid hs
    rw [e1, Res.bind_ok, if_neg (by simp [e2])]
    refine ⟨false, _, [], b.inside, by rw [Stream.past_nil]; rfl, ?_, rfl, e3, ?_, ?_, by simp⟩
    · constructor
      · intro h; cases h
      · rintro ⟨i, hi, _⟩; rw [hsat] at hi; cases hi
    · simp [lastSvn, hsat]
    · simp [lastCospar, hsat]
  | some i =>
    have hid := h.sat
    rw [hsat] at hid
    rw [resolve_some (y := y) (Nat.le_of_lt h60) h.type.1.2.1 hx hid hs, Res.bind_ok]
    have hal : (b.type.take 20 ++ [NUL]).length = 21 := by
      simp only [List.length_append, List.length_take, List.length_cons, List.length_nil]; omega
    have hsv : (match i.svn with | some n => (n : Int) | none => sat.svn) = lastSvn sat.svn [b] := by
      simp only [lastSvn, List.foldl_cons, List.foldl_nil, hsat, Option.bind_some]
    have hco : (match i.cospar with | some c => c ++ [NUL] | none => sat.cospar) = lastCospar sat.cospar [b] := by
      simp only [lastCospar, List.foldl_cons, List.foldl_nil, hsat, Option.bind_some]
    by_cases hm : (i.prn : Int) = prn ∧ i.sys = ss
    · rw [if_pos ⟨rfl, hm⟩]
      obtain ⟨st, pre, ls, e1, e2, e3⟩ := C37_interval_partial (J := J) h eph hg hr hfuel
      rw [e1, Res.bind_ok]
      refine ⟨decide (st = 0), _, pre, ls, rfl, ?_, e3, hal, hsv, hco, fun _ => ⟨hm.2, hm.1, rfl⟩⟩
      rw [decide_eq_true_iff, e2]
      constructor
      · intro hv; exact ⟨i, hsat, hm.1, hm.2, hv⟩
      · rintro ⟨i', hi', _, _, hv⟩; exact hv
    · rw [if_neg (by intro hh; exact hm hh.2)]
      refine ⟨false, _, [], b.inside, by rw [Stream.past_nil]; rfl, ?_, rfl, hal, hsv, hco, by simp⟩
      constructor
      · intro h; cases h
      · rintro ⟨i', hi', h1, h2, _⟩
        rw [hsat] at hi'; cases hi'
        exact absurd ⟨h1, h2⟩ hm

theorem satLoop_blocks {strptime : List Char → Res DateTime} {J : AtxJunk} (hJ : J.WF) (prn : Int) (ss : SatSys) (eph : DateTime) :
    ∀ (bs : List AtxBlock), (∀ b ∈ bs, b.WF strptime) →
    ∀ (fuel : Nat) (cur c : List Char) (sat : AtxSat) (pos : Option Nat) (stat2 : Option Int) (s : Stream), s.good = true →
      s.rest = atxBlocksText bs → s.rest.length < fuel → (stat2 = some 0 ∨ (stat2 = none ∧ bs ≠ [])) → 60 ≤ c.length →
      NUL ∈ c.drop 60 → sat.ant.length = 21 →
    ∃ m, atxSatLoop strptime J prn ss eph fuel cur c sat pos stat2 s = .ok m ∧ SatResult s.content bs prn ss eph sat.svn sat.cospar m := by
  intro bs
  induction bs with
  | nil =>
    intro _ fuel cur c sat pos stat2 s hg hr hf h2 _ _ _
    obtain ⟨fuel, rfl⟩ : ∃ k, fuel = k + 1 := ⟨fuel - 1, by omega⟩
    have h2 : stat2 = some 0 := by rcases h2 with h | h; exact h; exact absurd rfl h.2
    subst h2
    obtain ⟨s', he, hc, hg'⟩ := readType_eof (J := J) (cur := cur) (c := c) hg (by simpa [atxBlocksText, linesText] using hr)
    unfold atxSatLoop
    rw [he, Res.bind_ok]
    simp only [ne_eq, Int.reduceNeg, reduceCtorEq, not_false_eq_true, if_true, atxSatEnd]
    exact ⟨⟨10, pos, sat, s'⟩, rfl, hc, ((Stream.good_iff s').1 hg').2, Or.inr ⟨by simp, rfl⟩⟩
  | cons b bs ih =>
    intro hw fuel cur c sat pos stat2 s hg hr hf _ hc hnul hsl
    obtain ⟨fuel, rfl⟩ : ∃ k, fuel = k + 1 := ⟨fuel - 1, by omega⟩
    have hwb := hw b (by simp)
    rw [atxBlocksText_cons] at hr
    obtain ⟨ant, he, _⟩ := readType_block hJ hwb.named (cur := cur) (c := c) hc hg hr
    have hr2 : (s.past [b.start, b.type]).rest = linesText b.body ++ atxBlocksText bs := by
      apply Stream.past_rest
      rw [hr]
      show linesText ([b.start, b.type] ++ b.body) ++ _ = _
      rw [linesText_append]; simp
    have hl2 : (s.past [b.start, b.type]).rest.length + 2 ≤ s.rest.length := by
      rw [hr2, hr]
      show _ ≤ (linesText ([b.start, b.type] ++ b.body) ++ _).length
      rw [linesText_append]
      have := length_linesText [b.start, b.type]
      simp at this ⊢; omega
    have hg2 : (s.past [b.start, b.type]).good = true := hg
    obtain ⟨r, sat', pre, ls, e1, e2, e3, e4, e5, e6, e7⟩ := satTest_block (J := J) (fuel := fuel) hwb prn ss eph hg2 hr2 (by omega) hnul
      (sat := { sat with sys := .mixed }) hsl
    have h60 := hwb.type.2.long (by decide)
    unfold atxSatLoop
    rw [he, Res.bind_ok]
    simp only [ne_eq, not_true_eq_false, if_false, tellg_good hg2, e1, Res.bind_ok]
    by_cases hx : b.For prn ss eph
    · rw [if_pos (e2.2 hx)]
      obtain ⟨f1, f2, f3⟩ := e7 (e2.2 hx)
      refine ⟨_, rfl, rfl, ((Stream.good_iff _).1 hg2).2, Or.inl ⟨0, b, _, _, FirstIdx.cons_zero hx, rfl, rfl, hr2, ?_⟩⟩
      rw [show (b :: bs).take (0 + 1) = [b] by rfl, ← e5, ← e6, ← f3, ← f1, ← f2]
    · rw [if_neg (fun e => hx (e2.1 e))]
      have hr3 : ((s.past [b.start, b.type]).past pre).rest = linesText (ls ++ [b.last]) ++ atxBlocksText bs := by
        apply Stream.past_rest
        rw [hr2, AtxBlock.body_eq, e3, List.append_assoc, linesText_append]; simp
      have hskip := skip_block hwb pre ls e3 (J := J) (s := (s.past [b.start, b.type]).past pre) hg hr3
      simp only [hskip, Res.bind_ok, not_true_eq_false, if_false]
      have hr4 := Stream.past_rest hr3
      obtain ⟨m, h1, h2, h3, h4⟩ := ih (fun q hq => hw q (by simp [hq])) fuel ant (b.type.take 60 ++ c.drop 60) sat'
        (some (s.past [b.start, b.type]).pos) (some 0) (((s.past [b.start, b.type]).past pre).past (ls ++ [b.last])) hg hr4
        (by
          have h1 := length_linesText b.lines
          have h2 : 2 ≤ b.lines.length := by simp [AtxBlock.lines]
          rw [hr4]; rw [hr] at hf; simp at hf ⊢; omega) (Or.inl rfl) (by simp; omega)
        (by
          have : List.drop 60 (b.type.take 60 ++ c.drop 60) = c.drop 60 := by
            rw [List.drop_append, List.drop_of_length_le (by simp)]
            simp [Nat.min_eq_left (Nat.le_of_lt h60)]
          rw [this]; exact hnul) e4
      refine ⟨m, h1, h2, h3, ?_⟩
      rcases h4 with ⟨i, b', q, more, x1, x2, x3, x4, x5⟩ | ⟨x1, x2⟩
      · refine Or.inl ⟨i + 1, b', q, more, x1.cons_succ hx, x2, x3, x4, ?_⟩
        rw [x5, e5, e6]
        rfl
      · exact Or.inr ⟨by simpa [hx] using x1, x2⟩

/-! ## The queries -/

theorem findSat_ok {strptime : List Char → Res DateTime} {J : AtxJunk} (hJ : J.WF) {bs : List AtxBlock} (hne : bs ≠ [])
    (hw : ∀ b ∈ bs, b.WF strptime) {f : AtxFile} (hf : AtxOn bs f) (hnul : ∀ p, NUL ∈ (J.head p).drop 60) (cospar : List Char)
    (prn : Int) (ss : SatSys) (eph : DateTime) {fuel : Nat} (hfuel : f.strm.content.length < fuel) :
    ∃ m, atxFindSat strptime J cospar fuel f prn ss eph = .ok m ∧ SatResult f.strm.content bs prn ss eph (-1) cospar m := by
  obtain ⟨p, hp1, hp2⟩ := hf.head
  obtain ⟨hg, hc, hpos, hr⟩ := seekg_good hf.fail p
  obtain ⟨m, e1, e2⟩ := satLoop_blocks hJ prn ss eph bs hw fuel (List.replicate 20 ' ' ++ NUL :: (J.ant p).drop 21) (J.head p)
    ⟨.mixed, -1, -1, List.replicate 21 NUL, cospar⟩ (some 0) none (f.strm.seekg p) hg (by rw [hr, hp2]) (by rw [hr]; simp; omega)
    (Or.inr ⟨rfl, hne⟩) (by rw [hJ.head]; decide) (hnul p) (by simp)
  rw [hc] at e2
  refine ⟨m, ?_, e2⟩
  unfold atxFindSat
  simp only [hp1, atxSeek, hpos, antInit_eq (J.ant p) (hJ.ant p), Res.bind_ok]
  rw [e1]; rfl

/-- **C37** (`get_satellite_info`).  On a file with at least one antenna: status 0 and the satellite
of the first record for that satellite that is valid at the epoch, else status 10.  Hypothesis
`hnul`: the part of a local array that the code reads without having written it contains a
terminator (otherwise: `C37_uninitialised_read`). -/
theorem C37_satellite_partial {strptime : List Char → Res DateTime} {J : AtxJunk} (hJ : J.WF) {bs : List AtxBlock} (hne : bs ≠ [])
    (hw : ∀ b ∈ bs, b.WF strptime) {f : AtxFile} (hf : AtxOn bs f) (hnul : ∀ p, NUL ∈ (J.head p).drop 60) (cospar : List Char)
    (prn : Int) (ss : SatSys) (eph : DateTime) {fuel : Nat} (hfuel : f.strm.content.length < fuel) :
    ∃ st sv f', atxSatInfo strptime J cospar fuel f prn ss eph = .ok (st, sv, f') ∧ AtxOn bs f' ∧ f'.strm.content = f.strm.content ∧
      ((∃ i b s, FirstIdx bs (AtxBlock.For prn ss eph) i b ∧ st = 0 ∧ sv = some s ∧ s.sys = ss ∧ s.prn = prn ∧
          satAntText s.ant = .ok b.model) ∨
       ((∀ b ∈ bs, ¬ b.For prn ss eph) ∧ st = 10 ∧ sv = none)) := by
  obtain ⟨m, e1, e2, e3, e4⟩ := findSat_ok hJ hne hw hf hnul cospar prn ss eph hfuel
  obtain ⟨p, hp1, hp2⟩ := hf.head
  unfold atxSatInfo
  rw [e1, Res.bind_ok]
  refine ⟨_, _, _, rfl, ⟨⟨p, hp1, by rw [e2]; exact hp2⟩, e3⟩, e2, ?_⟩
  rcases e4 with ⟨i, b, q, more, x1, x2, x3, x4, x5⟩ | ⟨x1, x2⟩
  · left
    refine ⟨i, b, m.sat, x1, x2, by rw [if_pos x2], by rw [x5], by rw [x5], ?_⟩
    rw [x5]
    exact cstrOf_append (IsCStr.take (hw b (List.mem_of_getElem? x1.1)).type.1.2.1 20) []
  · right
    exact ⟨x1, x2, by rw [if_neg (by rw [x2]; decide)]⟩

/-- **C37** (`get_antenna_pco` for a satellite): the offsets are those of the first record for the
satellite valid at the epoch, else status 10 and no offsets. -/
theorem C37_satellite_pco_partial {strptime : List Char → Res DateTime} {J : AtxJunk} (hJ : J.WF) {bs : List AtxBlock} (hne : bs ≠ [])
    (hw : ∀ b ∈ bs, b.WF strptime) {f : AtxFile} (hf : AtxOn bs f) (hnul : ∀ p, NUL ∈ (J.head p).drop 60) (cospar : List Char)
    (prn : Int) (ss : SatSys) (eph : DateTime) {fuel : Nat} (hfuel : f.strm.content.length < fuel) :
    ∃ st l sv f', atxPcoSatellite strptime J cospar fuel f prn ss eph = .ok (st, l, sv, f') ∧ AtxOn bs f' ∧
      f'.strm.content = f.strm.content ∧
      ((∃ i b, FirstIdx bs (AtxBlock.For prn ss eph) i b ∧ st = 0 ∧ l.map Pco.flat = b.offsets) ∨
       ((∀ b ∈ bs, ¬ b.For prn ss eph) ∧ st = 10 ∧ l = [])) := by
  obtain ⟨m, e1, e2, e3, e4⟩ := findSat_ok hJ hne hw hf hnul cospar prn ss eph hfuel
  obtain ⟨p, hp1, hp2⟩ := hf.head
  unfold atxPcoSatellite
  rw [e1, Res.bind_ok]
  rcases e4 with ⟨i, b, q, more, x1, x2, x3, x4, x5⟩ | ⟨x1, x2⟩
  · obtain ⟨g1, g2, g3, g4⟩ := seekg_good e3 q
    obtain ⟨l, s', i1, i2, i3, i4⟩ := collectPco_block (J := J) (fuel := fuel) (hw b (List.mem_of_getElem? x1.1)) g1 (by rw [g4, e2, x4])
      (by rw [g4, e2]; simp; omega)
    have hcc : s'.content = f.strm.content := by rw [i4, g2, e2]
    rw [if_neg (by omega), x3]
    simp only [atxSeek, i1, Res.bind_ok, Res.pure_eq]
    exact ⟨0, l, _, _, rfl, ⟨⟨p, hp1, by rw [hcc]; exact hp2⟩, i3⟩, hcc, Or.inl ⟨i, b, x1, rfl, i2⟩⟩
  · rw [if_pos (by omega)]
    exact ⟨_, [], none, _, rfl, ⟨⟨p, hp1, by rw [e2]; exact hp2⟩, e3⟩, e2, Or.inr ⟨x1, x2, rfl⟩⟩

end Ggnss
