import Verif.Props.NavShort
import Verif.Props.NavSeq
import Verif.Props.NavAny
import Verif.Props.ObsCut
import Verif.Props.SatSys
import Mathlib.Tactic.IntervalCases
import Verif.Spec.NavCut
/-!
# C84: navigation files that end anywhere
-/
namespace Ggnss
open NavItem

/-! ## Any bytes: a record is never delivered without the beginning of its last line -/

theorem skipLines_inv : ∀ (n : Nat) (s s' : Stream), skipLines (n + 1) s = (true, s') →
    ∃ (ls : List (List Char)) (l tl : List Char), ls.length = n ∧ s.rest = linesText ls ++ (l ++ tl) ∧ (∀ x ∈ ls, '\n' ∉ x) ∧ '\n' ∉ l ∧
      ((tl = [] ∧ l ≠ []) ∨ ∃ t, tl = '\n' :: t) := by
  intro n
  induction n with
  | zero =>
    intro s s' h
    unfold skipLines at h
    by_cases hf : (s.getline MAX_RECORD_CHARS).2.fail = true
    · simp [hf] at h
    · obtain ⟨_, h2, _, h4⟩ := Stream.getline_ok (l := (s.getline MAX_RECORD_CHARS).1) (s' := (s.getline MAX_RECORD_CHARS).2) (s := s) (n := MAX_RECORD_CHARS) rfl (by simpa using hf)
      rcases h4 with ⟨a, b, _⟩ | ⟨t, a, _⟩
      · exact ⟨[], _, [], rfl, by simp [linesText, ← a], by simp, h2, Or.inl ⟨rfl, b⟩⟩
      · exact ⟨[], _, '\n' :: t, rfl, by simpa [linesText] using a, by simp, h2, Or.inr ⟨t, rfl⟩⟩
  | succ n ih =>
    intro s s' h
    have key : skipLines (n + 1 + 1) s = if (s.getline MAX_RECORD_CHARS).2.fail then
        (false, (s.getline MAX_RECORD_CHARS).2) else skipLines (n + 1) (s.getline MAX_RECORD_CHARS).2 := rfl
    rw [key] at h
    by_cases hf : (s.getline MAX_RECORD_CHARS).2.fail = true
    · simp [hf] at h
    · rw [if_neg hf] at h
      obtain ⟨h1, h2, _, h4⟩ := Stream.getline_ok (l := (s.getline MAX_RECORD_CHARS).1) (s' := (s.getline MAX_RECORD_CHARS).2) (s := s) (n := MAX_RECORD_CHARS) rfl (by simpa using hf)
      rcases h4 with ⟨a, b, c, d⟩ | ⟨t, a, b⟩
      · exfalso
        obtain ⟨ls, l, tl, _, e, _⟩ := ih _ _ h
        have key : skipLines (n + 1) (s.getline MAX_RECORD_CHARS).2 = if ((s.getline MAX_RECORD_CHARS).2.getline MAX_RECORD_CHARS).2.fail then
          (false, ((s.getline MAX_RECORD_CHARS).2.getline MAX_RECORD_CHARS).2) else skipLines n ((s.getline MAX_RECORD_CHARS).2.getline MAX_RECORD_CHARS).2 := rfl
        rw [key] at h
        have : ((s.getline MAX_RECORD_CHARS).2.getline MAX_RECORD_CHARS).2.fail = true := by
          conv_lhs => rw [Stream.getline]
          rw [if_neg (by simp [Stream.good, c])]
        rw [if_pos this] at h
        simp at h
      · obtain ⟨ls, l, tl, e1, e2, e3, e4, e5⟩ := ih _ _ h
        refine ⟨(s.getline MAX_RECORD_CHARS).1 :: ls, l, tl, by simp [e1], ?_, ?_, e4, e5⟩
        · have := (adv_next h1 a).2
          rw [← b, e2] at this
          rw [linesText_cons]
          conv_lhs => rw [a, ← this]
          simp
        · intro x hx
          rcases List.mem_cons.1 hx with rfl | hx
          · exact h2
          · exact e3 x hx

/-- **C84**, any bytes.  Whatever the file holds: when `read_next_record` succeeds, the file holds at the reading position
all lines of the record (as many as the format prescribes for its system), the last one possibly without its end. -/
theorem C84_lines_present (dateOf : List Char → Res DateTime) (junk : List Char) (f : NavFrame) (s : Stream) (errno : Int) (o : NavOut)
    (h : readNextRecord dateOf junk f s errno = .ok o) (h0 : o.status = 0) :
    o.frame.sys ≠ .mixed ∧ s.rest.head? = some (satsysToChar o.frame.sys) ∧ StartsWithLines (specLines o.frame.sys) s.rest := by
  unfold readNextRecord at h
  split at h
  · rename_i c s' hp
    obtain ⟨rfl, hg, tl, hr⟩ := Stream.peek_some hp
    unfold setFromRnx3 at h
    rw [Res.noexcept_eq_ok, Res.bind_eq_ok] at h
    obtain ⟨o1, ho1, h⟩ := h
    have h1 : o1.status = 0 ∧ o.frame.sys = o1.frame.sys := by
      split at h
      · rename_i hne; simp at h; subst h; exact absurd h0 hne
      · rename_i hne
        split at h
        · rw [Res.bind_eq_ok] at h
          obtain ⟨toe, _, h⟩ := h
          simp at h; subst h; exact ⟨by simpa using hne, rfl⟩
        · simp at h; subst h; exact ⟨h0, rfl⟩
    obtain ⟨sys, hsys, hskip, hfs, hmix⟩ := readBlock_skip hr ho1 h1.1
    rw [h1.2, hfs]
    refine ⟨hmix, ?_, ?_⟩
    · rw [hr]
      rcases C01_total c with ⟨s', e1, e2⟩ | ⟨e1, _⟩
      · rw [hsys] at e1; cases e1; rw [e2]; rfl
      · rw [hsys] at e1; cases e1
    · rw [lines_eq_spec hmix] at hskip
      obtain ⟨n, hn⟩ : ∃ n, specLines sys = n + 1 := by cases sys <;> first | exact ⟨_, rfl⟩ | exact absurd rfl hmix
      rw [hn] at hskip ⊢
      obtain ⟨ls, l, tl, e1, e2, e3, e4, e5⟩ := skipLines_inv _ _ _ hskip
      exact ⟨ls, l, tl, by omega, e2, e3, e4, e5⟩
  · split at h
    · simp at h; subst h; simp at h0
    · simp at h; subst h; simp at h0

theorem skipLines_content : ∀ (n : Nat) (s : Stream), (skipLines n s).2.content = s.content := by
  intro n
  induction n with
  | zero => intro s; rfl
  | succ n ih =>
    intro s
    unfold skipLines
    have hgc := Stream.getline_content (s := s) (n := MAX_RECORD_CHARS) (l := (s.getline MAX_RECORD_CHARS).1) (s' := (s.getline MAX_RECORD_CHARS).2) rfl
    simp only
    split
    · exact hgc
    · exact (ih _).trans hgc

theorem peek_content (s : Stream) : s.peek.2.content = s.content := by
  unfold Stream.peek; split <;> [split <;> rfl; rfl]

theorem ignoreNextBlock_content (s : Stream) : (ignoreNextBlock s).2.content = s.content := by
  unfold ignoreNextBlock
  have h := peek_content s
  split
  rename_i c s1 hp
  rw [hp] at h
  split
  · exact h
  · split
    · simp only
      split <;> exact (skipLines_content _ _).trans h
    · exact h

/-- **C84** (searches), any bytes.  A record returned by one of the searches with status 0 was read at a position of the file where
all its lines are. -/
theorem findLoop_present (dateOf : List Char → Res DateTime) (junk : Nat → List Char)
    (accept : NavFrame → Res (Option Int)) (sys : SatSys) :
    ∀ (fuel : Nat) (f : NavFrame) (s : Stream) (errno : Int) (o : NavOut),
      findLoop dateOf junk accept sys fuel f s errno = .ok o → o.status = 0 →
      ∃ p, (s.content.drop p).head? = some (satsysToChar o.frame.sys) ∧ StartsWithLines (specLines o.frame.sys) (s.content.drop p) := by
  intro fuel
  induction fuel with
  | zero => intro f s errno o h; cases h
  | succ fuel ih =>
    intro f s errno o h h0
    unfold findLoop at h
    split at h
    rename_i st cs s1 hp
    have hc1 : s1.content = s.content := by
      unfold peakSatsys at hp
      have := peek_content s
      split at hp
      rename_i hpk
      rw [hpk] at this
      split at hp
      · simp only [Prod.mk.injEq] at hp; rw [← hp.2.2]; exact this
      · split at hp <;> (simp only [Prod.mk.injEq] at hp; rw [← hp.2.2]; exact this)
    split at h
    · rename_i hne; simp at h; subst h; exact absurd h0 hne
    · split at h
      · rw [Res.bind_eq_ok] at h
        obtain ⟨o1, ho1, h⟩ := h
        split at h
        · rename_i hne; simp at h; subst h; exact absurd h0 hne
        · rename_i hz
          rw [Res.bind_eq_ok] at h
          obtain ⟨a, _, h⟩ := h
          obtain ⟨_, hh, hl⟩ := C84_lines_present _ _ _ _ _ _ ho1 (by simpa using hz)
          split at h
          · simp at h; subst h
            exact ⟨s1.pos, by rw [← hc1]; exact ⟨hh, hl⟩⟩
          · obtain ⟨p, hpp⟩ := ih _ _ _ _ h h0
            have : o1.strm.content = s1.content := by
              have := ignoreNextBlock_content s1
              rwa [C16_skip_like_read _ _ _ _ _ _ ho1 (by simpa using hz)] at this
            exact ⟨p, by rw [← hc1, ← this]; exact hpp⟩
      · split at h
        rename_i st2 s2 hig
        have : s2.content = s1.content := by
          have := ignoreNextBlock_content s1
          rwa [hig] at this
        split at h
        · rename_i hne; simp at h; subst h; exact absurd h0 hne
        · obtain ⟨p, hpp⟩ := ih _ _ _ _ h h0
          exact ⟨p, by rw [← hc1, ← this]; exact hpp⟩

/-- **C84** (`find_next`), any bytes: a record found with status 0 has all its lines in the file. -/
theorem C84_found_present (dateOf : List Char → Res DateTime) (junk : Nat → List Char) (fuel : Nat) (sys : SatSys) (prn : Int) (f : NavFrame)
    (s : Stream) (errno : Int) (p : Option Nat) (o : NavOut) (h : findNext dateOf junk fuel sys prn f s errno = .ok (p, o)) (h0 : o.status = 0) :
    ∃ p, (s.content.drop p).head? = some (satsysToChar o.frame.sys) ∧ StartsWithLines (specLines o.frame.sys) (s.content.drop p) := by
  unfold findNext at h
  rw [Res.bind_eq_ok] at h
  obtain ⟨o1, ho1, h⟩ := h
  simp at h
  obtain ⟨_, rfl⟩ := h
  have := findLoop_present _ _ _ _ _ _ _ _ _ ho1 h0
  rwa [show s.tellg.2.content = s.content by unfold Stream.tellg; split <;> rfl] at this

/-- **C84** (`find_next_valid`), any bytes. -/
theorem C84_found_valid_present (dateOf : List Char → Res DateTime) (junk : Nat → List Char) (fuel : Nat) (t : Int) (sys : SatSys) (prn : Int) (f : NavFrame)
    (s : Stream) (errno : Int) (p : Option Nat) (o : NavOut) (h : findNextValid dateOf junk fuel t sys prn f s errno = .ok (p, o)) (h0 : o.status = 0) :
    ∃ p, (s.content.drop p).head? = some (satsysToChar o.frame.sys) ∧ StartsWithLines (specLines o.frame.sys) (s.content.drop p) := by
  unfold findNextValid at h
  rw [Res.noexcept_eq_ok, Res.bind_eq_ok] at h
  obtain ⟨o1, ho1, h⟩ := h
  simp at h
  obtain ⟨_, rfl⟩ := h
  have := findLoop_present _ _ _ _ _ _ _ _ _ ho1 h0
  rwa [show s.tellg.2.content = s.content by unfold Stream.tellg; split <;> rfl] at this

/-! ## Where a record may be cut -/

/-- The line array has a terminator in column 62 or later. -/
def Nul61 (buf : List Char) : Prop := NUL ∈ buf.drop 61

theorem nul61_iff {buf : List Char} : Nul61 buf ↔ ∃ i, 61 ≤ i ∧ buf[i]? = some NUL := by
  unfold Nul61
  rw [List.mem_iff_getElem?]
  constructor
  · rintro ⟨i, h⟩; rw [List.getElem?_drop] at h; exact ⟨61 + i, by omega, h⟩
  · rintro ⟨i, h1, h2⟩; exact ⟨i - 61, by rw [List.getElem?_drop, show 61 + (i - 61) = i by omega]; exact h2⟩

theorem Nul61.drop {buf : List Char} (h : Nul61 buf) {k : Nat} (hk : k ≤ 61) : NUL ∈ buf.drop k := by
  unfold Nul61 at h
  rw [show 61 = k + (61 - k) by omega, ← List.drop_drop] at h
  exact List.mem_of_mem_drop h

theorem Nul61.fill {buf : List Char} (h : Nul61 buf) (l : List Char) : Nul61 (fillLine buf l) := by
  rw [nul61_iff] at h ⊢
  obtain ⟨i, h1, h2⟩ := h
  by_cases hl : 61 ≤ l.length
  · exact ⟨l.length, hl, by simp [fillLine]⟩
  · refine ⟨i, h1, ?_⟩
    unfold fillLine
    rw [List.getElem?_append_right (by omega), show i - l.length = (i - l.length - 1) + 1 by omega, List.getElem?_cons_succ, List.getElem?_drop,
      show l.length + 1 + (i - l.length - 1) = i by omega]
    exact h2

theorem for2cpp_nul {b b' : List Char} (h : for2cpp b = .ok b') : ∀ i : Nat, b[i]? = some NUL → b'[i]? = some NUL := by
  induction b generalizing b' with
  | nil => cases h
  | cons c cs ih =>
    unfold for2cpp at h
    split at h
    · cases h; exact fun i hi => hi
    · rename_i hc
      rw [Res.bind_eq_ok] at h
      obtain ⟨r, hr, h⟩ := h
      simp at h; subst h
      intro i hi
      cases i with
      | zero => simp at hi; exact absurd hi hc
      | succ i => simpa using ih hr i (by simpa using hi)

theorem Nul61.for2cpp {b b' : List Char} (hb : Nul61 b) (h : for2cpp b = .ok b') : Nul61 b' := by
  rw [nul61_iff] at hb ⊢
  obtain ⟨i, h1, h2⟩ := hb
  exact ⟨i, h1, for2cpp_nul h i h2⟩

theorem Nul61.orbit {sys : SatSys} {e : Int} : ∀ {n ln : Nat} {buf : List Char} {f : NavFrame} {s : Stream} {x : Option Int × List Char × NavFrame × Stream},
    Nul61 buf → orbitLines sys e n ln buf f s = .ok x → Nul61 x.2.1 := by
  intro n
  induction n with
  | zero => intro ln buf f s x hb h; simp [orbitLines] at h; subst h; exact hb
  | succ n ih =>
    intro ln buf f s x hb h
    unfold orbitLines at h
    simp only at h
    split at h
    · simp at h; subst h; exact hb.fill _
    · simp only [Res.bind_eq_ok] at h
      obtain ⟨b, hb1, r, _, d, _, h⟩ := h
      have hn := (hb.fill _).for2cpp hb1
      split at h
      · exact ih hn h
      · simp at h; subst h; exact hn

/-- A stream that has been read to the end of the file, with the eofbit. -/
theorem getline_eof {s : Stream} (h : s.eof = true) (n : Nat) : s.getline n = ([], { s with fail := true }) := by
  unfold Stream.getline
  rw [if_neg (by simp [Stream.good, h])]

/-- The orbit lines when the file ends in the first of them. -/
theorem orbitLines_cut (sys : SatSys) {q : List Char} (hq1 : '\n' ∉ q) (hq2 : q.length ≤ 127) (hq3 : NUL ∉ q) {s : Stream} (hg : s.good = true)
    (hr : s.rest = q) {n ln : Nat} {buf : List Char} (hb : Nul61 buf) {f : NavFrame} (hd : f.data.length = 31) (hbnd : 3 + 4 * (ln + (n + 1)) ≤ 31) :
    ∃ st buf' d' s', orbitLines sys 0 (n + 1) ln buf f s = .ok (st, buf', { f with data := d' }, s') ∧ (st = some 5 ∨ st = some 6 ∨ st = none) ∧
      d'.length = 31 ∧ AtEnd s' ∧ s'.eof = true ∧ s'.content = s.content := by
  have hgl := Stream.getline_last (n := MAX_RECORD_CHARS) hg hr hq1 (by simpa [MAX_RECORD_CHARS] using hq2)
  have hrest := AtEnd.last hr q.isEmpty
  unfold orbitLines
  simp only [hgl]
  by_cases he : q.isEmpty = true
  · rw [if_pos he]
    exact ⟨some 5, _, f.data, _, rfl, Or.inl rfl, hd, hrest, rfl, rfl⟩
  · rw [if_neg he]
    have hfb := hb.fill q
    rw [fillLine_eq] at hfb ⊢
    have hf2 := for2cpp_line q (buf.drop (q.length + 1)) hq3
    have hn := hfb.for2cpp hf2
    rw [hf2, Res.bind_ok]
    have hrec : recsOnLine sys ln ≤ 4 := by unfold recsOnLine; split <;> simp
    obtain ⟨r, hc⟩ := char2double_total (e := false) (M := 19) (N := recsOnLine sys ln) (arr := (q.map d2e ++ NUL :: buf.drop (q.length + 1)).drop 4)
      (fun k hk => by rw [List.drop_drop]; exact hn.drop (by omega))
    have hvl := char2double_len hc
    have hst := storeAt_ok (d := f.data) (vals := r.2) (off := 3 + ln * 4) (by omega)
    have hl := (storeAt_get hst).1
    simp only [ne_eq, not_true_eq_false, decide_false, hc, Res.bind_ok, hst]
    by_cases hr1 : r.1 = true
    · rw [if_pos hr1]
      cases n with
      | zero =>
        simp only [orbitLines]
        exact ⟨none, _, _, _, rfl, Or.inr (Or.inr rfl), hl.trans hd, hrest, rfl, rfl⟩
      | succ n =>
        unfold orbitLines
        rw [getline_eof rfl]
        simp only [if_true, Res.pure_eq]
        exact ⟨some 5, _, _, _, rfl, Or.inl rfl, hl.trans hd, ⟨hrest.1, Or.inl rfl⟩, rfl, rfl⟩
    · rw [if_neg hr1]
      exact ⟨some 6, _, _, _, rfl, Or.inr (Or.inl rfl), hl.trans hd, hrest, rfl, rfl⟩

/-- The first line of a block, and where the line array is terminated afterwards. -/
theorem readBlock_first_nul (strptime : List Char → Res DateTime) (junk : List Char) (f : NavFrame)
    (s : Stream) (sys : SatSys) (prn : Int) (l0 tail : List Char) (toc : DateTime) (r : Bool × List Rat)
    (hsys : sys ≠ .mixed) (ok0 : LineOK l0) (hlet : l0.head? = some (satsysToChar sys)) (hp : PrnAt l0 prn)
    (h61 : 61 ≤ l0.length) (htoc : strptime (l0.drop 3) = .ok toc)
    (hc0 : char2double false 19 3 ((l0.map d2e ++ NUL :: junk.drop (l0.length + 1)).drop 23) = .ok r)
    (hrl : r.2.length ≤ 3)
    (hg : s.good = true) (hr : s.rest = l0 ++ '\n' :: tail) (hlen : f.data.length = 31) :
    ∃ buf d, (d.length = 31 ∧ ∀ k < r.2.length, d[k]? = r.2[k]?) ∧ NUL ∈ buf.drop 61 ∧ readBlock strptime junk f s 0 =
      if r.1 then blockRest sys buf { f with sys := sys, toc := toc, prn := prn, data := d } (s.adv (l0.length + 1))
      else .ok ⟨3, { f with sys := sys, toc := toc, prn := prn, data := d }, s.adv (l0.length + 1), 0⟩ := by
  have h23 : 23 ≤ l0.length := by omega
  have hne : l0 ≠ [] := by intro h; rw [h] at hlet; simp at hlet
  have hg0 := Stream.getline_line (n := MAX_RECORD_CHARS) hg (l := l0) (tail := tail) hr ok0.1
    (by simpa [MAX_RECORD_CHARS] using ok0.2.2)
  have hf0 : (s.adv (l0.length + 1)).fail = false := by
    rw [Stream.adv_fail]; exact ((Stream.good_iff s).1 hg).2
  have hget0 : getAt (fillLine junk l0) 0 = .ok (satsysToChar sys) := by
    unfold getAt fillLine
    cases l0 with
    | nil => exact absurd rfl hne
    | cons a b => simp at hlet; simp [hlet]
  have hsys' : charToSatsys (satsysToChar sys) = .ok sys := by cases sys <;> rfl
  have hcstr : cstrOf ((fillLine junk l0).drop 3) = .ok (l0.drop 3) := by
    unfold fillLine
    rw [List.drop_append_of_le_length (by omega)]
    exact cstrOf_append (IsCStr.drop ok0.2.1 3) _
  obtain ⟨r1, hprn⟩ := strtol_prn l0 (junk.drop (l0.length + 1)) prn hne hp
  obtain ⟨_, _, _, _, _, _, _, _, hp0, hp1⟩ := hp
  have hstl : strtolA ((fillLine junk l0).drop 1) = .ok (some (prn, r1, false)) := by
    unfold strtolA fillLine
    rw [if_pos (by
      rw [List.drop_append_of_le_length (by omega)]; simp), hprn]
  have hprn32 : toInt32 prn = prn := toInt32_small (by omega) (by omega)
  have hf2c : for2cpp ((fillLine junk l0).drop 23) = .ok ((l0.drop 23).map d2e ++ NUL :: junk.drop (l0.length + 1)) := by
    unfold fillLine
    rw [List.drop_append_of_le_length (by omega)]
    exact for2cpp_line _ _ (IsCStr.drop ok0.2.1 23)
  have htake : ((fillLine junk l0).take 23).length = 23 := by
    unfold fillLine; rw [List.length_take]; simp; omega
  have hdrop23 : ((fillLine junk l0).take 23 ++ ((l0.drop 23).map d2e ++ NUL :: junk.drop (l0.length + 1))).drop 23
      = (l0.map d2e ++ NUL :: junk.drop (l0.length + 1)).drop 23 := by
    rw [List.drop_append_of_le_length (by omega), List.drop_of_length_le (by omega), List.nil_append,
      List.drop_append_of_le_length (by simpa using h23), List.map_drop]
  have hd0 := storeAt_ok (d := f.data) (vals := r.2) (off := 0) (by omega)
  obtain ⟨hd1, -, hd2, -⟩ := storeAt_get hd0
  simp only [Nat.zero_add] at hd2
  refine ⟨(fillLine junk l0).take 23 ++ ((l0.drop 23).map d2e ++ NUL :: junk.drop (l0.length + 1)),
    f.data.take 0 ++ r.2 ++ f.data.drop (0 + r.2.length), ⟨hd1.trans hlen, by simpa using hd2⟩, ?_, ?_⟩
  · rw [← List.append_assoc, List.drop_append_of_le_length (by simp [fillLine]; omega)]; simp
  unfold readBlock
  simp only [hg0, hf0, Bool.false_eq_true, if_false, hget0, Res.bind_ok, hsys', hcstr, htoc, hstl, strtolVal, strtolErr, hprn32]
  rw [if_neg (by
    intro h; rcases h with h | h
    · omega
    · simp [ERANGE] at h)]
  simp only [hf2c, Res.bind_ok, hdrop23, ne_eq, not_true_eq_false, decide_false, hc0, hd0]
  cases r.1
  · rfl
  · rfl

/-- After orbit lines that were read the array holds the last of them. -/
theorem orbitLines_buf (sys : SatSys) (lp tail : List Char) : ∀ (ls : List (List Char)) (ln : Nat) (buf : List Char) (f : NavFrame) (s : Stream)
    (buf' : List Char) (f' : NavFrame) (s' : Stream), s.good = true → s.rest = linesText (ls ++ [lp]) ++ tail → (∀ l ∈ ls ++ [lp], LineOK l) →
    orbitLines sys 0 (ls.length + 1) ln buf f s = .ok (none, buf', f', s') → ∃ bt, buf' = lp.map d2e ++ NUL :: bt := by
  intro ls
  induction ls with
  | nil =>
    intro ln buf f s buf' f' s' hg hr hok h
    have hl := hok lp (by simp)
    have hgl := Stream.getline_line (n := MAX_RECORD_CHARS) hg (l := lp) (tail := tail) (by rw [hr]; simp [linesText]) hl.1
      (by simpa [MAX_RECORD_CHARS] using hl.2.2)
    have hf : (s.adv (lp.length + 1)).fail = false := by rw [Stream.adv_fail]; exact ((Stream.good_iff s).1 hg).2
    simp only [List.length_nil, orbitLines, hgl, hf, Bool.false_eq_true, if_false, fillLine_eq] at h
    rw [for2cpp_line _ _ hl.2.1] at h
    simp only [Res.bind_ok, Res.bind_eq_ok] at h
    obtain ⟨r, _, d, _, h⟩ := h
    split at h
    · simp at h; exact ⟨_, h.1.symm⟩
    · simp at h
  | cons l ls ih =>
    intro ln buf f s buf' f' s' hg hr hok h
    have hl := hok l (by simp)
    rw [List.cons_append, linesText_cons] at hr
    have hr' : s.rest = l ++ '\n' :: (linesText (ls ++ [lp]) ++ tail) := by rw [hr]; simp
    have hgl := Stream.getline_line (n := MAX_RECORD_CHARS) hg hr' hl.1 (by simpa [MAX_RECORD_CHARS] using hl.2.2)
    have hf : (s.adv (l.length + 1)).fail = false := by rw [Stream.adv_fail]; exact ((Stream.good_iff s).1 hg).2
    obtain ⟨hg1, hr1⟩ := adv_next hg hr'
    rw [List.length_cons, orbitLines] at h
    simp only [hgl, hf, Bool.false_eq_true, if_false, fillLine_eq] at h
    rw [for2cpp_line _ _ hl.2.1] at h
    simp only [Res.bind_ok, Res.bind_eq_ok] at h
    obtain ⟨r, _, d, _, h⟩ := h
    split at h
    · exact ih _ _ _ _ _ _ _ hg1 hr1 (fun x hx => hok x (by simp at hx ⊢; tauto)) h
    · simp at h

/-- Reading the complete lines at the beginning of a record. -/
theorem nav_walk (dateOf : List Char → Res DateTime) (junk : List Char) (f : NavFrame) (s : Stream) {r : NavItem} (hr : r.WF dateOf)
    {l0 : List Char} {mid more : List (List Char)} {q : List Char} (hls : r.lines = l0 :: (mid ++ more)) (hmore : more ≠ [])
    (hg : s.good = true) (hrest : s.rest = linesText (l0 :: mid) ++ q) (hlen : f.data.length = 31) :
    ∃ buf0 d0 buf d s2, s2.good = true ∧ s2.rest = q ∧ s2.content = s.content ∧ Nul61 buf ∧ d.length = 31 ∧
      (∀ j ≤ mid.length, ∀ k < specCount r.sys j, d[specIndex j k]? = some (r.num j k).value) ∧
      (∀ lp ls', mid = ls' ++ [lp] → ∃ bt, buf = lp.map d2e ++ NUL :: bt) ∧
      readBlock dateOf junk f s 0 = blockRest r.sys buf0 { f with sys := r.sys, toc := r.toc, prn := r.prn, data := d0 } (s.adv (l0.length + 1)) ∧
      ∀ b, orbitLines r.sys 0 (mid.length + b) 0 buf0 { f with sys := r.sys, toc := r.toc, prn := r.prn, data := d0 } (s.adv (l0.length + 1)) =
        orbitLines r.sys 0 b mid.length buf { f with sys := r.sys, toc := r.toc, prn := r.prn, data := d } s2 := by
  have hrec := hr.record
  obtain ⟨n, c, hlps, hsl, hc4, hbnd, hcnt, hlast⟩ := layout r.sys hrec.notMixed
  have hcount := hrec.count
  rw [hls, hsl] at hcount
  simp only [List.length_cons, List.length_append] at hcount
  have hml : 1 ≤ more.length := by cases more with | nil => exact absurd rfl hmore | cons _ _ => simp
  have hh : r.lines.head? = some l0 := by rw [hls]; rfl
  have ok0 := hrec.fits l0 (by rw [hls]; simp)
  have hlet := hrec.letter l0 hh
  have hp := hrec.prn l0 hh
  have hnum0 : ∀ k < 3, FieldAt l0 (23 + 19 * k) (r.num 0 k) := fun k hk => hrec.numbers 0 l0 (by rw [hls]; rfl) k (by simpa [specCount] using hk)
  have hr0 : s.rest = l0 ++ '\n' :: (linesText mid ++ q) := by rw [hrest, linesText_cons]; simp
  obtain ⟨hg1, hr1⟩ := adv_next hg hr0
  have h61 : 61 ≤ l0.length := by have := (hnum0 2 (by omega)).1; omega
  have hc0 := char2double_line l0 (junk.drop (l0.length + 1)) 23 3 (r.num 0) hnum0
  obtain ⟨buf0, d0, ⟨hd0, hdk⟩, hn0, hrun⟩ := readBlock_first_nul dateOf junk f s r.sys r.prn l0 _ r.toc _ hrec.notMixed ok0 hlet hp
    h61 (hr.date l0 hh) hc0 (by simp) hg hr0 hlen
  simp only [if_true] at hrun
  obtain ⟨buf', d', e1, e2, e3, e4⟩ := orbitLines_ok r.sys r.num q mid 0 buf0
    { f with sys := r.sys, toc := r.toc, prn := r.prn, data := d0 } (s.adv (l0.length + 1)) hg1 hr1
    (fun l hl => hrec.fits l (by rw [hls]; simp [hl]))
    (fun i l hl k hk => by
      have hi : i < mid.length := by rw [List.getElem?_eq_some_iff] at hl; exact hl.1
      have h1 := hrec.numbers (i + 1) l (by
        rw [hls, List.getElem?_cons_succ, List.getElem?_append_left hi]; exact hl) k (by
        rw [hcnt i (by omega)]; simpa using hk)
      simp only [Nat.add_one_ne_zero, if_false] at h1
      rwa [show 0 + 1 + i = i + 1 by omega]) hd0 (by omega)
  have hrm : ((s.adv (l0.length + 1)).adv (linesText mid).length).rest = q := Stream.adv_rest_append hr1
  refine ⟨buf0, d0, buf', d', (s.adv (l0.length + 1)).adv (linesText mid).length, by simpa using hg, hrm, rfl, Nul61.orbit hn0 e1, e2, ?_, ?_, hrun, ?_⟩
  · intro j hj k hk
    rcases Nat.eq_zero_or_pos j with rfl | hjp
    · have hk3 : k < 3 := by simpa [specCount] using hk
      rw [show specIndex 0 k = k from rfl, e4 k (Or.inl (by omega))]
      have := hdk k (by simpa using hk3)
      rw [this]; simp [hk3]
    · obtain ⟨i, rfl⟩ : ∃ i, j = i + 1 := ⟨j - 1, by omega⟩
      rw [hcnt i (by omega)] at hk
      have h3 := e3 i (by omega) k (by simpa using hk)
      rw [show specIndex (i + 1) k = 3 + 4 * i + k by simp [specIndex]]
      rwa [show 0 + i = i by omega, show 0 + 1 + i = i + 1 by omega] at h3
  · rintro lp ls' rfl
    rw [show (ls' ++ [lp]).length = ls'.length + 1 by simp] at e1
    exact orbitLines_buf r.sys lp q ls' 0 _ _ _ _ _ _ hg1 hr1 (fun l hl => hrec.fits l (by rw [hls]; simp at hl ⊢; tauto)) e1
  · intro b
    have := orbitLines_add r.sys 0 mid.length b 0 _ _ _ _ _ _ e1
    rwa [Nat.zero_add] at this

/-- **C84**.  A record of which the file holds the first line and ends before, or right at the beginning of, the last one is
refused: status 5, 6 or 7, the satellite and time of the record, and the file has been read to its end. -/
theorem C84_cut_middle (dateOf : List Char → Res DateTime) (junk : List Char) (f : NavFrame) (s : Stream) {r : NavItem} (hr : r.WF dateOf)
    {pre rest : List (List Char)} {l q : List Char} (hls : r.lines = pre ++ l :: rest) (hpre : pre ≠ []) (hq : q <+: l) (hnl : rest ≠ [] ∨ q = [])
    (hg : s.good = true) (hrest : s.rest = linesText pre ++ q) (hlen : f.data.length = 31) :
    ∃ st f' s', readNextRecord dateOf junk f s 0 = .ok ⟨st, f', s', 0⟩ ∧ st ∈ [5, 6, 7] ∧ f'.sys = r.sys ∧ f'.prn = r.prn ∧ f'.toc = r.toc ∧
      f'.data.length = 31 ∧ AtEnd s' ∧ s'.content = s.content := by
  have hrec := hr.record
  obtain ⟨n, c, hlps, hsl, hc4, hbnd, hcnt, hlast⟩ := layout r.sys hrec.notMixed
  have hcount := hrec.count
  obtain ⟨l0, mid, rfl⟩ : ∃ l0 mid, pre = l0 :: mid := by
    cases pre with
    | nil => exact absurd rfl hpre
    | cons a b => exact ⟨a, b, rfl⟩
  rw [hls, hsl] at hcount
  simp only [List.cons_append, List.length_cons, List.length_append] at hcount
  have hlok := hrec.fits l (by rw [hls]; simp)
  have hq1 : '\n' ∉ q := fun h => hlok.1 (hq.subset h)
  have hq3 : NUL ∉ q := fun h => hlok.2.1 (hq.subset h)
  have hq2 : q.length ≤ 127 := hq.length_le.trans hlok.2.2
  obtain ⟨buf0, d0, buf, d, s2, w1, w2, w3, w4, w5, w6, w7, w8, w9⟩ := nav_walk dateOf junk f s hr (more := l :: rest) (mid := mid) (by rw [hls]; simp) (by simp) hg hrest hlen
  have hpk : s.peek = (some (satsysToChar r.sys), s) :=
    nav_peek_line (l := l0) (t := '\n' :: (linesText mid ++ q)) hg (by rw [hrest, linesText_cons]; simp) (hrec.letter l0 (by rw [hls]; rfl))
  have hn : ((n : Int) + 2 - 1 - 1).toNat = n := by omega
  have fin : ∀ st d' s', st ∈ [(5 : Int), 6, 7] → d'.length = 31 → AtEnd s' → s'.content = s2.content →
      readBlock dateOf junk f s 0 = .ok ⟨st, { f with sys := r.sys, toc := r.toc, prn := r.prn, data := d' }, s', 0⟩ →
      ∃ st f' s', readNextRecord dateOf junk f s 0 = .ok ⟨st, f', s', 0⟩ ∧ st ∈ [5, 6, 7] ∧ f'.sys = r.sys ∧ f'.prn = r.prn ∧ f'.toc = r.toc ∧
        f'.data.length = 31 ∧ AtEnd s' ∧ s'.content = s.content := by
    intro st d' s' h1 h2 h3 h4 h5
    exact ⟨st, _, s', readNextRecord_refused hpk h5 (by rintro h; simp only at h; rw [h] at h1; simp at h1), h1, rfl, rfl, rfl, h2, h3, h4.trans w3⟩
  by_cases hend : rest = []
  · subst hend
    obtain rfl : q = [] := hnl.resolve_left (by simp)
    have hmn : mid.length = n := by simp at hcount; omega
    have hgl := Stream.getline_last (n := MAX_RECORD_CHARS) w1 w2 (by simp) (by simp)
    refine fin 7 d _ (by simp) w5 (AtEnd.last w2 true) rfl ?_
    rw [w8]
    unfold blockRest
    rw [hlps]
    simp only
    have := w9 0
    rw [Nat.add_zero, hmn] at this
    rw [if_neg (by omega), hn, this]
    simp only [orbitLines, Res.bind_ok, hgl, List.isEmpty_nil, if_true, Res.pure_eq]
  · obtain ⟨b, hb⟩ : ∃ b, n = mid.length + (b + 1) := by
      have : 1 ≤ rest.length := by cases rest with | nil => exact absurd rfl hend | cons _ _ => simp
      exact ⟨n - mid.length - 1, by omega⟩
    obtain ⟨st, buf', d', s', c1, c2, c3, c4, c5, c6⟩ := orbitLines_cut r.sys hq1 hq2 hq3 w1 w2 (n := b) (ln := mid.length) w4
      (f := { f with sys := r.sys, toc := r.toc, prn := r.prn, data := d }) w5 (by omega)
    have hrun : readBlock dateOf junk f s 0 = (do
        let o ← Res.ok (st, buf', ({ f with sys := r.sys, toc := r.toc, prn := r.prn, data := d' } : NavFrame), s')
        match o.1 with
        | some 5 => pure ⟨5, o.2.2.1, o.2.2.2, 0⟩
        | some e => pure ⟨e, o.2.2.1, o.2.2.2, 0⟩
        | none =>
          let g := o.2.2.2.getline MAX_RECORD_CHARS
          if g.2.fail then pure ⟨7, o.2.2.1, g.2, 0⟩
          else do
            let buf ← for2cpp (fillLine o.2.1 g.1)
            let r' ← char2double false 19 (linesPerSatsys r.sys).2 (buf.drop 4)
            let d ← storeAt o.2.2.1.data (3 + n * 4) r'.2
            if !r'.1 then pure ⟨8, { o.2.2.1 with data := d }, g.2, 0⟩
            else pure ⟨0, { o.2.2.1 with data := if r.sys = .glonass then gloScale d else d }, g.2, 0⟩) := by
      rw [w8]
      unfold blockRest
      rw [hlps]
      simp only
      rw [if_neg (by omega), hn]
      have := w9 (b + 1)
      rw [← hb] at this
      rw [this, c1]
      rfl
    rcases c2 with rfl | rfl | rfl
    · exact fin 5 d' s' (by simp) c3 c4 c6 hrun
    · exact fin 6 d' s' (by simp) c3 c4 c6 hrun
    · refine fin 7 d' { s' with fail := true } (by simp) c3 ⟨c4.1, Or.inl c5⟩ c6 ?_
      rw [hrun]
      simp only [Res.bind_ok, getline_eof c5, if_true, Res.pure_eq]

theorem stopsNumber_nul {t u : List Char} (h : stopsNumber t) : stopsNumber (t ++ NUL :: u) := by
  intro c hc
  cases t with
  | nil => simp at hc; subst hc; exact ⟨by decide, by decide, by decide, by decide, by decide, by decide⟩
  | cons a b => exact h c (by simpa using hc)

theorem glo_unit {j k : Nat} {v : Rat} (hj : j < specLines .glonass) (hk : k < specCount .glonass j) :
    some (if specIndex j k ∈ [3, 4, 5, 7, 8, 9, 11, 12, 13] then v * 1000 else v) = some (specUnit .glonass j k * v) := by
  have hj' : j < 4 := hj
  have hk' : k < 4 := by
    have : specCount .glonass j ≤ 4 := by unfold specCount; (repeat' split) <;> omega
    omega
  congr 1
  interval_cases j <;> interval_cases k <;> simp [specIndex, specUnit, mul_comm]
  simp [specCount] at hk

/-- **C84**.  A file that ends within the last line of a record (the newline not counted): the record is refused with
status 8, or delivered with status 0.  The file has been read to its end; satellite, time of clock and all
numbers of the other lines are those of the record. -/
theorem C84_cut_last (dateOf : List Char → Res DateTime) (junk : List Char) (f : NavFrame) (s : Stream) {r : NavItem} (hr : r.WF dateOf)
    {pre : List (List Char)} {l q : List Char} (hls : r.lines = pre ++ [l]) (hq : q <+: l) (hne : q ≠ [])
    (hg : s.good = true) (hrest : s.rest = linesText pre ++ q) (hlen : f.data.length = 31) :
    ∃ st f' s', readNextRecord dateOf junk f s 0 = .ok ⟨st, f', s', 0⟩ ∧ st ∈ [0, 8] ∧ f'.sys = r.sys ∧ f'.prn = r.prn ∧ f'.toc = r.toc ∧
      f'.data.length = 31 ∧ AtEnd s' ∧ s'.content = s.content ∧
      (st = 0 → (Handled r.sys → ∀ toe, r.toeIs toe → f'.toe.total = toe) ∧
        ∀ j, j + 1 < specLines r.sys → ∀ k < specCount r.sys j, f'.data[specIndex j k]? = some (r.val j k)) ∧
      ((∀ k < specCount r.sys pre.length, ∃ v, LastNumber r q k v) → st = 0 ∧
        ∀ k < specCount r.sys pre.length, ∀ v, LastNumber r q k v → f'.data[specIndex pre.length k]? = some (specUnit r.sys pre.length k * v)) := by
  have hrec := hr.record
  obtain ⟨n, c, hlps, hsl, hc4, hbnd, hcnt, hlast⟩ := layout r.sys hrec.notMixed
  have hcount := hrec.count
  rw [hls, hsl] at hcount
  have hlok := hrec.fits l (by rw [hls]; simp)
  have hq1 : '\n' ∉ q := fun h => hlok.1 (hq.subset h)
  have hq3 : NUL ∉ q := fun h => hlok.2.1 (hq.subset h)
  have hq2 : q.length ≤ 127 := hq.length_le.trans hlok.2.2
  obtain ⟨l0, mid, rfl⟩ : ∃ l0 mid, pre = l0 :: mid := by
    cases pre with
    | nil => simp at hcount
    | cons a b => exact ⟨a, b, rfl⟩
  simp only [List.cons_append, List.length_cons, List.length_append, List.length_nil] at hcount
  have hmn : mid.length = n := by omega
  obtain ⟨buf0, d0, buf, d, s2, w1, w2, w3, w4, w5, w6, w7, w8, w9⟩ := nav_walk dateOf junk f s hr (more := [l]) (mid := mid) (by rw [hls]; simp) (by simp) hg hrest hlen
  have hpk : s.peek = (some (satsysToChar r.sys), s) :=
    nav_peek_line (l := l0) (t := '\n' :: (linesText mid ++ q)) hg (by rw [hrest, linesText_cons]; simp) (hrec.letter l0 (by rw [hls]; rfl))
  have hn : ((n : Int) + 2 - 1 - 1).toNat = n := by omega
  have hgl := Stream.getline_last (n := MAX_RECORD_CHARS) w1 w2 hq1 (by simpa [MAX_RECORD_CHARS] using hq2)
  have hqe : q.isEmpty = false := by cases q with | nil => exact absurd rfl hne | cons _ _ => rfl
  rw [hqe] at hgl
  have hf2 := for2cpp_line q (buf.drop (q.length + 1)) hq3
  have hn61 := w4.fill q
  rw [fillLine_eq] at hn61
  have hn61' := hn61.for2cpp hf2
  obtain ⟨x, hc⟩ := char2double_total (e := false) (M := 19) (N := c) (arr := (q.map d2e ++ NUL :: buf.drop (q.length + 1)).drop 4)
    (fun k hk => by rw [List.drop_drop]; exact hn61'.drop (by omega))
  have hvl := char2double_len hc
  obtain ⟨d2, hd2⟩ : ∃ d2, storeAt d (3 + n * 4) x.2 = .ok d2 := ⟨_, storeAt_ok (by omega)⟩
  obtain ⟨g1, g2, g3, g4⟩ := storeAt_get hd2
  have hrun : readBlock dateOf junk f s 0 = if x.1 = true
      then .ok ⟨0, { f with sys := r.sys, toc := r.toc, prn := r.prn, data := if r.sys = .glonass then gloScale d2 else d2 },
        { s2 with pos := s2.pos + q.length, eof := true, fail := false }, 0⟩
      else .ok ⟨8, { f with sys := r.sys, toc := r.toc, prn := r.prn, data := d2 }, { s2 with pos := s2.pos + q.length, eof := true, fail := false }, 0⟩ := by
    rw [w8]
    unfold blockRest
    rw [hlps]
    simp only
    have := w9 0
    rw [Nat.add_zero, hmn] at this
    rw [if_neg (by omega), hn, this]
    simp only [orbitLines, Res.bind_ok, hgl, Bool.false_eq_true, if_false, fillLine_eq]
    rw [hf2, Res.bind_ok, hc]
    simp only [Res.bind_ok, hd2]
    cases x.1 <;> rfl
  have hend := AtEnd.last w2 false
  -- values of the earlier lines
  have hold : ∀ j, j + 1 < specLines r.sys → ∀ k < specCount r.sys j, d2[specIndex j k]? = some (r.num j k).value := by
    intro j hj k hk
    have hidx : specIndex j k < 3 + 4 * n := by
      rw [hsl] at hj
      unfold specIndex
      split
      · rename_i h; subst h; have : k < 3 := by simpa [specCount] using hk
        omega
      · rename_i h
        obtain ⟨i, rfl⟩ : ∃ i, j = i + 1 := ⟨j - 1, by omega⟩
        rw [hcnt i (by omega)] at hk
        have : recsOnLine r.sys i ≤ 4 := by unfold recsOnLine; split <;> simp
        omega
    rw [g4 _ (Or.inl (by omega))]
    exact w6 j (by rw [hsl] at hj; omega) k hk
  -- numbers of the last line
  have hnum : ∀ k < c, ∀ v, LastNumber r q k v → ∃ m : Numeral, m.WF ∧ v = m.value ∧
      ∃ t, ((q.map d2e ++ NUL :: buf.drop (q.length + 1)).drop 4).drop (19 * k) = m.text ++ t ∧ stopsNumber t := by
    intro k hk v hv
    rcases hv with ⟨m, ⟨hle, hwf, t, ht, hst⟩, rfl⟩ | ⟨hlt, hk2, rfl⟩
    · refine ⟨m, hwf, rfl, t ++ NUL :: buf.drop (q.length + 1), ?_, ?_⟩
      · rw [List.drop_drop, List.drop_append_of_le_length (by simpa using hle), ← List.map_drop, ht]
        simp
      · exact stopsNumber_nul hst
    · have hn1 : 1 ≤ n := by
        rcases Nat.eq_zero_or_pos n with h | h
        · exfalso; rw [h] at hsl; revert hsl; cases r.sys <;> simp [specLines]
        · exact h
      obtain ⟨ls', lp, hmid⟩ : ∃ ls' lp, mid = ls' ++ [lp] := by
        rcases List.eq_nil_or_concat mid with h | ⟨a, b, h⟩
        · rw [h] at hmn; simp at hmn; omega
        · exact ⟨a, b, by simpa using h⟩
      obtain ⟨bt, hbt⟩ := w7 lp ls' hmid
      rw [hsl, show n + 2 - 2 = n by omega] at hk2 ⊢
      have hfa : FieldAt lp (4 + 19 * k) (r.num n k) := by
        have := hrec.numbers n lp (by
          obtain ⟨i, rfl⟩ : ∃ i, n = i + 1 := ⟨n - 1, by omega⟩
          rw [hls, List.cons_append, List.getElem?_cons_succ, hmid]
          rw [hmid] at hmn
          simp at hmn
          rw [List.append_assoc, List.getElem?_append_right (by omega)]
          simp [hmn]) k hk2
        rwa [if_neg (by omega)] at this
      obtain ⟨hle, hwf, t, ht, hst⟩ := hfa
      refine ⟨r.num n k, hwf, rfl, t ++ NUL :: bt, ?_, stopsNumber_nul hst⟩
      rw [List.drop_drop, List.drop_append, List.length_map, List.drop_eq_nil_of_le (by simp; omega), List.nil_append,
        show 4 + 19 * k - q.length = (3 + 19 * k - q.length) + 1 by omega, List.drop_succ_cons, List.drop_drop,
        show q.length + 1 + (3 + 19 * k - q.length) = 4 + 19 * k by omega, hbt, List.drop_append_of_le_length (by simpa using hle), ← List.map_drop, ht]
      simp
  have hnulk : ∀ k < c, NUL ∈ ((q.map d2e ++ NUL :: buf.drop (q.length + 1)).drop 4).drop (19 * k) := fun k hk => by
    rw [List.drop_drop]; exact hn61'.drop (by omega)
  have hxall : (∀ k < specCount r.sys (l0 :: mid).length, ∃ v, LastNumber r q k v) → x.1 = true ∧
      ∀ k < c, ∀ v, LastNumber r q k v → x.2[k]? = some v := by
    intro hall
    rw [List.length_cons, hmn, hlast] at hall
    have : ∀ k, ∃ m : Numeral, k < c → (m.WF ∧ ∃ t, ((q.map d2e ++ NUL :: buf.drop (q.length + 1)).drop 4).drop (19 * k) = m.text ++ t ∧ stopsNumber t) := by
      intro k
      by_cases hk : k < c
      · obtain ⟨v, hv⟩ := hall k hk
        obtain ⟨m, h1, _, h3⟩ := hnum k hk v hv
        exact ⟨m, fun _ => ⟨h1, h3⟩⟩
      · exact ⟨⟨0, none, [], none, none⟩, fun h => absurd h hk⟩
    choose m hm using this
    have := char2double_fields 19 c _ m hnulk hm
    rw [hc] at this
    cases this
    refine ⟨rfl, ?_⟩
    intro k hk v hv
    obtain ⟨m', h1, rfl, t, h3, h4⟩ := hnum k hk v hv
    obtain ⟨g1', t2, g3', g4'⟩ := hm k hk
    have e1 := strtod_numeral m' h1 t h4
    have e2 := strtod_numeral (m k) g1' t2 g4'
    rw [← h3, g3', e2] at e1
    simp at e1
    simp [hk, e1.1]
  by_cases hx : x.1 = true
  · rw [if_pos hx] at hrun
    have hdl : (if r.sys = .glonass then gloScale d2 else d2).length = 31 := by
      split
      · rw [gloScale_length]; exact g1.trans w5
      · exact g1.trans w5
    have hunit : ∀ j k v, j < specLines r.sys → k < specCount r.sys j → d2[specIndex j k]? = some v →
        (if r.sys = .glonass then gloScale d2 else d2)[specIndex j k]? = some (specUnit r.sys j k * v) := by
      intro j k v hj hk hv
      by_cases hgl' : r.sys = .glonass
      · rw [if_pos hgl', gloScale_get, hv, Option.map_some, hgl']
        rw [hgl'] at hj hk
        rw [glo_unit hj hk]
      · rw [if_neg hgl', hv, specUnit, if_neg (fun h => hgl' h.1), one_mul]
    generalize hdd : (if r.sys = .glonass then gloScale d2 else d2) = dd at hrun hdl hunit
    have hvals : ∀ j, j + 1 < specLines r.sys → ∀ k < specCount r.sys j, dd[specIndex j k]? = some (r.val j k) :=
      fun j hj k hk => hunit j k _ (by omega) hk (hold j hj k hk)
    have hlastv : (∀ k < specCount r.sys (l0 :: mid).length, ∃ v, LastNumber r q k v) → (0 : Int) = 0 ∧
        ∀ k < specCount r.sys (l0 :: mid).length, ∀ v, LastNumber r q k v →
          dd[specIndex (l0 :: mid).length k]? = some (specUnit r.sys (l0 :: mid).length k * v) := by
      intro hall
      refine ⟨rfl, ?_⟩
      intro k hk v hv
      apply hunit _ _ _ (by rw [hsl, List.length_cons, hmn]; omega) hk
      rw [List.length_cons, hmn] at hk ⊢
      rw [hlast] at hk
      have hxk := (hxall hall).2 k hk v hv
      have hkl : k < x.2.length := by
        rw [List.getElem?_eq_some_iff] at hxk; exact hxk.1
      rw [show specIndex (n + 1) k = 3 + n * 4 + k by simp [specIndex]; omega, g3 k hkl, hxk]
    unfold readNextRecord
    rw [hpk]
    simp only
    unfold setFromRnx3
    rw [hrun]
    simp only [Res.bind_ok, ne_eq, not_true_eq_false, if_false]
    by_cases hh : Handled r.sys
    · obtain ⟨dt, e1, e2⟩ := toe2date_spec { f with sys := r.sys, toc := r.toc, prn := r.prn, data := dd } r rfl rfl hr.tocOk hvals hh hr.toe
      have hh' : r.sys = .gps ∨ r.sys = .glonass ∨ r.sys = .galileo ∨ r.sys = .beidou := hh
      simp only [if_pos hh', e1, Res.bind_ok, Res.pure_eq, Res.noexcept_ok]
      exact ⟨0, _, _, rfl, by simp, rfl, rfl, rfl, hdl, hend, w3, fun _ => ⟨fun _ => e2, hvals⟩, hlastv⟩
    · have hh' : ¬ (r.sys = .gps ∨ r.sys = .glonass ∨ r.sys = .galileo ∨ r.sys = .beidou) := hh
      simp only [if_neg hh', Res.pure_eq, Res.noexcept_ok]
      exact ⟨0, _, _, rfl, by simp, rfl, rfl, rfl, hdl, hend, w3, fun _ => ⟨fun h => absurd h hh, hvals⟩, hlastv⟩
  · rw [if_neg hx] at hrun
    refine ⟨8, _, _, readNextRecord_refused hpk hrun (show (8 : Int) ≠ 0 by decide), by simp, rfl, rfl, rfl, g1.trans w5, hend, w3, by simp, ?_⟩
    intro hall
    exact absurd (hxall hall).1 hx

theorem storeAt_len {d vals d' : List Rat} {off : Nat} (h : storeAt d off vals = .ok d') : d'.length = d.length := (storeAt_get h).1

/-- **C84**.  A file that ends within the first line of a record (its newline not counted): if the call returns, the status is not 0
and the file has been read to its end.  (What the date parser makes of the truncated date is its own affair; an exception of
it ends the program, see C75_bad_date_kills.) -/
theorem C84_cut_first (dateOf : List Char → Res DateTime) (junk : List Char) (f : NavFrame) (s : Stream) {r : NavItem} (hr : r.WF dateOf)
    {rest : List (List Char)} {l p : List Char} (hls : r.lines = l :: rest) (hp : p <+: l) (hne : p ≠ [])
    (hg : s.good = true) (hrest : s.rest = p) (hlen : f.data.length = 31) {o : NavOut} (h : readNextRecord dateOf junk f s 0 = .ok o) :
    o.status ≠ 0 ∧ o.errno = 0 ∧ o.frame.data.length = 31 ∧ AtEnd o.strm ∧ o.strm.content = s.content := by
  have hrec := hr.record
  have hlok := hrec.fits l (by rw [hls]; simp)
  have hq1 : '\n' ∉ p := fun h => hlok.1 (hp.subset h)
  have hq2 : p.length ≤ 127 := hp.length_le.trans hlok.2.2
  have hst : o.status ≠ 0 := by
    intro h0
    obtain ⟨hm, _, ls, l', tl, e1, e2, _⟩ := C84_lines_present _ _ _ _ _ _ h h0
    have : 2 ≤ ls.length + 1 := by rw [e1]; revert hm; cases o.frame.sys <;> simp [specLines]
    cases ls with
    | nil => simp at this
    | cons a b => apply hq1; rw [← hrest, e2, linesText_cons]; simp
  refine ⟨hst, ?_⟩
  obtain ⟨c, cs, hc⟩ : ∃ c cs, p = c :: cs := by cases p with | nil => exact absurd rfl hne | cons a b => exact ⟨a, b, rfl⟩
  have hhead : c = satsysToChar r.sys := by
    have := hrec.letter l (by rw [hls]; rfl)
    obtain ⟨t, ht⟩ := hp
    rw [← ht, hc] at this; simpa using this
  unfold readNextRecord at h
  rw [Stream.peek_cons hg (by rw [hrest, hc])] at h
  simp only at h
  unfold setFromRnx3 at h
  rw [Res.noexcept_eq_ok, Res.bind_eq_ok] at h
  obtain ⟨o1, ho1, h⟩ := h
  have : o = o1 := by
    split at h
    · simp at h; exact h.symm
    · rename_i hz
      exfalso
      split at h
      · rw [Res.bind_eq_ok] at h
        obtain ⟨_, _, h⟩ := h
        simp at h; rw [← h] at hst; exact hst (by simpa using hz)
      · simp at h; rw [← h] at hst; exact hst (by simpa using hz)
  subst this
  clear h
  have hgl := Stream.getline_last (n := MAX_RECORD_CHARS) hg hrest hq1 (by simpa [MAX_RECORD_CHARS] using hq2)
  have hpe : p.isEmpty = false := by rw [hc]; rfl
  have hend := AtEnd.last hrest false
  rw [hpe] at hgl
  unfold readBlock at ho1
  simp only [hgl, Bool.false_eq_true, if_false] at ho1
  simp only [Res.bind_eq_ok] at ho1
  obtain ⟨c', hc', sys, hsys, _, _, toc, _, pr, _, h⟩ := ho1
  have : c' = c := by rw [hc] at hc'; simp [getAt, fillLine] at hc'; exact hc'.symm
  rw [this, hhead, charToSatsys_toChar] at hsys
  cases hsys
  by_cases he : toInt32 (strtolVal pr) = 0 ∨ (if strtolErr pr = true then ERANGE else 0) = ERANGE
  · rw [if_pos he] at h
    simp at h; subst h
    exact ⟨rfl, hlen, hend, rfl⟩
  · rw [if_neg he] at h
    have he0 : (if strtolErr pr = true then ERANGE else 0) = 0 := by
      by_cases h' : strtolErr pr = true
      · exact absurd (Or.inr (if_pos h')) he
      · exact if_neg h'
    rw [he0] at h
    simp only [Res.bind_eq_ok] at h
    obtain ⟨tl, _, x, _, d, hd, h⟩ := h
    have hdl := (storeAt_len hd).trans hlen
    split at h
    · simp at h; subst h
      exact ⟨rfl, hdl, hend, rfl⟩
    · obtain ⟨n, cc, hlps, hsl, -, -, -, -⟩ := layout r.sys hrec.notMixed
      have hn1 : ∃ m, n = m + 1 := by
        rcases Nat.eq_zero_or_pos n with h | h
        · exfalso; rw [h] at hsl; revert hsl; cases r.sys <;> simp [specLines]
        · exact ⟨n - 1, by omega⟩
      obtain ⟨m, rfl⟩ := hn1
      rw [hlps] at h
      simp only at h
      rw [if_neg (by omega), show (((m + 1 : Nat) : Int) + 2 - 1 - 1).toNat = m + 1 by omega] at h
      rw [orbitLines, getline_eof rfl] at h
      simp at h; subst h
      exact ⟨rfl, hdl, ⟨hend.1, Or.inl rfl⟩, rfl⟩

/-- **C84**, after the end: every further call returns -1 and leaves the frame alone. -/
theorem C84_after (dateOf : List Char → Res DateTime) (junk : Nat → List Char) (f : NavFrame) (errno : Int) (n : Nat) :
    ∀ (s : Stream), AtEnd s → ∃ s', navReads dateOf junk n f s errno = .ok (List.replicate n (-1, f), s') ∧ AtEnd s' ∧ s'.content = s.content := by
  induction n with
  | zero => intro s h; exact ⟨s, rfl, h, rfl⟩
  | succ n ih =>
    intro s h
    have hstep : ∃ s1, readNextRecord dateOf (junk n) f s errno = .ok ⟨-1, f, s1, errno⟩ ∧ AtEnd s1 ∧ s1.content = s.content := by
      by_cases hg : s.good = true
      · exact ⟨s, C55_read_eof dateOf _ f s errno hg h.1, h, rfl⟩
      · have he := h.2.resolve_right hg
        refine ⟨({ s with fail := true } : Stream).clear, ?_, AtEnd.clear (s := { s with fail := true }) ⟨h.1, Or.inl he⟩, rfl⟩
        have hpk : s.peek = (none, { s with fail := true }) := by unfold Stream.peek; rw [if_neg hg]
        unfold readNextRecord
        rw [hpk]
        simp [he]
    obtain ⟨s1, a, b, c⟩ := hstep
    obtain ⟨s', a', b', c'⟩ := ih s1 b
    refine ⟨s', ?_, b', c'.trans c⟩
    unfold navReads
    rw [a, Res.bind_ok, a', Res.bind_ok]
    rfl

/-- **C84**.  One call on a record of which only a beginning is in the file. -/
theorem cut_record (dateOf : List Char → Res DateTime) (junk : List Char) (f : NavFrame) (s : Stream) {r : NavItem} (hr : r.WF dateOf)
    (hp : s.rest <+: r.text) (hne : s.rest ≠ []) (hnall : s.rest ≠ r.text) (hg : s.good = true) (hlen : f.data.length = 31) :
    (∃ st g s', readNextRecord dateOf junk f s 0 = .ok ⟨st, g, s', 0⟩ ∧ CutStatus r s.rest st ∧ g.data.length = 31 ∧ AtEnd s' ∧ s'.content = s.content) ∨
      ((∀ o, readNextRecord dateOf junk f s 0 ≠ .ok o) ∧ ∀ l, r.lines.head? = some l → s.rest <+: l) := by
  obtain ⟨pre, l, rest, q, e1, e2, e3⟩ := cut_lines hp hnall
  cases pre with
  | nil =>
    have e2' : s.rest = q := by simpa [linesText] using e2
    cases h : readNextRecord dateOf junk f s 0 with
    | ok o =>
      left
      obtain ⟨h1, h2, h3, h4, h5⟩ := C84_cut_first dateOf junk f s hr (rest := rest) (l := l) (by simpa using e1) e3 (by rw [← e2']; exact hne) hg e2' hlen h
      refine ⟨o.status, o.frame, o.strm, ?_, Or.inl h1, h3, h4, h5⟩
      cases o; simp at h2; subst h2; rfl
    | throw e => right; exact ⟨by simp, fun l' hl' => by rw [e1] at hl'; simp at hl'; subst hl'; rw [e2']; exact e3⟩
    | ub => right; exact ⟨by simp, fun l' hl' => by rw [e1] at hl'; simp at hl'; subst hl'; rw [e2']; exact e3⟩
    | terminate => right; exact ⟨by simp, fun l' hl' => by rw [e1] at hl'; simp at hl'; subst hl'; rw [e2']; exact e3⟩
    | diverge => right; exact ⟨by simp, fun l' hl' => by rw [e1] at hl'; simp at hl'; subst hl'; rw [e2']; exact e3⟩
  | cons a b =>
    left
    by_cases hl : rest = [] ∧ q ≠ []
    · obtain ⟨rfl, hq⟩ := hl
      obtain ⟨st, g, s', h1, h2, _, _, _, h3, h4, h5, _⟩ := C84_cut_last dateOf junk f s hr (pre := a :: b) e1 e3 hq hg e2 hlen
      exact ⟨st, g, s', h1, Or.inr ⟨_, _, _, e1, e3, hq, e2⟩, h3, h4, h5⟩
    · obtain ⟨st, g, s', h1, h2, _, _, _, h3, h4, h5⟩ := C84_cut_middle dateOf junk f s hr (pre := a :: b) e1 (by simp) e3 (by tauto) hg e2 hlen
      exact ⟨st, g, s', h1, Or.inl (by rintro rfl; simp at h2), h3, h4, h5⟩

/-- Where a prefix of a file of records ends: after `m` whole records, and then nothing or a proper,
non-empty beginning of the next record. -/
theorem cut_split : ∀ (rs : List NavItem) (t : List Char), t <+: fileText rs →
    ∃ (m : Nat) (p : List Char), m ≤ rs.length ∧ t = fileText (rs.take m) ++ p ∧
      (p = [] ∨ ∃ r, rs[m]? = some r ∧ p ≠ [] ∧ p <+: r.text ∧ p ≠ r.text) := by
  intro rs
  induction rs with
  | nil =>
    intro t hp
    exact ⟨0, [], by simp, by simpa [fileText] using hp, Or.inl rfl⟩
  | cons r rs ih =>
    intro t hp
    rw [fileText_cons] at hp
    by_cases hcut : t <+: r.text ∧ t ≠ r.text
    · obtain ⟨h1, h2⟩ := hcut
      refine ⟨0, t, by simp, by simp [fileText], ?_⟩
      by_cases hne : t = []
      · exact Or.inl hne
      · exact Or.inr ⟨r, by simp, hne, h1, h2⟩
    · have hfull : ∃ u, t = r.text ++ u ∧ u <+: fileText rs := by
        rcases List.prefix_or_prefix_of_prefix hp (List.prefix_append r.text (fileText rs)) with h | h
        · have : t = r.text := by by_contra hc; exact hcut ⟨h, hc⟩
          exact ⟨[], by simpa using this, by simp⟩
        · obtain ⟨u, ht⟩ := h
          refine ⟨u, ht.symm, ?_⟩
          rw [← ht] at hp
          exact (List.prefix_append_right_inj _).1 hp
      obtain ⟨u, hu, hpu⟩ := hfull
      obtain ⟨m, p, h1, h2, h3⟩ := ih u hpu
      exact ⟨m + 1, p, by simpa using h1, by rw [hu, h2]; simp [fileText_cons], by simpa using h3⟩

/-- The `m` whole records first, then whatever the calls after them give. -/
theorem reads_then (dateOf : List Char → Res DateTime) (junk : Nat → List Char) (p : List Char) :
    ∀ (rs : List NavItem) (n : Nat) (f : NavFrame) (s : Stream), s.good = true → s.rest = fileText rs ++ p → f.data.length = 31 →
    (∀ r ∈ rs, r.WF dateOf) →
    ∃ (out : List (Int × NavFrame)) (g : NavFrame), List.Forall₂ (fun r x => x.1 = 0 ∧ Carries x.2 r) rs out ∧
      g = (out.getLast?.map Prod.snd).getD f ∧ g.data.length = 31 ∧
      navReads dateOf junk (rs.length + n) f s 0 =
        (navReads dateOf junk n g (s.adv (fileText rs).length) 0 >>= fun r => .ok (out ++ r.1, r.2)) := by
  intro rs
  induction rs with
  | nil =>
    intro n f s _ _ hl _
    refine ⟨[], f, .nil, rfl, hl, ?_⟩
    have : s.adv (fileText []).length = s := by simp [fileText, Stream.adv]
    rw [this, List.length_nil, Nat.zero_add]
    cases navReads dateOf junk n f s 0 <;> rfl
  | cons r rs ih =>
    intro n f s hg hr hl hw
    obtain ⟨g, h1, h2, _⟩ := C17_record dateOf (junk (rs.length + n)) f s r (fileText rs ++ p) (hw r (by simp)) hg
      (by rw [hr, fileText_cons, List.append_assoc]) hl
    have hr' : (s.adv r.text.length).rest = fileText rs ++ p := Stream.adv_rest_append (by rw [hr, fileText_cons, List.append_assoc])
    obtain ⟨out, g', e1, e2, e3, e4⟩ := ih n g (s.adv r.text.length) hg hr' h2.len (fun x hx => hw x (by simp [hx]))
    refine ⟨(0, g) :: out, g', .cons ⟨rfl, h2⟩ e1, ?_, e3, ?_⟩
    · rw [e2]
      cases out with
      | nil => simp
      | cons a l => simp [List.getLast?_cons]
    · rw [show (r :: rs).length + n = rs.length + n + 1 by simp; omega, navReads, h1, Res.bind_ok, e4]
      have : (s.adv r.text.length).adv (fileText rs).length = s.adv (fileText (r :: rs)).length := by
        rw [fileText_cons]; simp [Stream.adv, Nat.add_assoc]
      rw [this]
      cases navReads dateOf junk n g' (s.adv (fileText (r :: rs)).length) 0 <;> rfl

/-- **C84**.  The remaining text of the file is any beginning of the text of well formed records.  Then there is a number `m` of complete
records, delivered by the first `m` calls with status 0; the file ends after them and all further calls return -1, or record
`m` is cut: the next call returns with a status (0 only when the file ends within the last line) and all
further calls return -1, or it does not return, which happens only when the file ends within the first line. -/
theorem C84_sequence (dateOf : List Char → Res DateTime) (k : Nat)
    (rs : List NavItem) (junk : Nat → List Char) (f : NavFrame) (s : Stream) (hg : s.good = true) (hp : s.rest <+: fileText rs)
    (hl : f.data.length = 31) (hw : ∀ r ∈ rs, r.WF dateOf) :
    ∃ (m : Nat) (p : List Char) (out : List (Int × NavFrame)), m ≤ rs.length ∧ s.rest = fileText (rs.take m) ++ p ∧
      List.Forall₂ (fun r x => x.1 = 0 ∧ Carries x.2 r) (rs.take m) out ∧
      ((p = [] ∧ ∃ s', navReads dateOf junk (m + k) f s 0 = .ok (out ++ List.replicate k (-1, (out.getLast?.map Prod.snd).getD f), s') ∧ AtEnd s') ∨
       ∃ r, rs[m]? = some r ∧ p ≠ [] ∧ p <+: r.text ∧ p ≠ r.text ∧
        ((∃ st g s', navReads dateOf junk (m + 1 + k) f s 0 = .ok (out ++ (st, g) :: List.replicate k (-1, g), s') ∧ CutStatus r p st ∧ AtEnd s') ∨
          ((∀ x, navReads dateOf junk (m + 1 + k) f s 0 ≠ .ok x) ∧ ∀ l, r.lines.head? = some l → p <+: l))) := by
  obtain ⟨m, p, hm, hs, hcase⟩ := cut_split rs s.rest hp
  have hwm : ∀ r ∈ rs.take m, r.WF dateOf := fun r hr => hw r (List.mem_of_mem_take hr)
  have hlen : (rs.take m).length = m := by simp [hm]
  have hrest : (s.adv (fileText (rs.take m)).length).rest = p := Stream.adv_rest_append hs
  have hg' : (s.adv (fileText (rs.take m)).length).good = true := hg
  rcases hcase with rfl | ⟨r, hr, hne, h1, h2⟩
  · obtain ⟨out, g, e1, e2, _, e4⟩ := reads_then dateOf junk [] (rs.take m) k f s hg hs hl hwm
    rw [hlen] at e4
    obtain ⟨s', g1, g2, _⟩ := C84_after dateOf junk g 0 k _ ⟨hrest, Or.inr hg'⟩
    refine ⟨m, [], out, hm, hs, e1, Or.inl ⟨rfl, s', ?_, g2⟩⟩
    rw [e4, g1, Res.bind_ok, e2]
  · obtain ⟨out, g, e1, e2, e3, e4⟩ := reads_then dateOf junk p (rs.take m) (1 + k) f s hg hs hl hwm
    rw [hlen, ← Nat.add_assoc] at e4
    refine ⟨m, p, out, hm, hs, e1, Or.inr ⟨r, hr, hne, h1, h2, ?_⟩⟩
    have hmem : r ∈ rs := List.mem_of_getElem? hr
    rcases cut_record dateOf (junk k) g _ (hw r hmem) (by rw [hrest]; exact h1) (by rw [hrest]; exact hne) (by rw [hrest]; exact h2) hg' e3 with ⟨st, g', s1, a, b, c, d, _⟩ | ⟨a, b⟩
    · left
      obtain ⟨s', g1, g2, _⟩ := C84_after dateOf junk g' 0 k s1 d
      rw [hrest] at b
      refine ⟨st, g', s', ?_, b, g2⟩
      rw [e4, show 1 + k = k + 1 by omega, navReads, a, Res.bind_ok, g1, Res.bind_ok]
      rfl
    · right
      rw [hrest] at b
      refine ⟨?_, b⟩
      intro x hx
      rw [e4, show 1 + k = k + 1 by omega, Res.bind_eq_ok] at hx
      obtain ⟨y, hy, _⟩ := hx
      rw [navReads, Res.bind_eq_ok] at hy
      obtain ⟨o, ho, _⟩ := hy
      exact a o ho

/-! ## Skipping a record that is not all there -/

/-- **C84**, `ignore_next_block` on a record of which the file holds only a beginning (not the newline of its last line, nothing after it):
it succeeds exactly when the file ends within the last line; otherwise it returns 2.  In either case the file has been read
to its end. -/
theorem C84_skip {sys : SatSys} {pre rest : List (List Char)} {l q : List Char} (hb : IsBlock sys (pre ++ l :: rest)) (hq : q <+: l) (s : Stream)
    (hg : s.good = true) (hrest : s.rest = linesText pre ++ q) (hne : s.rest ≠ []) :
    ∃ s', ignoreNextBlock s = ((if rest = [] ∧ q ≠ [] then 0 else 2), s') ∧ AtEnd s' ∧ s'.content = s.content := by
  have hlok := hb.fits l (by simp)
  have hq1 : '\n' ∉ q := fun h => hlok.1 (hq.subset h)
  have hq2 : q.length ≤ 127 := hq.length_le.trans hlok.2.2
  have hhead : ∃ tl, s.rest = satsysToChar sys :: tl := by
    cases pre with
    | nil =>
      have h := hb.letter l rfl
      have e : s.rest = q := by simpa [linesText] using hrest
      cases q with
      | nil => exact absurd e hne
      | cons a q' =>
        obtain ⟨t, ht⟩ := hq
        rw [← ht] at h; simp at h; subst h
        exact ⟨_, e⟩
    | cons a pre =>
      have h := hb.letter a rfl
      cases a with
      | nil => simp at h
      | cons c a =>
        simp at h; subst h
        exact ⟨_, by rw [hrest, linesText_cons]; rfl⟩
  obtain ⟨tl, htl⟩ := hhead
  have hff : peekedEof (some (satsysToChar sys)) = false := by cases sys <;> rfl
  have hsk := skipLines_text pre q s hg hrest (fun x hx => hb.fits x (by simp [hx]))
  have hr1 : (s.adv (linesText pre).length).rest = q := Stream.adv_rest_append hrest
  have hg1 : (s.adv (linesText pre).length).good = true := hg
  have hcount : (linesPerSatsys sys).1.toNat = pre.length + (rest.length + 1) := by
    rw [lines_eq_spec hb.notMixed, ← hb.count]; simp
  have key : ∃ s', skipLines (pre.length + (rest.length + 1)) s = (decide (rest = [] ∧ q ≠ []), s') ∧ AtEnd s' ∧ s'.content = s.content := by
    rw [skipLines_add _ _ _ _ hsk]
    rw [skipLines]
    rw [Stream.getline_last (s := s.adv (linesText pre).length) (l := q) (n := MAX_RECORD_CHARS) hg1 hr1 hq1 (by simp [MAX_RECORD_CHARS]; omega)]
    have hend := AtEnd.last (s := s.adv (linesText pre).length) hr1 q.isEmpty
    by_cases hq0 : q = []
    · subst hq0
      exact ⟨_, by simp, hend, rfl⟩
    · have hem : q.isEmpty = false := by simpa using hq0
      rw [hem] at hend ⊢
      simp only [Bool.false_eq_true, if_false]
      cases rest with
      | nil => exact ⟨_, by simp [skipLines, hq0], hend, rfl⟩
      | cons a b =>
        simp only [List.length_cons, skipLines, getline_eof]
        exact ⟨{ s.adv (linesText pre).length with pos := (s.adv (linesText pre).length).pos + q.length, eof := true, fail := true }, by simp, ⟨hend.1, Or.inl rfl⟩, rfl⟩
  obtain ⟨s', k1, k2, k3⟩ := key
  refine ⟨s', ?_, k2, k3⟩
  unfold ignoreNextBlock
  simp only [Stream.peek_cons hg htl, hff, Bool.false_eq_true, if_false, Option.getD_some, charToSatsys_toChar]
  rw [hcount, k1]
  by_cases hc : rest = [] ∧ q ≠ [] <;> simp [hc]

/-- **C84**, `ignore_next_block`, any bytes: 0 only when all lines of a record of the system named by the next
char are there (the last one possibly without its end), 1 exactly when the next char names no system. -/
theorem C84_skip_any (s : Stream) (hg : s.good = true) {c : Char} {tl : List Char} (hr : s.rest = c :: tl) (hc : c ≠ '\xff') :
    ((∀ sys, c ≠ satsysToChar sys) → ignoreNextBlock s = (1, s)) ∧
    ∀ sys, c = satsysToChar sys → sys ≠ .mixed →
      (StartsWithLines (specLines sys) s.rest ∧ (ignoreNextBlock s).1 = 0) ∨ (ignoreNextBlock s).1 = 2 := by
  have hff : peekedEof (some c) = false := by simp [peekedEof, hc]
  constructor
  · intro h
    unfold ignoreNextBlock
    simp only [Stream.peek_cons hg hr, hff, Bool.false_eq_true, if_false, Option.getD_some]
    rcases C01_total c with ⟨s', e1, e2⟩ | ⟨e1, _⟩
    · exact absurd e2.symm (h s')
    · rw [e1]
  · rintro sys rfl hm
    unfold ignoreNextBlock
    simp only [Stream.peek_cons hg hr, hff, Bool.false_eq_true, if_false, Option.getD_some, charToSatsys_toChar, lines_eq_spec hm]
    obtain ⟨n, hn⟩ : ∃ n, specLines sys = n + 1 := by cases sys <;> first | exact ⟨_, rfl⟩ | exact absurd rfl hm
    rw [hn]
    cases hsk : skipLines (n + 1) s with
    | mk b s' =>
      cases b with
      | true =>
        obtain ⟨ls, l, tl, e1, e2, e3, e4, e5⟩ := skipLines_inv _ _ _ hsk
        exact Or.inl ⟨⟨ls, l, tl, by omega, e2, e3, e4, e5⟩, by simp⟩
      | false => exact Or.inr (by simp)

end Ggnss
