import Verif.Model.ObsHead
import Verif.Spec.ObsHead
import Verif.Props.ObsEpoch
import Verif.Props.Obs
import Verif.Props.NavHead
/-!
# C41: the lists of observation types of a header
-/
namespace Ggnss

theorem obsLabel_eq (buf pat : List Char) : obsLabel buf pat = atxLabel buf pat := rfl

theorem obsLabel_line {l buf pat : List Char} (hl : NUL ∉ l) (h60 : 60 ≤ l.length) (hp : IsCStr pat) :
    obsLabel (fillLine buf l) pat = .ok (decide (HasLabel l pat)) := by
  rw [obsLabel_eq]; exact atxLabel_line hl h60 hp

theorem parse_shown {c : ObsCode} (h : CodeOK c) {txt : List Char} (ht : txt.take 3 = c.toStr) : ObsCode.parse txt = .ok c := by
  have h1 := C03_code_roundtrip c h.type h.band h.attr
  have e : txt = c.toStr ++ txt.drop 3 := by rw [← ht, List.take_append_drop]
  rw [e]
  rw [C03_parse_iff] at h1 ⊢
  obtain ⟨t, b, rest, e1, e2, e3, e4⟩ := h1
  rw [e1]
  refine ⟨t, b, rest ++ txt.drop 3, rfl, e2, e3, ?_⟩
  have : rest = [c.attr] := by
    unfold ObsCode.toStr at e1
    injection e1 with _ e1; injection e1 with _ e1; exact e1.symm
  rw [this]
  have := h.attr
  simp

theorem TypesEntry.Shows.parse {e : TypesEntry} (h : e.Shows) {i : Nat} {c : ObsCode} (hc : e.codes[i]? = some c)
    {l : List Char} (hl : e.lines[i / 13]? = some l) (junk : List Char) :
    ∃ txt, cstrOf ((fillLine junk l).drop (7 + (i % 13) * 4)) = .ok txt ∧ ObsCode.parse txt = .ok c := by
  have hm : l ∈ e.lines := List.mem_of_getElem? hl
  obtain ⟨hf, hlab⟩ := h.labelled l hm
  have h60 := hlab.long (by decide)
  have hlt := Nat.mod_lt i (show 13 > 0 by decide)
  obtain ⟨l', hl', hs⟩ := h.shown i c hc
  obtain rfl : l = l' := by rw [hl] at hl'; exact Option.some.inj hl'
  refine ⟨l.drop (7 + (i % 13) * 4), ?_, parse_shown (h.codesOK c (List.mem_of_getElem? hc)) ?_⟩
  · unfold fillLine
    rw [drop_line (by omega)]
    exact cstrOf_append (fun hx => hf.2.1 (List.mem_of_mem_drop hx)) _
  · rw [show (i % 13) * 4 = 4 * (i % 13) by omega]; exact hs

/-- From code `i` to code `i + k`: as long as the next line belongs to the entry, the loop goes on
there. -/
theorem obsTypesLoop_run {e : TypesEntry} (h : e.Shows) : ∀ (k i n : Nat) (junk l : List Char) (s : Stream) (t : List Char),
    i + k ≤ e.codes.length → (i + k) / 13 < e.lines.length → e.lines[i / 13]? = some l → s.good = true →
    s.rest = linesText (e.lines.drop (i / 13 + 1)) ++ t →
    ∃ junk' l', e.lines[(i + k) / 13]? = some l' ∧
      obsTypesLoop (n + k) (i % 13) (fillLine junk l) (e.codes.take i) s =
        obsTypesLoop n ((i + k) % 13) (fillLine junk' l') (e.codes.take (i + k)) (s.past ((e.lines.drop (i / 13 + 1)).take ((i + k) / 13 - i / 13))) := by
  intro k
  induction k with
  | zero =>
    intro i n junk l s t _ _ hl _ _
    refine ⟨junk, l, hl, ?_⟩
    simp [Stream.past_nil]
  | succ k ih =>
    intro i n junk l s t hle hlt hl hg hr
    obtain ⟨c, hc⟩ : ∃ c, e.codes[i]? = some c := ⟨_, List.getElem?_eq_getElem (by omega)⟩
    obtain ⟨txt, h1, h2⟩ := h.parse hc hl junk
    have htk : e.codes.take i ++ [c] = e.codes.take (i + 1) := by rw [List.take_add_one, hc]; rfl
    rw [show n + (k + 1) = (n + k) + 1 by omega, show i + (k + 1) = (i + 1) + k by omega] at *
    by_cases h13 : i % 13 + 1 = 13
    · have hq : (i + 1) / 13 = i / 13 + 1 := by omega
      have hq0 : (i + 1) % 13 = 0 := by omega
      have hmono : (i + 1) / 13 ≤ (i + 1 + k) / 13 := Nat.div_le_div_right (by omega)
      obtain ⟨l2, hl2⟩ : ∃ l2, e.lines[(i + 1) / 13]? = some l2 := ⟨_, List.getElem?_eq_getElem (by omega)⟩
      have hd : e.lines.drop (i / 13 + 1) = l2 :: e.lines.drop ((i + 1) / 13 + 1) := by
        rw [hq] at hl2 ⊢
        obtain ⟨hx, hy⟩ := List.getElem?_eq_some_iff.1 hl2
        rw [List.drop_eq_getElem_cons hx, hy]
      have hlab := h.labelled l2 (List.mem_of_getElem? hl2)
      have h60 := hlab.2.long (by decide)
      rw [hd] at hr
      obtain ⟨junk', l', e1, e2⟩ := ih (i + 1) n (fillLine junk l) l2 (s.past [l2]) t hle hlt hl2 hg (rest_cons hr)
      refine ⟨junk', l', e1, ?_⟩
      have : (i + 1 + k) / 13 - i / 13 = ((i + 1 + k) / 13 - (i + 1) / 13) + 1 := by omega
      rw [hd, this, List.take_succ_cons]
      rw [Stream.past_past] at e2
      rw [show [l2] ++ _ = _ from rfl] at e2
      rw [← List.singleton_append (x := l2), ← e2, hq0]
      rw [obsTypesLoop, h1, Res.bind_ok]
      simp only [h2, if_pos h13]
      rw [getline_past (n := OBS_HEADER_CHARS) hg hr hlab.1.1 hlab.1.2.2]
      simp only [obsLabel_line hlab.1.2.1 (Nat.le_of_lt h60) (by decide : IsCStr c!"SYS / # / OBS TYPES"), decide_eq_true hlab.2, Res.bind_ok,
        if_true, htk]
    · have hq : (i + 1) / 13 = i / 13 := by omega
      have hq1 : (i + 1) % 13 = i % 13 + 1 := by omega
      obtain ⟨junk', l', e1, e2⟩ := ih (i + 1) n junk l s t hle hlt (by rw [hq]; exact hl) hg (by rw [hq]; exact hr)
      refine ⟨junk', l', e1, ?_⟩
      rw [hq, hq1] at e2
      rw [← e2, obsTypesLoop, h1, Res.bind_ok]
      simp only [h2, if_neg h13, htk]

/-- All codes but the last one of a full line have been read and one pass is left. -/
theorem obsTypesLoop_end {e : TypesEntry} (h : e.Shows) {l : List Char} {ls : List (List Char)} (hls : e.lines = l :: ls)
    (junk : List Char) {s : Stream} {t : List Char} (hg : s.good = true) (hr : s.rest = linesText ls ++ t) (hn : e.codes ≠ []) :
    (e.codes.length % 13 ≠ 0 → obsTypesLoop e.codes.length 0 (fillLine junk l) [] s = .ok (.inr e.codes, s.past ls)) ∧
    (e.codes.length % 13 = 0 → ∀ x t', LineFits 84 x → 60 ≤ x.length → t = x ++ '\n' :: t' →
      obsTypesLoop e.codes.length 0 (fillLine junk l) [] s =
        if HasLabel x c!"SYS / # / OBS TYPES" then .ok (.inr e.codes, s.past (ls ++ [x])) else .ok (.inl 4, s.past (ls ++ [x]))) := by
  have hpos : 0 < e.codes.length := List.length_pos_iff.2 hn
  have hcount := h.count
  have hl0 : e.lines[0 / 13]? = some l := by rw [hls]; rfl
  have hd : e.lines.drop (0 / 13 + 1) = ls := by rw [hls]; rfl
  have hlen : e.lines.length = ls.length + 1 := by rw [hls]; rfl
  constructor
  · intro h13
    obtain ⟨junk', l', e1, e2⟩ := obsTypesLoop_run h e.codes.length 0 0 junk l s t (by omega) (by omega) hl0 hg (by rw [hd]; exact hr)
    rw [hd] at e2
    simp only [Nat.zero_add, List.take_zero, List.take_length, Nat.zero_mod, Nat.zero_div, Nat.sub_zero] at e2
    rw [e2, obsTypesLoop, List.take_of_length_le (by omega)]
  · intro h13 x t' hx h60 ht
    obtain ⟨junk', l', e1, e2⟩ := obsTypesLoop_run h (e.codes.length - 1) 0 1 junk l s t (by omega) (by omega) hl0 hg (by rw [hd]; exact hr)
    rw [hd] at e2
    simp only [Nat.zero_add, List.take_zero, Nat.zero_mod, Nat.zero_div, Nat.sub_zero] at e2 e1
    rw [show 1 + (e.codes.length - 1) = e.codes.length by omega, show (e.codes.length - 1) % 13 = 12 by omega,
      List.take_of_length_le (l := ls) (by omega)] at e2
    rw [e2]
    obtain ⟨c, hc⟩ : ∃ c, e.codes[e.codes.length - 1]? = some c := ⟨_, List.getElem?_eq_getElem (by omega)⟩
    obtain ⟨txt, h1, h2⟩ := h.parse hc e1 junk'
    rw [show (e.codes.length - 1) % 13 = 12 by omega] at h1
    have htk : e.codes.take (e.codes.length - 1) ++ [c] = e.codes := by
      have : e.codes.take (e.codes.length - 1 + 1) = e.codes := List.take_of_length_le (by omega)
      rw [List.take_add_one, hc] at this
      exact this
    have hr2 : (s.past ls).rest = linesText [x] ++ t' := by
      rw [Stream.past_rest hr, ht, linesText_one]; simp
    rw [obsTypesLoop, h1, Res.bind_ok]
    simp only [h2]
    rw [if_pos trivial, getline_past (n := OBS_HEADER_CHARS) (Stream.past_good _ _ hg) hr2 hx.1 hx.2.2]
    simp only [obsLabel_line hx.2.1 h60 (by decide : IsCStr c!"SYS / # / OBS TYPES"), Res.bind_ok]
    by_cases hL : HasLabel x c!"SYS / # / OBS TYPES"
    · simp only [decide_eq_true hL, if_true, if_pos hL, obsTypesLoop, htk, Stream.past_past]
    · simp only [decide_eq_false hL, Bool.false_eq_true, if_false, if_neg hL, Res.pure_eq, Stream.past_past]

theorem sysRank_inj {a b : SatSys} (h : sysRank a = sysRank b) : a = b := by
  cases a <;> cases b <;> first | rfl | cases h

theorem lookup_obsInsert (sys : SatSys) (v : List ObsCode) : ∀ (m : ObsTypes), m.lookup sys = none → ∀ q,
    (obsInsert sys v m).lookup q = if q = sys then some v else m.lookup q := by
  intro m
  induction m with
  | nil =>
    intro _ q
    simp only [obsInsert, List.lookup_cons, List.lookup_nil]
    by_cases h : q = sys
    · simp [h]
    · rw [beq_false_of_ne h, if_neg h]
  | cons e m ih =>
    intro hn q
    rw [List.lookup_cons] at hn
    have he : (sys == e.1) = false := by
      cases h : sys == e.1 with
      | true => rw [h] at hn; cases hn
      | false => rfl
    rw [he] at hn
    unfold obsInsert
    split
    · rw [List.lookup_cons]
      by_cases h : q = sys
      · simp [h]
      · rw [beq_false_of_ne h, if_neg h]
    · rw [List.lookup_cons, List.lookup_cons, ih hn]
      cases h : q == e.1 with
      | true =>
        have hq : q = e.1 := by simpa using h
        have : q ≠ sys := by rw [hq]; rintro rfl; simp at he
        simp [this]
      | false => rfl

theorem obsTypesResolve_abs {line r : List Char} {obst : ObsTypes} {c : Char} {sys : SatSys} {w : Int} {n : Nat} (s : Stream)
    (h0 : getAt line 0 = .ok c) (hs : charToSatsys c = .ok sys) (hnew : obst.lookup sys = none)
    (hstr : strtolA (line.drop 3) = .ok (some (w, r, false))) (h32 : toInt32 w = w) (hw : w = (n : Int)) (hn : 0 < n) :
    obsTypesResolve false line obst s = Res.noexcept (do
      match ← obsTypesLoop n 0 line [] s with
      | (.inl x, s) => pure (x, obst, s)
      | (.inr v, s) => if v.length = n then pure (0, obsInsert sys v obst, s) else pure (9, obst, s)) := by
  have hm : max 1 w.toNat = n := by omega
  unfold obsTypesResolve
  rw [h0, Res.bind_ok, hs, Res.bind_ok, hnew]
  simp only [Option.isSome_none, Bool.false_eq_true, if_false, hstr, Res.bind_ok, strtolVal, strtolErr, reduceCtorEq, or_self, h32, hm]
  congr 1
  congr 1
  funext q
  obtain ⟨a, b⟩ := q
  cases a with
  | inl x => rfl
  | inr v =>
    by_cases hv : v.length = n
    · have : (v.length : Int) = w := by omega
      simp only [this, if_true, if_pos hv]
    · have : ¬ ((v.length : Int) = w) := by omega
      simp only [this, if_false, if_neg hv]

/-- The entry's header part: everything before the loop. -/
theorem obsTypesResolve_start {e : TypesEntry} (h : e.Shows) {l : List Char} {ls : List (List Char)} (hls : e.lines = l :: ls)
    (junk : List Char) {obst : ObsTypes} (hnew : obst.lookup e.sys = none) (s : Stream) (hn : e.codes ≠ []) :
    obsTypesResolve false (fillLine junk l) obst s = Res.noexcept (do
      match ← obsTypesLoop e.codes.length 0 (fillLine junk l) [] s with
      | (.inl x, s) => pure (x, obst, s)
      | (.inr v, s) => if v.length = e.codes.length then pure (0, obsInsert e.sys v obst, s) else pure (9, obst, s)) := by
  have hlab := h.labelled l (by rw [hls]; simp)
  have h60 := hlab.2.long (by decide)
  have h0 := h.letter l (by rw [hls]; rfl)
  obtain ⟨hnum, h6⟩ := h.number l (by rw [hls]; rfl)
  have hpos : 0 < e.codes.length := List.length_pos_iff.2 hn
  have hstr : strtolA ((fillLine junk l).drop 3) = .ok (some ((e.codes.length : Int), l.drop 6 ++ NUL :: junk.drop (l.length + 1), false)) := by
    have : (fillLine junk l).drop 3 = colsAt l 3 3 ++ (l.drop 6 ++ NUL :: junk.drop (l.length + 1)) := by
      unfold fillLine colsAt
      rw [drop_line (by omega), ← List.append_assoc]
      congr 1
      rw [show l.drop 6 = (l.drop 3).drop 3 by rw [List.drop_drop], List.take_append_drop]
    rw [this]
    refine strtol_cols hnum (by omega) ?_ (by simp)
    intro c hc
    have hd : l.drop 6 = ' ' :: l.drop 7 := by
      obtain ⟨hx, hy⟩ := List.getElem?_eq_some_iff.1 h6
      rw [List.drop_eq_getElem_cons hx, hy]
    rw [hd] at hc
    simp at hc; subst hc; decide
  have h32 := hnum.int32 (by omega)
  exact obsTypesResolve_abs s (getAt_fill h0) (charToSatsys_toChar _) hnew hstr h32 rfl hpos

/-- **C41** (partial).  An entry whose number of codes is not a multiple of 13, for a system that has
not been listed before: the reader returns success, leaves the stream exactly behind the
`ceil(n/13)` lines of the entry, and the object's list for that system is the codes in order; the
lists of the other systems are untouched.  Missing: multiples of 13 (`C41_full_line_refused`,
`C41_full_line_swallows`). -/
theorem C41_read_partial {e : TypesEntry} (h : e.Shows) (hn : e.codes.length % 13 ≠ 0) {l : List Char} {ls : List (List Char)}
    (hls : e.lines = l :: ls) (junk : List Char) {obst : ObsTypes} (hnew : obst.lookup e.sys = none) {s : Stream} {t : List Char}
    (hg : s.good = true) (hr : s.rest = linesText ls ++ t) :
    ∃ obst' s', obsTypesResolve false (fillLine junk l) obst s = .ok (0, obst', s') ∧ s'.good = true ∧ s'.rest = t ∧
      e.lines.length = (e.codes.length + 12) / 13 ∧
      ∀ q, obst'.lookup q = if q = e.sys then some e.codes else obst.lookup q := by
  have hne : e.codes ≠ [] := by rintro hx; rw [hx] at hn; exact hn rfl
  refine ⟨obsInsert e.sys e.codes obst, s.past ls, ?_, hg, Stream.past_rest hr, h.count, lookup_obsInsert _ _ _ hnew⟩
  rw [obsTypesResolve_start h hls junk hnew s hne, (obsTypesLoop_end h hls junk hg hr hne).1 hn, Res.bind_ok]
  simp

/-- **C41 is false for every multiple of 13**: when the line after the entry is any other header line,
the reader fails with code 4 (and the constructor throws). -/
theorem C41_full_line_refused {e : TypesEntry} (h : e.Shows) (hn : e.codes.length % 13 = 0) (hne : e.codes ≠ [])
    {l : List Char} {ls : List (List Char)} (hls : e.lines = l :: ls) (junk : List Char) {obst : ObsTypes}
    (hnew : obst.lookup e.sys = none) {s : Stream} {x t : List Char} (hx : LineFits 84 x ∧ 60 ≤ x.length)
    (hxl : ¬ HasLabel x c!"SYS / # / OBS TYPES") (hg : s.good = true) (hr : s.rest = linesText ls ++ (x ++ '\n' :: t)) :
    ∃ s', obsTypesResolve false (fillLine junk l) obst s = .ok (4, obst, s') := by
  refine ⟨s.past (ls ++ [x]), ?_⟩
  rw [obsTypesResolve_start h hls junk hnew s hne, (obsTypesLoop_end h hls junk hg hr hne).2 hn x t hx.1 hx.2 rfl, if_neg hxl]
  simp

/-- … and when the entry of the next system follows, its first line is swallowed: the reader succeeds
one line too far. -/
theorem C41_full_line_swallows {e : TypesEntry} (h : e.Shows) (hn : e.codes.length % 13 = 0) (hne : e.codes ≠ [])
    {l : List Char} {ls : List (List Char)} (hls : e.lines = l :: ls) (junk : List Char) {obst : ObsTypes}
    (hnew : obst.lookup e.sys = none) {s : Stream} {x t : List Char} (hx : Labelled x c!"SYS / # / OBS TYPES")
    (hg : s.good = true) (hr : s.rest = linesText ls ++ (x ++ '\n' :: t)) :
    ∃ obst' s', obsTypesResolve false (fillLine junk l) obst s = .ok (0, obst', s') ∧ s'.rest = t ∧
      ∀ q, obst'.lookup q = if q = e.sys then some e.codes else obst.lookup q := by
  refine ⟨obsInsert e.sys e.codes obst, s.past (ls ++ [x]), ?_, ?_, lookup_obsInsert _ _ _ hnew⟩
  · rw [obsTypesResolve_start h hls junk hnew s hne,
      (obsTypesLoop_end h hls junk hg hr hne).2 hn x t hx.1 (Nat.le_of_lt (hx.2.long (by decide))) rfl, if_pos hx.2]
    simp
  · apply Stream.past_rest
    rw [hr, linesText_append, linesText_one]; simp

/-- **C41** (repetition).  A second entry for a system is refused with code 1, nothing is read. -/
theorem C41_repeated_system {l : List Char} {sys : SatSys} (h0 : l[0]? = some (satsysToChar sys)) (junk : List Char) {obst : ObsTypes}
    (hold : (obst.lookup sys).isSome = true) (errno0 : Bool) (s : Stream) :
    obsTypesResolve errno0 (fillLine junk l) obst s = .ok (1, obst, s) := by
  unfold obsTypesResolve
  rw [getAt_fill h0, Res.bind_ok, charToSatsys_toChar, Res.bind_ok, if_pos hold]
  rfl

end Ggnss
