import Verif.Spec.AntexSatBad
import Verif.Props.AntexDamage
import Verif.Props.AntexHist
import Verif.Lemmas.Fuel
/-!
# C88: satellite queries on damaged ANTEX files
-/
namespace Ggnss

/-! ## The line that names the satellite -/

theorem resolve_named {l x y : List Char} (h60 : 60 ≤ l.length) (hl : NUL ∉ l) (hx : NUL ∉ x) {id : Option (SatSys × Nat)} (h : SatNamed l id)
    {sat : AtxSat} (hs : sat.ant.length = 21) :
    ∃ st sat', atxResolve (l.take 60 ++ x ++ NUL :: y) sat = .ok (st, sat') ∧ sat'.ant.length = 21 ∧
      (id = none → st ≠ 0) ∧
      ∀ sys n, id = some (sys, n) → st = 0 ∧ sat'.sys = sys ∧ sat'.prn = n ∧ sat'.ant = l.take 20 ++ [NUL] := by
  have hL : IsCStr (l.take 60 ++ x) := IsCStr.append (IsCStr.take hl 60) hx
  have hlen : 60 ≤ (l.take 60 ++ x).length := by simp; omega
  have hal : ((l.take 60 ++ x).take 20 ++ [NUL]).length = 21 := by
    simp only [List.length_append, List.length_take, List.length_cons, List.length_nil]; omega
  have hgen : ∀ j c, l[j]? = some c → j < 60 → getAt (l.take 60 ++ x ++ NUL :: y) j = .ok c := by
    intro j c hc hj
    apply getAt_left
    rw [col_eq h60 hj]; exact hc
  have hcols : ∀ a n, a + n ≤ 60 → ((l.take 60 ++ x ++ NUL :: y).drop a).take n = (l.drop a).take n := by
    intro a n ha
    rw [drop_line (by omega), List.take_append_of_le_length (by rw [List.length_drop]; omega), cols_eq h60 ha]
  have hns : ∀ sys, satsysToChar sys ≠ ' ' := by intro sys; cases sys <;> decide
  cases h with
  | noSystem h =>
    obtain ⟨st, ant, e1, e2, e3⟩ := resolve_none (y := y) h60 hl hx (show SatIdAt l none from h) hs
    exact ⟨st, _, e1, e3, fun _ => e2, by simp⟩
  | sat i h =>
    refine ⟨0, _, resolve_some (y := y) h60 hl hx h hs, ?_, by simp, ?_⟩
    · simp only [List.length_append, List.length_take, List.length_cons, List.length_nil]; omega
    · intro sys n e
      simp only [Option.some.injEq, Prod.mk.injEq] at e
      exact ⟨rfl, e.1, by rw [← e.2], rfl⟩
  | noNumber sys h1 h2 =>
    have hg := hgen 20 _ h1 (by decide)
    refine ⟨5, { sat with ant := (l.take 60 ++ x).take 20 ++ [NUL], sys := sys }, ?_, hal, by simp, by simp⟩
    unfold atxResolve
    rw [cstrOf_append hL, Res.bind_ok, if_neg (by omega), satAntCopy_long hs (by omega), Res.bind_ok]
    simp only [hg, Res.bind_ok]
    rw [if_pos (hns sys)]
    unfold atxSysPrn
    rw [hg, Res.bind_ok, charToSatsys_letter]
    simp only [hcols 21 5 (by decide), stoi_noInt h2, Res.pure_eq, Res.bind_ok]
  | otherSvn sys n h1 h2 h3 h4 =>
    have hg := hgen 20 _ h1 (by decide)
    have h40 : 40 < l.length := by omega
    refine ⟨10, { sat with ant := (l.take 60 ++ x).take 20 ++ [NUL], sys := sys, prn := n }, ?_, hal, by simp, by simp⟩
    unfold atxResolve
    rw [cstrOf_append hL, Res.bind_ok, if_neg (by omega), satAntCopy_long hs (by omega), Res.bind_ok]
    simp only [hg, Res.bind_ok]
    rw [if_pos (hns sys)]
    unfold atxSysPrn
    rw [hg, Res.bind_ok, charToSatsys_letter]
    simp only [hcols 21 5 (by decide), stoi_nat h2, Res.pure_eq, Res.bind_ok]
    unfold atxSvn
    have hnb : ¬ BlankCols (l.take 60 ++ x) 40 (40 + 10) := fun hh => h3 ((blankCols_eq h60 (by decide)).1 hh)
    have hne : l[40] ≠ satsysToChar sys := by
      intro he
      apply h4
      rw [h1, List.getElem?_eq_getElem h40, he]
    rw [isEmpty_cols (a := 40) (n := 10) hL (by omega), Res.bind_ok, if_neg (by simp [hnb]),
      hgen 40 _ (List.getElem?_eq_getElem h40) (by decide), hg, Res.bind_ok, Res.bind_ok, if_pos hne]
    rfl
  | noSvn sys n h1 h2 h3 h4 =>
    have hg := hgen 20 _ h1 (by decide)
    refine ⟨10, { sat with ant := (l.take 60 ++ x).take 20 ++ [NUL], sys := sys, prn := n }, ?_, hal, by simp, by simp⟩
    unfold atxResolve
    rw [cstrOf_append hL, Res.bind_ok, if_neg (by omega), satAntCopy_long hs (by omega), Res.bind_ok]
    simp only [hg, Res.bind_ok]
    rw [if_pos (hns sys)]
    unfold atxSysPrn
    rw [hg, Res.bind_ok, charToSatsys_letter]
    simp only [hcols 21 5 (by decide), stoi_nat h2, Res.pure_eq, Res.bind_ok]
    unfold atxSvn
    have hnb : ¬ BlankCols (l.take 60 ++ x) 40 (40 + 10) := by
      intro hh
      have := ((blankCols_eq h60 (by decide)).1 hh) 40 (by decide) (by decide)
      rw [h3, h1] at this
      exact hns sys (Option.some.inj this)
    rw [isEmpty_cols (a := 40) (n := 10) hL (by omega), Res.bind_ok, if_neg (by simp [hnb]),
      hgen 40 _ (h3.trans h1) (by decide), hg, Res.bind_ok, Res.bind_ok, if_neg (by simp)]
    simp only [hcols 41 5 (by decide), stoi_noInt h4, Res.pure_eq, Res.bind_ok]

/-! ## The interval -/

/-- The status that an interval deserves at `eph`: 0 exactly if it contains the epoch. -/
def SpanStatus (eph : DateTime) (r : Option (DateTime × Option DateTime)) (st : Int) : Prop :=
  st = 0 ↔ ∃ d u, r = some (d, u) ∧ d.total ≤ eph.total ∧ ∀ e, u = some e → eph.total ≤ e.total

theorem verdict_span (eph : DateTime) (fr un : Option DateTime) : SpanStatus eph (fr.map fun d => (d, un)) (ctiVerdict eph fr un) := by
  unfold SpanStatus
  cases fr with
  | none => simp [ctiVerdict]
  | some d =>
    cases un with
    | none => simp [ctiVerdict]
    | some e =>
      simp only [ctiVerdict, Option.map_some, Option.some.injEq, Prod.mk.injEq]
      by_cases h : d.total ≤ eph.total ∧ eph.total ≤ e.total
      · simp only [h, and_self, if_true, true_iff]
        exact ⟨d, some e, ⟨rfl, rfl⟩, h.1, by simpa using h.2⟩
      · simp only [h, if_false]
        constructor
        · intro h; exact absurd h (by decide)
        · rintro ⟨d', u, ⟨rfl, rfl⟩, h1, h2⟩; exact absurd ⟨h1, h2 e rfl⟩ h

theorem known_false {fr un : Option DateTime} (h : fr = none ∨ un = none) : (fr.isSome && un.isSome) = false := by
  rcases h with rfl | rfl
  · rfl
  · cases fr <;> rfl

/-- The loop of the validity test over lines that state an interval.  `fr` and `un` are not both known. -/
theorem ctiLoop_valid {strptime : List Char → Res DateTime} {eph : DateTime} {fr un : Option DateTime} {D : List (List Char)}
    {r : Option (DateTime × Option DateTime)} (h : ValidLines strptime fr un D r) (t : List Char) :
    ∀ (fuel : Nat) (buf : List Char) (s : Stream), (fr.isSome && un.isSome) = false → s.good = true → s.rest = linesText D ++ t → D.length < fuel →
    ∃ st, ctiLoop strptime eph fuel buf fr un s = .ok (st, s.past D) ∧ SpanStatus eph r st := by
  induction h with
  | both d e => intro fuel buf s hne; simp at hne
  | freq fr un l hk hl hlab =>
    intro fuel buf s hne hg hr hf
    obtain ⟨fuel, rfl⟩ : ∃ k, fuel = k + 1 := ⟨fuel - 1, by simp at hf; omega⟩
    have hgl := getline_past (n := ATX_GRID_CHARS) hg (l := l) (ls := []) (t := t) hr hl.1.1 hl.1.2.2
    have x1 : ¬ HasLabel l c!"VALID FROM" := hlab.excl (by decide) (by decide)
    have x2 : ¬ HasLabel l c!"VALID UNTIL" := hlab.excl (by decide) (by decide)
    refine ⟨_, ?_, verdict_span eph fr un⟩
    unfold ctiLoop ctiLine
    simp only [hgl, atxLabel_line hl.1.2.1 hl.2 (by decide : IsCStr c!"VALID FROM"), atxLabel_line hl.1.2.1 hl.2 (by decide : IsCStr c!"VALID UNTIL"),
      atxLabel_line hl.1.2.1 hl.2 (by decide : IsCStr c!"START OF FREQUENCY"), decide_eq_false x1, decide_eq_false x2, decide_eq_true hlab,
      Res.bind_ok, Bool.false_eq_true, if_false, Res.pure_eq, hne, if_true]
  | from_ fr un d l ls r hk hl hlab hd hv ih =>
    intro fuel buf s hne hg hr hf
    obtain ⟨fuel, rfl⟩ : ∃ k, fuel = k + 1 := ⟨fuel - 1, by simp at hf; omega⟩
    have hgl := getline_past (n := ATX_GRID_CHARS) hg (l := l) (ls := ls) (t := t) hr hl.1.1 hl.1.2.2
    have x3 : ¬ HasLabel l c!"START OF FREQUENCY" := hlab.excl (by decide) (by decide)
    have hdt := hd (buf.drop (l.length + 1))
    rw [List.drop_zero] at hdt
    have hfill : fillLine buf l = l ++ NUL :: buf.drop (l.length + 1) := rfl
    unfold ctiLoop ctiLine
    simp only [hgl, atxLabel_line hl.1.2.1 hl.2 (by decide : IsCStr c!"VALID FROM"),
      atxLabel_line hl.1.2.1 hl.2 (by decide : IsCStr c!"START OF FREQUENCY"), decide_eq_true hlab, decide_eq_false x3,
      Res.bind_ok, Bool.false_eq_true, if_false, Res.pure_eq, if_true]
    rw [hfill, hdt]
    simp only [Res.bind_ok]
    cases un with
    | some e =>
      cases hv with
      | both =>
        exact ⟨_, by simp, verdict_span eph (some d) (some e)⟩
      | freq _ _ _ h => simp at h
      | from_ _ _ _ _ _ _ h => simp at h
      | until_ _ _ _ _ _ _ h => simp at h
      | bad _ _ _ h => simp at h
      | other _ _ _ _ _ h => simp at h
    | none =>
      obtain ⟨st, e1, e2⟩ := ih fuel (l ++ NUL :: buf.drop (l.length + 1)) (s.past [l]) rfl hg (rest_cons hr) (by simp at hf; omega)
      refine ⟨st, ?_, e2⟩
      simp only [Option.isSome_some, Option.isSome_none, Bool.and_false, Bool.false_eq_true, if_false]
      rw [e1, Stream.past_past]; rfl
  | until_ fr un d l ls r hk hl hlab hd hv ih =>
    intro fuel buf s hne hg hr hf
    obtain ⟨fuel, rfl⟩ : ∃ k, fuel = k + 1 := ⟨fuel - 1, by simp at hf; omega⟩
    have hgl := getline_past (n := ATX_GRID_CHARS) hg (l := l) (ls := ls) (t := t) hr hl.1.1 hl.1.2.2
    have x1 : ¬ HasLabel l c!"VALID FROM" := hlab.excl (by decide) (by decide)
    have x3 : ¬ HasLabel l c!"START OF FREQUENCY" := hlab.excl (by decide) (by decide)
    have hdt := hd (buf.drop (l.length + 1))
    rw [List.drop_zero] at hdt
    have hfill : fillLine buf l = l ++ NUL :: buf.drop (l.length + 1) := rfl
    unfold ctiLoop ctiLine
    simp only [hgl, atxLabel_line hl.1.2.1 hl.2 (by decide : IsCStr c!"VALID FROM"), atxLabel_line hl.1.2.1 hl.2 (by decide : IsCStr c!"VALID UNTIL"),
      atxLabel_line hl.1.2.1 hl.2 (by decide : IsCStr c!"START OF FREQUENCY"), decide_eq_false x1, decide_eq_true hlab, decide_eq_false x3,
      Res.bind_ok, Bool.false_eq_true, if_false, Res.pure_eq, if_true]
    rw [hfill, hdt]
    simp only [Res.bind_ok]
    cases fr with
    | some e =>
      cases hv with
      | both =>
        exact ⟨_, by simp, verdict_span eph (some e) (some d)⟩
      | freq _ _ _ h => simp at h
      | from_ _ _ _ _ _ _ h => simp at h
      | until_ _ _ _ _ _ _ h => simp at h
      | bad _ _ _ h => simp at h
      | other _ _ _ _ _ h => simp at h
    | none =>
      obtain ⟨st, e1, e2⟩ := ih fuel (l ++ NUL :: buf.drop (l.length + 1)) (s.past [l]) rfl hg (rest_cons hr) (by simp at hf; omega)
      refine ⟨st, ?_, e2⟩
      simp only [Option.isSome_some, Option.isSome_none, Bool.false_and, Bool.false_eq_true, if_false]
      rw [e1, Stream.past_past]; rfl
  | bad fr un l hk hl hlab hd =>
    intro fuel buf s hne hg hr hf
    obtain ⟨fuel, rfl⟩ : ∃ k, fuel = k + 1 := ⟨fuel - 1, by simp at hf; omega⟩
    have hgl := getline_past (n := ATX_GRID_CHARS) hg (l := l) (ls := []) (t := t) hr hl.1.1 hl.1.2.2
    obtain ⟨e, hdt⟩ := hd (buf.drop (l.length + 1))
    have hfill : fillLine buf l = l ++ NUL :: buf.drop (l.length + 1) := rfl
    have hst : ∀ k : Int, k ≠ 0 → SpanStatus eph none k := by
      intro k hk; unfold SpanStatus; simp [hk]
    by_cases hlf : HasLabel l c!"VALID FROM"
    · refine ⟨11, ?_, hst 11 (by decide)⟩
      unfold ctiLoop ctiLine
      simp only [hgl, atxLabel_line hl.1.2.1 hl.2 (by decide : IsCStr c!"VALID FROM"), decide_eq_true hlf, Res.bind_ok, if_true]
      rw [hfill, hdt]
      simp only [Res.bind_ok, Res.pure_eq]
    · have hlu := hlab.resolve_left hlf
      refine ⟨12, ?_, hst 12 (by decide)⟩
      unfold ctiLoop ctiLine
      simp only [hgl, atxLabel_line hl.1.2.1 hl.2 (by decide : IsCStr c!"VALID FROM"), atxLabel_line hl.1.2.1 hl.2 (by decide : IsCStr c!"VALID UNTIL"),
        decide_eq_false hlf, decide_eq_true hlu, Res.bind_ok, if_true, Bool.false_eq_true, if_false]
      rw [hfill, hdt]
      simp only [Res.bind_ok, Res.pure_eq]
  | other fr un l ls r hk hl x1 x2 x3 hv ih =>
    intro fuel buf s hne hg hr hf
    obtain ⟨fuel, rfl⟩ : ∃ k, fuel = k + 1 := ⟨fuel - 1, by simp at hf; omega⟩
    have hgl := getline_past (n := ATX_GRID_CHARS) hg (l := l) (ls := ls) (t := t) hr hl.1.1 hl.1.2.2
    obtain ⟨st, e1, e2⟩ := ih fuel (fillLine buf l) (s.past [l]) hne hg (rest_cons hr) (by simp at hf; omega)
    refine ⟨st, ?_, e2⟩
    unfold ctiLoop ctiLine
    simp only [hgl, atxLabel_line hl.1.2.1 hl.2 (by decide : IsCStr c!"VALID FROM"), atxLabel_line hl.1.2.1 hl.2 (by decide : IsCStr c!"VALID UNTIL"),
      atxLabel_line hl.1.2.1 hl.2 (by decide : IsCStr c!"START OF FREQUENCY"), decide_eq_false x1, decide_eq_false x2, decide_eq_false x3,
      Res.bind_ok, Bool.false_eq_true, if_false, Res.pure_eq, hne]
    rw [e1, Stream.past_past]; rfl

/-- The validity test on the lines of a record (or of several). -/
theorem cti_method {strptime : List Char → Res DateTime} {J : AtxJunk} {eph : DateTime} {m : List Char} {D : List (List Char)}
    {r : Option (DateTime × Option DateTime)} (hm : GridLine m) (hlab : HasLabel m c!"METH / BY / # / DATE")
    (h : ValidLines strptime none none D r) {fuel : Nat} {s : Stream} {t : List Char} (hg : s.good = true)
    (hr : s.rest = linesText (m :: D) ++ t) (hfuel : s.rest.length < fuel) :
    ∃ st, checkTimeInterval strptime J fuel eph s = .ok (st, s.past (m :: D)) ∧ SpanStatus eph r st := by
  have hlen := length_linesText (m :: D)
  have hl2 : (linesText (m :: D)).length ≤ s.rest.length := by rw [hr]; simp
  obtain ⟨st, e1, e2⟩ := ctiLoop_valid (eph := eph) h t fuel (fillLine (J.grid s.pos) m) (s.past [m]) rfl hg (rest_cons hr)
    (by simp at hlen; omega)
  refine ⟨st, ?_, e2⟩
  unfold checkTimeInterval
  rw [expect_line (n := ATX_GRID_CHARS) hg hr hm.1 hm.2 (by decide), decide_eq_true hlab, Res.bind_ok]
  simp only [Bool.true_eq_false, if_false]
  rw [e1, Stream.past_past]; rfl

theorem cti_noMethod {strptime : List Char → Res DateTime} {J : AtxJunk} {eph : DateTime} {l : List Char}
    (hm : GridLine l) (hlab : ¬ HasLabel l c!"METH / BY / # / DATE") {fuel : Nat} {s : Stream} {t : List Char} (hg : s.good = true)
    (hr : s.rest = linesText [l] ++ t) : checkTimeInterval strptime J fuel eph s = .ok (10, s.past [l]) := by
  unfold checkTimeInterval
  rw [expect_line (n := ATX_GRID_CHARS) hg hr hm.1 hm.2 (by decide), decide_eq_false hlab, Res.bind_ok]
  rfl

/-- The validity test on a record. -/
theorem cti_span {strptime : List Char → Res DateTime} {J : AtxJunk} {eph : DateTime} {r : AtxRaw} (hw : r.WF)
    {sp : Option (DateTime × Option DateTime)} (h : SpanAt strptime r.inner sp) {fuel : Nat} {s : Stream} {t : List Char} (hg : s.good = true)
    (hr : s.rest = linesText r.body ++ t) (hfuel : s.rest.length < fuel) :
    ∃ st pre ls, checkTimeInterval strptime J fuel eph s = .ok (st, s.past pre) ∧ SpanStatus eph sp st ∧ r.inner = pre ++ ls := by
  unfold AtxRaw.body at hr
  generalize hin : r.inner = inn at h hr
  have hi := hw.inner
  rw [hin] at hi
  cases h with
  | noMethod l E hl =>
    refine ⟨10, [l], E, cti_noMethod (t := linesText (E ++ [r.last]) ++ t) (hi l (by simp)).1 hl hg ?_, by simp [SpanStatus], rfl⟩
    rw [hr, ← List.append_assoc, ← linesText_append]; rfl
  | method m D E _ hl hv =>
    obtain ⟨st, e1, e2⟩ := cti_method (J := J) (eph := eph) (fuel := fuel) (t := linesText (E ++ [r.last]) ++ t) (hi m (by simp)).1 hl hv hg (by
      rw [hr, ← List.append_assoc, ← linesText_append]; simp) hfuel
    exact ⟨st, m :: D, E, e1, e2, rfl⟩

/-! ## The search -/

def satRawText (rs : List SatRaw) : List Char := atxRawText (rs.map (·.raw))

theorem satRawText_cons (r : SatRaw) (rs : List SatRaw) : satRawText (r :: rs) = linesText r.raw.lines ++ satRawText rs := by
  simp [satRawText, atxRawText_cons]

/-- The record is tested; before, its first two lines were read. -/
theorem satTest_raw {strptime : List Char → Res DateTime} {J : AtxJunk} {prn : Int} {ss : SatSys} {r : SatRaw} (h : r.WF strptime prn ss)
    (eph : DateTime) {fuel : Nat} {s : Stream} {t c : List Char} (hg : s.good = true) (hr : s.rest = linesText r.raw.body ++ t)
    (hfuel : s.rest.length < fuel) (hc : NUL ∈ c) {sat : AtxSat} (hs : sat.ant.length = 21) :
    ∃ ok sat' pre ls, atxSatTest strptime J fuel prn ss eph (r.raw.type.take 60 ++ c) sat s = .ok (ok, sat', s.past pre) ∧
      (ok = true ↔ r.For prn ss eph) ∧ r.raw.inner = pre ++ ls ∧ sat'.ant.length = 21 ∧
      (ok = true → sat'.sys = ss ∧ sat'.prn = prn ∧ sat'.ant = r.raw.type.take 20 ++ [NUL]) := by
  have h60 := h.raw.type.2.long (by decide)
  obtain ⟨x, y, rfl, hx⟩ := nul_split hc
  unfold atxSatTest
  rw [← List.append_assoc]
  obtain ⟨st, sat', e1, e2, e3, e4⟩ := resolve_named (y := y) (Nat.le_of_lt h60) h.raw.type.1.2.1 hx h.name hs
  rw [e1, Res.bind_ok]
  by_cases hm : st = 0 ∧ sat'.prn = prn ∧ sat'.sys = ss
  · rw [if_pos hm]
    obtain ⟨⟨sys, n⟩, hid⟩ : ∃ p, r.name = some p := by
      cases hn : r.name with
      | none => exact absurd hm.1 (e3 hn)
      | some p => exact ⟨p, rfl⟩
    obtain ⟨_, f1, f2, f3⟩ := e4 sys n hid
    have hab : r.About prn ss := ⟨n, by rw [hid, ← f1, hm.2.2], by rw [← f2, hm.2.1]⟩
    obtain ⟨st', pre, ls, g1, g2, g3⟩ := cti_span (J := J) (eph := eph) h.raw (h.span hab) hg hr hfuel
    rw [g1, Res.bind_ok]
    refine ⟨decide (st' = 0), _, pre, ls, rfl, ?_, g3, e2, fun _ => ⟨hm.2.2, hm.2.1, f3⟩⟩
    rw [decide_eq_true_iff]
    exact ⟨fun hh => ⟨hab, g2.1 hh⟩, fun hh => g2.2 hh.2⟩
  · rw [if_neg hm]
    refine ⟨false, sat', [], r.raw.inner, by rw [Stream.past_nil]; rfl, ?_, rfl, e2, by simp⟩
    constructor
    · intro hh; cases hh
    · rintro ⟨⟨n, hn, hp⟩, _⟩
      obtain ⟨f0, f1, f2, _⟩ := e4 ss n hn
      exact absurd ⟨f0, by rw [f2, hp], f1⟩ hm

/-- The search passes over records that are not the one asked for. -/
theorem satLoop_pass {strptime : List Char → Res DateTime} {J : AtxJunk} (hJ : J.WF) {prn : Int} {ss : SatSys} {eph : DateTime} (t : List Char) :
    ∀ (rs : List SatRaw), (∀ r ∈ rs, r.WF strptime prn ss) → (∀ r ∈ rs, ¬ r.For prn ss eph) →
    ∀ (fuel : Nat) (cur c : List Char) (sat : AtxSat) (pos : Option Nat) (stat2 : Option Int) (s : Stream), s.good = true →
      s.rest = satRawText rs ++ t → s.rest.length < fuel → 60 ≤ c.length → NUL ∈ c.drop 60 → sat.ant.length = 21 →
    ∃ fuel' cur' c' sat' pos' stat2' s', atxSatLoop strptime J prn ss eph fuel cur c sat pos stat2 s =
        atxSatLoop strptime J prn ss eph fuel' cur' c' sat' pos' stat2' s' ∧ s'.good = true ∧ s'.rest = t ∧ s'.content = s.content ∧
      t.length < fuel' ∧ 60 ≤ c'.length ∧ NUL ∈ c'.drop 60 ∧ sat'.ant.length = 21 ∧ (rs = [] → stat2' = stat2) ∧ (rs ≠ [] → stat2' = some 0) := by
  intro rs
  induction rs with
  | nil =>
    intro _ _ fuel cur c sat pos stat2 s hg hr hf hc hnul hsl
    have : s.rest = t := by rw [hr]; simp [satRawText, atxRawText, linesText]
    exact ⟨fuel, cur, c, sat, pos, stat2, s, rfl, hg, this, rfl, by rw [← this]; exact hf, hc, hnul, hsl, fun _ => rfl, by simp⟩
  | cons r rs ih =>
    intro hw hno fuel cur c sat pos stat2 s hg hr hf hc hnul hsl
    obtain ⟨fuel, rfl⟩ : ∃ k, fuel = k + 1 := ⟨fuel - 1, by omega⟩
    have hwr := hw r (by simp)
    rw [satRawText_cons, List.append_assoc] at hr
    obtain ⟨ant, he, _⟩ := readType_block hJ hwr.raw.named (cur := cur) (c := c) hc hg (ls := r.raw.body) hr
    change atxReadType J cur c s = .ok ⟨0, ant, r.raw.type.take 60 ++ c.drop 60, s.past [r.raw.start, r.raw.type]⟩ at he
    have hr2 : (s.past [r.raw.start, r.raw.type]).rest = linesText r.raw.body ++ (satRawText rs ++ t) := by
      apply Stream.past_rest
      rw [hr]
      show linesText ([r.raw.start, r.raw.type] ++ r.raw.body) ++ _ = _
      rw [linesText_append]; simp
    have hl2 : (s.past [r.raw.start, r.raw.type]).rest.length + 2 ≤ s.rest.length := by
      rw [hr2, hr]
      show _ ≤ (linesText ([r.raw.start, r.raw.type] ++ r.raw.body) ++ _).length
      rw [linesText_append]
      have := length_linesText [r.raw.start, r.raw.type]
      simp at this ⊢; omega
    have hg2 : (s.past [r.raw.start, r.raw.type]).good = true := hg
    obtain ⟨ok, sat', pre, ls, e1, e2, e3, e4, e5⟩ := satTest_raw (J := J) (fuel := fuel) hwr eph hg2 hr2 (by omega) hnul
      (sat := { sat with sys := .mixed }) hsl
    have h60 := hwr.raw.type.2.long (by decide)
    have hok : ok = false := by
      cases ok with
      | false => rfl
      | true => exact absurd (e2.1 rfl) (hno r (by simp))
    subst hok
    rw [atxSatLoop, he, Res.bind_ok]
    simp only [ne_eq, not_true_eq_false, if_false, tellg_good hg2, e1, Res.bind_ok, Bool.false_eq_true]
    have hr3 : ((s.past [r.raw.start, r.raw.type]).past pre).rest = linesText (ls ++ [r.raw.last]) ++ (satRawText rs ++ t) := by
      apply Stream.past_rest
      rw [hr2, AtxRaw.body, e3, List.append_assoc, linesText_append]; simp
    have hskip : atxSkip J ((s.past [r.raw.start, r.raw.type]).past pre) =
        .ok (0, ((s.past [r.raw.start, r.raw.type]).past pre).past (ls ++ [r.raw.last])) := by
      unfold atxSkip
      apply skip_lines hwr.raw.last ls (fun l hl => hwr.raw.inner l (by rw [e3]; simp [hl])) 5000 _ ((s.past [r.raw.start, r.raw.type]).past pre) hg hr3
      have h1 := hwr.raw.few
      unfold AtxRaw.body at h1
      rw [e3] at h1
      simp at h1; omega
    simp only [hskip, Res.bind_ok, not_true_eq_false, if_false]
    have hr4 := Stream.past_rest hr3
    obtain ⟨fuel', cur', c', sat'', pos', stat2', s', k1, k2, k3, k4, k5, k6, k7, k8, k9, k10⟩ := ih (fun q hq => hw q (by simp [hq]))
      (fun q hq => hno q (by simp [hq])) fuel ant (r.raw.type.take 60 ++ c.drop 60) sat'
      (some (s.past [r.raw.start, r.raw.type]).pos) (some 0) (((s.past [r.raw.start, r.raw.type]).past pre).past (ls ++ [r.raw.last])) hg hr4
      (by
        have h1 := length_linesText r.raw.lines
        have h2 : 2 ≤ r.raw.lines.length := by simp [AtxRaw.lines]
        rw [hr4]; rw [hr] at hf; simp at hf ⊢; omega) (by simp; omega)
      (by
        have : List.drop 60 (r.raw.type.take 60 ++ c.drop 60) = c.drop 60 := by
          rw [List.drop_append, List.drop_of_length_le (by simp)]
          simp [Nat.min_eq_left (Nat.le_of_lt h60)]
        rw [this]; exact hnul) e4
    refine ⟨fuel', cur', c', sat'', pos', stat2', s', k1, k2, k3, k4, k5, k6, k7, k8, by simp, fun _ => ?_⟩
    by_cases hrs : rs = []
    · exact k9 hrs
    · exact k10 hrs

/-- The search stops at a record that names the satellite when the lines that follow its first line — whether
its own or not — state an interval that contains the epoch. -/
theorem satLoop_hit {strptime : List Char → Res DateTime} {J : AtxJunk} (hJ : J.WF) {prn : Int} {ss : SatSys} {eph : DateTime} {r : AtxRaw}
    (hw : r.WF) {n : Nat} (hn : SatNamed r.type (some (ss, n))) (hp : (n : Int) = prn) {m : List Char} {D : List (List Char)} {d : DateTime}
    {u : Option DateTime} (hm : GridLine m) (hlab : HasLabel m c!"METH / BY / # / DATE") (hv : ValidLines strptime none none D (some (d, u)))
    (hd : d.total ≤ eph.total) (hu : ∀ e, u = some e → eph.total ≤ e.total)
    {fuel : Nat} {cur c : List Char} {sat : AtxSat} {pos : Option Nat} {stat2 : Option Int} {s : Stream} (hg : s.good = true) {t : List Char}
    (hr : s.rest = linesText (r.start :: r.type :: m :: D) ++ t) (hf : s.rest.length < fuel) (hc : 60 ≤ c.length) (hnul : NUL ∈ c.drop 60)
    (hsl : sat.ant.length = 21) :
    ∃ o, atxSatLoop strptime J prn ss eph fuel cur c sat pos stat2 s = .ok o ∧ o.status = 0 ∧ o.strm.content = s.content ∧ o.strm.fail = false ∧
      o.sat.sys = ss ∧ o.sat.prn = prn ∧ o.sat.ant = r.type.take 20 ++ [NUL] ∧
      ∃ q, o.pos = some q ∧ s.content.drop q = linesText (m :: D) ++ t := by
  obtain ⟨fuel, rfl⟩ : ∃ k, fuel = k + 1 := ⟨fuel - 1, by omega⟩
  obtain ⟨ant, he, _⟩ := readType_block hJ hw.named (cur := cur) (c := c) hc hg (ls := m :: D) hr
  change atxReadType J cur c s = .ok ⟨0, ant, r.type.take 60 ++ c.drop 60, s.past [r.start, r.type]⟩ at he
  have hr2 : (s.past [r.start, r.type]).rest = linesText (m :: D) ++ t := by
    apply Stream.past_rest
    rw [hr]
    show linesText ([r.start, r.type] ++ (m :: D)) ++ _ = _
    rw [linesText_append]; simp
  have hl2 : (s.past [r.start, r.type]).rest.length + 2 ≤ s.rest.length := by
    rw [hr2, hr]
    show _ ≤ (linesText ([r.start, r.type] ++ (m :: D)) ++ _).length
    rw [linesText_append]
    have := length_linesText [r.start, r.type]
    simp at this ⊢; omega
  have hg2 : (s.past [r.start, r.type]).good = true := hg
  have h60 := hw.type.2.long (by decide)
  obtain ⟨st, e1, e2⟩ := cti_method (J := J) (eph := eph) hm hlab hv hg2 hr2 (fuel := fuel) (by omega)
  have hst : st = 0 := e2.2 ⟨d, u, rfl, hd, hu⟩
  subst hst
  obtain ⟨x, y, hxy, hx⟩ := nul_split hnul
  obtain ⟨st, sat', f1, f2, f3, f4⟩ := resolve_named (y := y) (Nat.le_of_lt h60) hw.type.1.2.1 hx hn (sat := { sat with sys := .mixed }) hsl
  obtain ⟨rfl, g1, g2, g3⟩ := f4 ss n rfl
  have ht : atxSatTest strptime J fuel prn ss eph (r.type.take 60 ++ c.drop 60) { sat with sys := .mixed } (s.past [r.start, r.type]) =
      .ok (true, sat', (s.past [r.start, r.type]).past (m :: D)) := by
    unfold atxSatTest
    rw [hxy, ← List.append_assoc, f1, Res.bind_ok, if_pos ⟨rfl, by rw [g2, hp], g1⟩, e1, Res.bind_ok]
    rfl
  rw [atxSatLoop, he, Res.bind_ok]
  simp only [ne_eq, not_true_eq_false, if_false, tellg_good hg2, ht, Res.bind_ok, if_true]
  exact ⟨_, rfl, rfl, rfl, ((Stream.good_iff _).1 hg2).2, g1, by rw [g2, hp], g3, _, rfl, hr2⟩

/-- The search from the beginning, up to the record after `pre`. -/
theorem findSat_pass {strptime : List Char → Res DateTime} {J : AtxJunk} (hJ : J.WF) {prn : Int} {ss : SatSys} {eph : DateTime}
    {pre : List SatRaw} (hw : ∀ r ∈ pre, r.WF strptime prn ss) (hno : ∀ r ∈ pre, ¬ r.For prn ss eph) {rs : List AtxRaw} {f : AtxFile}
    (hf : AtxOnRaw (pre.map (·.raw) ++ rs) f) (hnul : ∀ p, NUL ∈ (J.head p).drop 60) (cospar : List Char) {fuel : Nat}
    (hfuel : f.strm.content.length < fuel) :
    ∃ fuel' cur' c' sat' pos' stat2' s', atxFindSat strptime J cospar fuel f prn ss eph =
        Res.noexcept (atxSatLoop strptime J prn ss eph fuel' cur' c' sat' pos' stat2' s') ∧ s'.good = true ∧ s'.rest = atxRawText rs ∧
      s'.content = f.strm.content ∧ (atxRawText rs).length < fuel' ∧ 60 ≤ c'.length ∧ NUL ∈ c'.drop 60 ∧ sat'.ant.length = 21 ∧
      (pre ≠ [] → stat2' = some 0) := by
  obtain ⟨p, hp1, hp2⟩ := hf.head
  obtain ⟨hg, hc, hpos, hr⟩ := seekg_good hf.fail p
  have htext : atxRawText (pre.map (·.raw) ++ rs) = satRawText pre ++ atxRawText rs := by
    simp [satRawText, atxRawText, linesText_append]
  obtain ⟨fuel', cur', c', sat', pos', stat2', s', k1, k2, k3, k4, k5, k6, k7, k8, k9, k10⟩ := satLoop_pass hJ (eph := eph) (atxRawText rs) pre hw hno fuel
    (List.replicate 20 ' ' ++ NUL :: (J.ant p).drop 21) (J.head p) ⟨.mixed, -1, -1, List.replicate 21 NUL, cospar⟩ (some 0) none (f.strm.seekg p) hg
    (by rw [hr, hp2, htext]) (by rw [hr]; simp; omega) (by rw [hJ.head]; decide) (hnul p) (by simp)
  refine ⟨fuel', cur', c', sat', pos', stat2', s', ?_, k2, k3, by rw [k4, hc], k5, k6, k7, k8, k10⟩
  unfold atxFindSat
  simp only [hp1, atxSeek, hpos, antInit_eq (J.ant p) (hJ.ant p), Res.bind_ok]
  rw [k1]

/-- The search finds the record after `pre`. -/
theorem findSat_hit {strptime : List Char → Res DateTime} {J : AtxJunk} (hJ : J.WF) {prn : Int} {ss : SatSys} {eph : DateTime}
    {pre : List SatRaw} (hw : ∀ r ∈ pre, r.WF strptime prn ss) (hno : ∀ r ∈ pre, ¬ r.For prn ss eph) {r : AtxRaw} {rs : List AtxRaw} {f : AtxFile}
    (hf : AtxOnRaw (pre.map (·.raw) ++ r :: rs) f) (hnul : ∀ p, NUL ∈ (J.head p).drop 60) (cospar : List Char) {fuel : Nat}
    (hfuel : f.strm.content.length < fuel) (hr : r.WF) {n : Nat} (hn : SatNamed r.type (some (ss, n))) (hp : (n : Int) = prn)
    {m : List Char} {D E : List (List Char)} {d : DateTime} {u : Option DateTime}
    (hlines : r.body ++ (rs.map (·.lines)).flatten = m :: (D ++ E)) (hm : GridLine m) (hlab : HasLabel m c!"METH / BY / # / DATE")
    (hv : ValidLines strptime none none D (some (d, u))) (hd : d.total ≤ eph.total) (hu : ∀ e, u = some e → eph.total ≤ e.total) :
    ∃ o, atxFindSat strptime J cospar fuel f prn ss eph = .ok o ∧ o.status = 0 ∧ o.strm.content = f.strm.content ∧ o.strm.fail = false ∧
      o.sat.sys = ss ∧ o.sat.prn = prn ∧ o.sat.ant = r.type.take 20 ++ [NUL] ∧
      ∃ q, o.pos = some q ∧ f.strm.content.drop q = linesText r.body ++ atxRawText rs := by
  obtain ⟨fuel', cur', c', sat', pos', stat2', s', k1, k2, k3, k4, k5, k6, k7, k8, k9⟩ := findSat_pass hJ hw hno hf hnul cospar hfuel
  have ht : atxRawText (r :: rs) = linesText (r.start :: r.type :: m :: D) ++ linesText E := by
    rw [atxRawText_cons, AtxRaw.lines, atxRawText, ← linesText_append, ← linesText_append]
    congr 1
    simp only [List.cons_append, hlines]
  obtain ⟨o, e1, e2, e3, e4, e5, e6, e7, q, e8, e9⟩ := satLoop_hit hJ (eph := eph) (fuel := fuel') (cur := cur') (c := c') (sat := sat') (pos := pos')
    (stat2 := stat2') hr hn hp hm hlab hv hd hu k2 (k3.trans ht) (by rw [k3]; exact k5) k6 k7 k8
  refine ⟨o, by rw [k1, e1]; rfl, e2, e3.trans k4, e4, e5, e6, e7, q, e8, ?_⟩
  rw [← k4, e9, ← linesText_append, atxRawText, ← linesText_append, List.cons_append, hlines]

/-! ## The queries -/

theorem spanFor {strptime : List Char → Res DateTime} {inner : List (List Char)} {d : DateTime} {u : Option DateTime}
    (h : SpanAt strptime inner (some (d, u))) : ∃ m D E, inner = m :: (D ++ E) ∧ HasLabel m c!"METH / BY / # / DATE" ∧
      ValidLines strptime none none D (some (d, u)) := by
  cases h with
  | method m D E _ h1 h2 => exact ⟨m, D, E, rfl, h1, h2⟩

theorem firstSat_split {rs : List SatRaw} {P : SatRaw → Prop} {i : Nat} {r : SatRaw} (h : FirstSat rs P i r) :
    ∃ pre post, rs = pre ++ r :: post ∧ ∀ q ∈ pre, ¬ P q := by
  obtain ⟨h1, _, h3⟩ := h
  obtain ⟨hlt, rfl⟩ := List.getElem?_eq_some_iff.1 h1
  refine ⟨rs.take i, rs.drop (i + 1), by simp, ?_⟩
  intro q hq
  obtain ⟨j, hj, rfl⟩ := List.mem_take_iff_getElem.1 hq
  exact h3 j (by omega) _ (List.getElem?_eq_getElem (by omega))

/-- The record found, seen from the queries. -/
theorem satRaw_found {strptime : List Char → Res DateTime} {J : AtxJunk} (hJ : J.WF) {prn : Int} {ss : SatSys} {eph : DateTime}
    {rs : List SatRaw} (hw : ∀ r ∈ rs, r.WF strptime prn ss) {f : AtxFile} (hf : AtxOnRaw (rs.map (·.raw)) f)
    (hnul : ∀ p, NUL ∈ (J.head p).drop 60) (cospar : List Char) {i : Nat} {r : SatRaw} (hi : FirstSat rs (SatRaw.For prn ss eph) i r)
    {fuel : Nat} (hfuel : f.strm.content.length < fuel) :
    ∃ o, atxFindSat strptime J cospar fuel f prn ss eph = .ok o ∧ o.status = 0 ∧ o.strm.content = f.strm.content ∧ o.strm.fail = false ∧
      o.sat.sys = ss ∧ o.sat.prn = prn ∧ o.sat.ant = r.raw.type.take 20 ++ [NUL] ∧
      ∃ q more, o.pos = some q ∧ f.strm.content.drop q = linesText r.raw.body ++ more := by
  have hfor := hi.2.1
  obtain ⟨pre, post, rfl, hno⟩ := firstSat_split hi
  have hwr := hw r (by simp)
  obtain ⟨⟨n, hn, hp⟩, d, u, hs, hd, hu⟩ := hfor
  have hspan := hwr.span ⟨n, hn, hp⟩
  rw [hs] at hspan
  obtain ⟨m, D, E, h1, h2, h3⟩ := spanFor hspan
  have hname := hwr.name
  rw [hn] at hname
  obtain ⟨o, e1, e2, e3, e4, e5, e6, e7, q, e8, e9⟩ := findSat_hit hJ (eph := eph) (pre := pre) (fun q hq => hw q (by simp [hq])) hno (r := r.raw)
    (rs := post.map (·.raw)) (f := f) (by simpa using hf) hnul cospar hfuel hwr.raw hname hp (m := m) (D := D)
    (E := E ++ r.raw.last :: ((post.map (·.raw)).map (·.lines)).flatten) (by rw [AtxRaw.body, h1]; simp)
    (hwr.raw.inner m (by rw [h1]; simp)).1 h2 h3 hd hu
  exact ⟨o, e1, e2, e3, e4, e5, e6, e7, q, _, e8, e9⟩

theorem satRaw_none {strptime : List Char → Res DateTime} {J : AtxJunk} (hJ : J.WF) {prn : Int} {ss : SatSys} {eph : DateTime}
    {rs : List SatRaw} (hne : rs ≠ []) (hw : ∀ r ∈ rs, r.WF strptime prn ss) {f : AtxFile} (hf : AtxOnRaw (rs.map (·.raw)) f)
    (hnul : ∀ p, NUL ∈ (J.head p).drop 60) (cospar : List Char) (hno : ∀ r ∈ rs, ¬ r.For prn ss eph)
    {fuel : Nat} (hfuel : f.strm.content.length < fuel) :
    ∃ o, atxFindSat strptime J cospar fuel f prn ss eph = .ok o ∧ o.status = 10 ∧ o.strm.content = f.strm.content ∧ o.strm.fail = false := by
  obtain ⟨fuel', cur', c', sat', pos', stat2', s', k1, k2, k3, k4, k5, k6, k7, k8, k9⟩ := findSat_pass hJ hw hno (rs := []) (by simpa using hf) hnul cospar hfuel
  obtain ⟨fuel', rfl⟩ : ∃ k, fuel' = k + 1 := ⟨fuel' - 1, by omega⟩
  obtain ⟨s'', he, hc, hg'⟩ := readType_eof (J := J) (cur := cur') (c := c') k2 (by simpa [atxRawText, linesText] using k3)
  refine ⟨⟨10, pos', sat', s''⟩, ?_, rfl, hc.trans k4, ((Stream.good_iff s'').1 hg').2⟩
  rw [k1, atxSatLoop, he, Res.bind_ok, k9 hne]
  rfl

/-- **C88** (`get_satellite_info`).  In a file whose records begin and end as they should but may be damaged
inside: the first record that names the satellite and states an interval that contains the epoch is found
(status 0; antenna name of that record), whatever the other records hold — names that cannot be made out,
records without method line, begin of validity or readable dates are passed over.  If there is none: status
10, and nothing is stored.  The object can be queried again. -/
theorem C88_satellite_partial {strptime : List Char → Res DateTime} {J : AtxJunk} (hJ : J.WF) {prn : Int} {ss : SatSys} {eph : DateTime}
    {rs : List SatRaw} (hne : rs ≠ []) (hw : ∀ r ∈ rs, r.WF strptime prn ss) {f : AtxFile} (hf : AtxOnRaw (rs.map (·.raw)) f)
    (hnul : ∀ p, NUL ∈ (J.head p).drop 60) (cospar : List Char) {fuel : Nat} (hfuel : f.strm.content.length < fuel) :
    ∃ st sv f', atxSatInfo strptime J cospar fuel f prn ss eph = .ok (st, sv, f') ∧ AtxOnRaw (rs.map (·.raw)) f' ∧
      f'.strm.content = f.strm.content ∧
      ((∃ i r s, FirstSat rs (SatRaw.For prn ss eph) i r ∧ st = 0 ∧ sv = some s ∧ s.sys = ss ∧ s.prn = prn ∧
          satAntText s.ant = .ok (r.raw.type.take 20)) ∨
       ((∀ r ∈ rs, ¬ r.For prn ss eph) ∧ st = 10 ∧ sv = none)) := by
  obtain ⟨p, hp1, hp2⟩ := hf.head
  by_cases hex : ∃ i r, FirstSat rs (SatRaw.For prn ss eph) i r
  · obtain ⟨i, r, hi⟩ := hex
    obtain ⟨o, e1, e2, e3, e4, e5, e6, e7, _⟩ := satRaw_found hJ hw hf hnul cospar hi hfuel
    unfold atxSatInfo
    rw [e1, Res.bind_ok]
    refine ⟨_, _, _, rfl, ⟨⟨p, hp1, by rw [e3]; exact hp2⟩, e4⟩, e3, Or.inl ⟨i, r, o.sat, hi, e2, by rw [if_pos e2], e5, e6, ?_⟩⟩
    rw [e7]
    exact cstrOf_append (IsCStr.take (hw r (List.mem_of_getElem? hi.1)).raw.type.1.2.1 20) []
  · have hno : ∀ r ∈ rs, ¬ r.For prn ss eph := by
      intro r hr hfor
      apply hex
      clear hne hw hf hp2
      induction rs with
      | nil => simp at hr
      | cons q qs ih =>
        by_cases hq : q.For prn ss eph
        · exact ⟨0, q, rfl, hq, by omega⟩
        · have hr' : r ∈ qs := by
            rcases List.mem_cons.1 hr with rfl | h
            · exact absurd hfor hq
            · exact h
          have : ∃ i r, FirstSat qs (SatRaw.For prn ss eph) i r := by
            by_cases h : ∃ i r, FirstSat qs (SatRaw.For prn ss eph) i r
            · exact h
            · exact ih h hr'
          obtain ⟨i, r', h1, h2, h3⟩ := this
          refine ⟨i + 1, r', h1, h2, ?_⟩
          intro j hj x hx
          cases j with
          | zero => simp at hx; subst hx; exact hq
          | succ j => exact h3 j (by omega) x (by simpa using hx)
    obtain ⟨o, e1, e2, e3, e4⟩ := satRaw_none hJ hne hw hf hnul cospar hno hfuel
    unfold atxSatInfo
    rw [e1, Res.bind_ok]
    exact ⟨_, _, _, rfl, ⟨⟨p, hp1, by rw [e3]; exact hp2⟩, e4⟩, e3, Or.inr ⟨hno, e2, by rw [if_neg (by rw [e2]; decide)]⟩⟩

/-- **C88** (`get_antenna_pco` for a satellite).  The lines of the first record that is for the satellite and
valid at the epoch decide: if up to some point they say status `st` and offsets `offs`, that is what is
returned. -/
theorem C88_offsets_partial {strptime : List Char → Res DateTime} {J : AtxJunk} (hJ : J.WF) {prn : Int} {ss : SatSys} {eph : DateTime}
    {rs : List SatRaw} (hw : ∀ r ∈ rs, r.WF strptime prn ss) {f : AtxFile} (hf : AtxOnRaw (rs.map (·.raw)) f)
    (hnul : ∀ p, NUL ∈ (J.head p).drop 60) (cospar : List Char) {i : Nat} {r : SatRaw} (hi : FirstSat rs (SatRaw.For prn ss eph) i r)
    {b : AtxBlock} (hb : b.WF strptime) {D E : List (List Char)} (hD : r.raw.body = D ++ E) {st : Int}
    {offs : List (SatSys × Int × Rat × Rat × Rat)} (hs : AtxSays b D st offs) {fuel : Nat} (hfuel : f.strm.content.length < fuel) :
    ∃ l sv f', atxPcoSatellite strptime J cospar fuel f prn ss eph = .ok (st, l, some sv, f') ∧ l.map Pco.flat = offs ∧ sv.sys = ss ∧ sv.prn = prn ∧
      AtxOnRaw (rs.map (·.raw)) f' ∧ f'.strm.content = f.strm.content := by
  obtain ⟨p, hp1, hp2⟩ := hf.head
  obtain ⟨o, e1, e2, e3, e4, e5, e6, e7, q, more, e8, e9⟩ := satRaw_found hJ hw hf hnul cospar hi hfuel
  obtain ⟨g1, g2, g3, g4⟩ := seekg_good e4 q
  obtain ⟨l, s', i1, i2, i3, i4⟩ := collect_says (J := J) (fuel := fuel) (s := o.strm.seekg q) (t := linesText E ++ more) hb hs g1
    (by rw [g4, e3, e9, hD, linesText_append, List.append_assoc]) (by rw [g4, e3]; simp; omega)
  have hcc : s'.content = f.strm.content := by rw [i4, g2, e3]
  unfold atxPcoSatellite
  rw [e1, Res.bind_ok, if_neg (by omega), e8]
  simp only [atxSeek, i1, Res.bind_ok, Res.pure_eq]
  exact ⟨l, _, _, rfl, i2, e5, e6, ⟨⟨p, hp1, by rw [hcc]; exact hp2⟩, i3⟩, hcc⟩

/-- **C88**: no record is for the satellite and valid at the epoch: status 10 and no offsets. -/
theorem C88_no_offsets {strptime : List Char → Res DateTime} {J : AtxJunk} (hJ : J.WF) {prn : Int} {ss : SatSys} {eph : DateTime}
    {rs : List SatRaw} (hne : rs ≠ []) (hw : ∀ r ∈ rs, r.WF strptime prn ss) {f : AtxFile} (hf : AtxOnRaw (rs.map (·.raw)) f)
    (hnul : ∀ p, NUL ∈ (J.head p).drop 60) (cospar : List Char) (hno : ∀ r ∈ rs, ¬ r.For prn ss eph)
    {fuel : Nat} (hfuel : f.strm.content.length < fuel) :
    ∃ f', atxPcoSatellite strptime J cospar fuel f prn ss eph = .ok (10, [], none, f') ∧
      AtxOnRaw (rs.map (·.raw)) f' ∧ f'.strm.content = f.strm.content := by
  obtain ⟨p, hp1, hp2⟩ := hf.head
  obtain ⟨o, e1, e2, e3, e4⟩ := satRaw_none hJ hne hw hf hnul cospar hno hfuel
  unfold atxPcoSatellite
  rw [e1, Res.bind_ok, if_pos (by omega), e2]
  exact ⟨_, rfl, ⟨⟨p, hp1, by rw [e3]; exact hp2⟩, e4⟩, e3⟩

/-- **C88**: an offset of the record found that is no number (or does not fit a `double`) terminates the
program. -/
theorem C88_bad_offset_terminates {strptime : List Char → Res DateTime} {J : AtxJunk} (hJ : J.WF) {prn : Int} {ss : SatSys} {eph : DateTime}
    {rs : List SatRaw} (hw : ∀ r ∈ rs, r.WF strptime prn ss) {f : AtxFile} (hf : AtxOnRaw (rs.map (·.raw)) f)
    (hnul : ∀ p, NUL ∈ (J.head p).drop 60) (cospar : List Char) {i : Nat} {r : SatRaw} (hi : FirstSat rs (SatRaw.For prn ss eph) i r)
    {b : AtxBlock} (hb : b.WF strptime) {fs : List AtxFreq} {q : AtxFreq} {qs : List AtxFreq} (hfs : b.freqs = fs ++ q :: qs)
    {l : List Char} (hl : Labelled l c!"NORTH / EAST / UP") (hbad : BadOffsets l) {E : List (List Char)}
    (hD : r.raw.body = b.top ++ (fs.map (·.lines)).flatten ++ [q.start, l] ++ E) {fuel : Nat} (hfuel : f.strm.content.length < fuel) :
    atxPcoSatellite strptime J cospar fuel f prn ss eph = .terminate := by
  obtain ⟨o, e1, e2, e3, e4, e5, e6, e7, p, more, e8, e9⟩ := satRaw_found hJ hw hf hnul cospar hi hfuel
  obtain ⟨g1, g2, g3, g4⟩ := seekg_good e4 p
  have := collect_badOffsets (J := J) (fuel := fuel) (s := o.strm.seekg p) (t := linesText E ++ more) hb hfs hl hbad g1
    (by rw [g4, e3, e9, hD, linesText_append, List.append_assoc]) (by rw [g4, e3]; simp; omega)
  unfold atxPcoSatellite
  rw [e1, Res.bind_ok, if_neg (by omega), e8]
  simp only [atxSeek, this]
  rfl

/-! ## Records without `START OF FREQUENCY` -/

/-- Lines without dates or frequencies change nothing. -/
theorem ValidLines.skip {strptime : List Char → Res DateTime} {r : Option (DateTime × Option DateTime)} {D : List (List Char)} {fr un : Option DateTime}
    (hk : fr = none ∨ un = none) : ∀ (ls : List (List Char)), (∀ l ∈ ls, GridLine l ∧ ¬ HasLabel l c!"VALID FROM" ∧
      ¬ HasLabel l c!"VALID UNTIL" ∧ ¬ HasLabel l c!"START OF FREQUENCY") → ValidLines strptime fr un D r → ValidLines strptime fr un (ls ++ D) r := by
  intro ls
  induction ls with
  | nil => intro _ h; exact h
  | cons l ls ih =>
    intro hw h
    obtain ⟨h1, h2, h3, h4⟩ := hw l (by simp)
    exact .other _ _ _ _ _ hk h1 h2 h3 h4 (ih (fun q hq => hw q (by simp [hq])) h)

/-- **C88, why partial** (an interval from another record).  A record of the satellite that has a method
line but neither frequencies nor dates, followed by a record of whatever satellite that states an interval
containing the epoch: the first is taken to be valid at the epoch, though it states no interval. -/
theorem C88_borrowed_interval {strptime : List Char → Res DateTime} {J : AtxJunk} (hJ : J.WF) {prn : Int} {ss : SatSys} {eph : DateTime}
    {pre : List SatRaw} (hw : ∀ r ∈ pre, r.WF strptime prn ss) (hno : ∀ r ∈ pre, ¬ r.For prn ss eph) {r r' : AtxRaw} {rs : List AtxRaw} {f : AtxFile}
    (hf : AtxOnRaw (pre.map (·.raw) ++ r :: r' :: rs) f) (hnul : ∀ p, NUL ∈ (J.head p).drop 60) (cospar : List Char)
    (hr : r.WF) {n : Nat} (hn : SatNamed r.type (some (ss, n))) (hp : (n : Int) = prn) {m : List Char} {ls : List (List Char)} (hin : r.inner = m :: ls)
    (hlab : HasLabel m c!"METH / BY / # / DATE") (hls : ∀ l ∈ ls, ¬ HasLabel l c!"VALID FROM" ∧ ¬ HasLabel l c!"VALID UNTIL" ∧
      ¬ HasLabel l c!"START OF FREQUENCY")
    (hr' : r'.WF) {d : DateTime} {u : Option DateTime} (hsp : SpanAt strptime r'.inner (some (d, u))) (hd : d.total ≤ eph.total)
    (hu : ∀ e, u = some e → eph.total ≤ e.total) {fuel : Nat} (hfuel : f.strm.content.length < fuel) :
    ∃ s f', atxSatInfo strptime J cospar fuel f prn ss eph = .ok (0, some s, f') ∧ s.sys = ss ∧ s.prn = prn ∧
      satAntText s.ant = .ok (r.type.take 20) := by
  obtain ⟨m', D, E, h1, h2, h3⟩ := spanFor hsp
  have hm' := hr'.inner m' (by rw [h1]; simp)
  have gl : ∀ {l p : List Char}, Labelled l p → p ≠ [] → GridLine l := fun h hp => (GridLine.of_labelled h hp)
  have ex : ∀ {l p : List Char}, HasLabel l p → ¬ p <+: c!"VALID FROM" → ¬ c!"VALID FROM" <+: p → ¬ p <+: c!"VALID UNTIL" →
      ¬ c!"VALID UNTIL" <+: p → ¬ p <+: c!"START OF FREQUENCY" → ¬ c!"START OF FREQUENCY" <+: p →
      ¬ HasLabel l c!"VALID FROM" ∧ ¬ HasLabel l c!"VALID UNTIL" ∧ ¬ HasLabel l c!"START OF FREQUENCY" :=
    fun h a1 a2 a3 a4 a5 a6 => ⟨h.excl a1 a2, h.excl a3 a4, h.excl a5 a6⟩
  have hv : ValidLines strptime none none ((ls ++ [r.last, r'.start, r'.type, m']) ++ D) (some (d, u)) := by
    apply ValidLines.skip (Or.inl rfl) _ _ h3
    intro l hl
    simp only [List.mem_append, List.mem_cons, List.not_mem_nil, or_false] at hl
    rcases hl with hl | rfl | rfl | rfl | rfl
    · exact ⟨(hr.inner l (by rw [hin]; simp [hl])).1, hls l hl⟩
    · exact ⟨gl hr.last (by decide), ex hr.last.2 (by decide) (by decide) (by decide) (by decide) (by decide) (by decide)⟩
    · exact ⟨gl hr'.start (by decide), ex hr'.start.2 (by decide) (by decide) (by decide) (by decide) (by decide) (by decide)⟩
    · exact ⟨gl hr'.type (by decide), ex hr'.type.2 (by decide) (by decide) (by decide) (by decide) (by decide) (by decide)⟩
    · exact ⟨hm'.1, ex h2 (by decide) (by decide) (by decide) (by decide) (by decide) (by decide)⟩
  obtain ⟨o, e1, e2, e3, e4, e5, e6, e7, _⟩ := findSat_hit hJ (eph := eph) hw hno hf hnul cospar hfuel hr hn hp (m := m)
    (D := (ls ++ [r.last, r'.start, r'.type, m']) ++ D) (E := E ++ r'.last :: (rs.map (·.lines)).flatten)
    (by simp [AtxRaw.body, AtxRaw.lines, hin, h1]) (hr.inner m (by rw [hin]; simp)).1 hlab hv hd hu
  unfold atxSatInfo
  rw [e1, Res.bind_ok]
  refine ⟨o.sat, _, by rw [e2]; rfl, e5, e6, ?_⟩
  rw [e7]
  exact cstrOf_append (IsCStr.take hr.type.1.2.1 20) []

/-- **C88, why partial** (a query that never ends).  The last record of the file names the satellite and has
a method line, but neither frequencies nor dates: the query never returns. -/
theorem C88_last_record_hangs {strptime : List Char → Res DateTime} {J : AtxJunk} (hJ : J.WF) {prn : Int} {ss : SatSys} {eph : DateTime}
    {pre : List SatRaw} (hw : ∀ r ∈ pre, r.WF strptime prn ss) (hno : ∀ r ∈ pre, ¬ r.For prn ss eph) {r : AtxRaw} {f : AtxFile}
    (hf : AtxOnRaw (pre.map (·.raw) ++ [r]) f) (hnul : ∀ p, NUL ∈ (J.head p).drop 60) (cospar : List Char)
    (hr : r.WF) {n : Nat} (hn : SatNamed r.type (some (ss, n))) (hp : (n : Int) = prn) {m : List Char} {ls : List (List Char)} (hin : r.inner = m :: ls)
    (hlab : HasLabel m c!"METH / BY / # / DATE") (hls : ∀ l ∈ ls, ¬ HasLabel l c!"VALID FROM" ∧ ¬ HasLabel l c!"VALID UNTIL" ∧
      ¬ HasLabel l c!"START OF FREQUENCY") :
    ∀ fuel, atxSatInfo strptime J cospar fuel f prn ss eph = .diverge := by
  have big : ∀ fuel, f.strm.content.length < fuel → atxSatInfo strptime J cospar fuel f prn ss eph = .diverge := by
    intro fuel hfuel
    obtain ⟨fuel', cur', c', sat', pos', stat2', s', k1, k2, k3, k4, k5, k6, k7, k8, k9⟩ := findSat_pass hJ (eph := eph) hw hno hf hnul cospar hfuel
    obtain ⟨fuel', rfl⟩ : ∃ k, fuel' = k + 1 := ⟨fuel' - 1, by omega⟩
    have k3' : s'.rest = linesText (r.start :: r.type :: m :: (ls ++ [r.last])) ++ [] := by
      rw [k3]; simp [atxRawText, AtxRaw.lines, AtxRaw.body, hin]
    obtain ⟨ant, he, _⟩ := readType_block hJ hr.named (cur := cur') (c := c') k6 k2 (ls := m :: (ls ++ [r.last])) k3'
    change atxReadType J cur' c' s' = .ok ⟨0, ant, r.type.take 60 ++ c'.drop 60, s'.past [r.start, r.type]⟩ at he
    have hr2 : (s'.past [r.start, r.type]).rest = linesText (m :: (ls ++ [r.last])) ++ [] := by
      have := rest_cons (s := s'.past [r.start]) (rest_cons k3')
      rwa [Stream.past_past] at this
    have hg2 : (s'.past [r.start, r.type]).good = true := k2
    have h60 := hr.type.2.long (by decide)
    have hmg := (hr.inner m (by rw [hin]; simp)).1
    have hcti : checkTimeInterval strptime J fuel' eph (s'.past [r.start, r.type]) = .diverge := by
      unfold checkTimeInterval
      rw [expect_line (n := ATX_GRID_CHARS) hg2 hr2 hmg.1 hmg.2 (by decide), decide_eq_true hlab, Res.bind_ok]
      simp only [Bool.true_eq_false, if_false]
      have h60' := hr.last.2.long (by decide)
      have key : ∀ (xs : List (List Char)), (∀ l ∈ xs, GridLine l ∧ ¬ HasLabel l c!"VALID FROM" ∧ ¬ HasLabel l c!"VALID UNTIL" ∧
          ¬ HasLabel l c!"START OF FREQUENCY") → ∀ (k : Nat) (buf : List Char) (s : Stream), s.good = true → s.rest = linesText (xs ++ [r.last]) ++ [] →
          ctiLoop strptime eph k buf none none s = .diverge := by
        intro xs
        induction xs with
        | nil =>
          intro _ k buf s hg hrs
          cases k with
          | zero => rfl
          | succ k =>
            have x1 : ¬ HasLabel r.last c!"VALID FROM" := hr.last.2.excl (by decide) (by decide)
            have x2 : ¬ HasLabel r.last c!"VALID UNTIL" := hr.last.2.excl (by decide) (by decide)
            have x3 : ¬ HasLabel r.last c!"START OF FREQUENCY" := hr.last.2.excl (by decide) (by decide)
            have hgl := getline_past (n := ATX_GRID_CHARS) hg (l := r.last) (ls := []) (t := []) hrs hr.last.1.1
              (by have := hr.last.1.2.2; unfold ATX_GRID_CHARS; omega)
            unfold ctiLoop ctiLine
            simp only [hgl, atxLabel_line hr.last.1.2.1 (Nat.le_of_lt h60') (by decide : IsCStr c!"VALID FROM"),
              atxLabel_line hr.last.1.2.1 (Nat.le_of_lt h60') (by decide : IsCStr c!"VALID UNTIL"),
              atxLabel_line hr.last.1.2.1 (Nat.le_of_lt h60') (by decide : IsCStr c!"START OF FREQUENCY"), decide_eq_false x1, decide_eq_false x2,
              decide_eq_false x3, Res.bind_ok, Bool.false_eq_true, if_false, Res.pure_eq, Option.isSome_none, Bool.and_self]
            refine cti_eof hr.last.1.2.1 (Nat.le_of_lt h60') x1 x2 x3 k _ ?_ _ (Or.inr (rest_cons (ls := []) hrs)) none none rfl
            unfold fillLine
            rw [drop_line (Nat.le_of_lt h60')]
            congr 2
            simp
        | cons l xs ih =>
          intro hx k buf s hg hrs
          cases k with
          | zero => rfl
          | succ k =>
            obtain ⟨hl, x1, x2, x3⟩ := hx l (by simp)
            have hgl := getline_past (n := ATX_GRID_CHARS) hg (l := l) (ls := xs ++ [r.last]) (t := []) hrs hl.1.1 hl.1.2.2
            unfold ctiLoop ctiLine
            simp only [hgl, atxLabel_line hl.1.2.1 hl.2 (by decide : IsCStr c!"VALID FROM"),
              atxLabel_line hl.1.2.1 hl.2 (by decide : IsCStr c!"VALID UNTIL"),
              atxLabel_line hl.1.2.1 hl.2 (by decide : IsCStr c!"START OF FREQUENCY"), decide_eq_false x1, decide_eq_false x2,
              decide_eq_false x3, Res.bind_ok, Bool.false_eq_true, if_false, Res.pure_eq, Option.isSome_none, Bool.and_self]
            exact ih (fun q hq => hx q (by simp [hq])) k _ (s.past [l]) hg (rest_cons hrs)
      rw [key ls (fun l hl => ⟨(hr.inner l (by rw [hin]; simp [hl])).1, hls l hl⟩) fuel' _ ((s'.past [r.start, r.type]).past [m]) hg2 (rest_cons hr2)]
      rfl
    obtain ⟨x, y, hxy, hx⟩ := nul_split k7
    obtain ⟨st, sat2, f1, f2, f3, f4⟩ := resolve_named (y := y) (Nat.le_of_lt h60) hr.type.1.2.1 hx hn (sat := { sat' with sys := .mixed }) k8
    obtain ⟨rfl, g1, g2, g3⟩ := f4 ss n rfl
    have ht : atxSatTest strptime J fuel' prn ss eph (r.type.take 60 ++ c'.drop 60) { sat' with sys := .mixed } (s'.past [r.start, r.type]) =
        .diverge := by
      unfold atxSatTest
      rw [hxy, ← List.append_assoc, f1, Res.bind_ok, if_pos ⟨rfl, by rw [g2, hp], g1⟩, hcti]
      rfl
    unfold atxSatInfo
    rw [k1, atxSatLoop, he, Res.bind_ok]
    simp only [ne_eq, not_true_eq_false, if_false, tellg_good hg2, ht]
    rfl
  intro fuel
  rcases atxSatInfo_le strptime J cospar (n := fuel) (m := fuel + f.strm.content.length + 1) (by omega) f prn ss eph with h | h
  · exact h
  · rw [h]; exact big _ (by omega)

end Ggnss
