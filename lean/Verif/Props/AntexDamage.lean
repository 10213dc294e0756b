import Verif.Props.AntexRaw
import Verif.Props.AntexSat
import Verif.Lemmas.BadField
/-!
# C80: what damaged records of an ANTEX file give
-/
namespace Ggnss

/-! ## Numbers that are none -/

theorem stoi_noInt {t : List Char} (h : NoInt t) : stoi t = .throw .invalid_argument := by
  obtain ⟨k, s, rest, rfl, hr⟩ := h
  have hs : ∀ c, (signText s ++ rest).head? = some c → isSpace c = false := by
    intro c hc
    rcases s with _ | _ | _
    · exact ((hr c hc).2 rfl).1
    · simp [signText] at hc; subst hc; decide
    · simp [signText] at hc; subst hc; decide
  have hts : takeSign (signText s ++ rest) = (s == some true, rest) := by
    match s with
    | none => exact takeSign_text none _ (fun c hc => ((hr c hc).2 rfl).2)
    | some true => rfl
    | some false => rfl
  have ht : rest.takeWhile Char.isDigit = [] := by
    cases hx : rest with
    | nil => rfl
    | cons c cs =>
      rw [List.takeWhile_cons, if_neg]
      have := (hr c (by rw [hx]; rfl)).1
      simp [this]
  unfold stoi strtol
  rw [dropWhile_blanks k _ hs, hts]
  simp [ht]

theorem stod_badReal {t : List Char} (h : BadReal t) : ∃ e, stod t = .throw e := by
  have key : strtod t = none ∨ ∃ v r, strtod t = some (v, r, true) := by
    rcases h with (h | ⟨k, c, r, rfl, h1, h2, h3⟩) | ⟨n, rest, hn, rfl, hst, hbig⟩
    · left
      rw [List.eq_replicate_of_mem h]
      unfold strtod
      rw [show List.replicate t.length ' ' = List.replicate t.length ' ' ++ [] by simp, dropWhile_blanks t.length [] (by simp)]
      decide
    · left; exact strtod_notNumber h1 h2 h3
    · right
      exact ⟨_, _, by rw [strtod_shape n hn _ hst, (dblErange_iff _).2 hbig]⟩
  unfold stod
  rcases key with h | ⟨v, r, h⟩
  · rw [h]; exact ⟨_, rfl⟩
  · rw [h]; exact ⟨.out_of_range, by simp⟩

/-! ## The frequencies -/

/-- The reader before line `x`: it has `x` in its array, or (`rms`) the line that starts the RMS block
before `x`. -/
def AtLine (rms : Bool) (x : List Char) (hline : List Char) (s : Stream) (t : List Char) : Prop :=
  if rms = true then
    ∃ buf a ls b, hline = fillLine buf a ∧ Labelled a c!"START OF FREQ RMS" ∧ Labelled b c!"END OF FREQ RMS" ∧
      (∀ l ∈ ls, GridLine l ∧ ¬ HasLabel l c!"END OF FREQ RMS") ∧ s.rest = linesText (ls ++ [b, x]) ++ t
  else ∃ buf, hline = fillLine buf x ∧ s.rest = t

theorem AtLine.atFreq {rms : Bool} {f : AtxFreq} {hline : List Char} {s : Stream} {t : List Char} (h : AtLine rms f.start hline s t) :
    AtFreq f hline s t := by
  unfold AtLine at h
  split at h
  · exact Or.inr h
  · exact Or.inl h

/-- At a line that can be read: it is what decides. -/
theorem pcoAtFreq_line {rms : Bool} {x : List Char} (hx : LineFits 84 x) (h60 : 60 ≤ x.length) {fuel : Nat} {hline gline : List Char}
    {s : Stream} {t : List Char} (ha : AtLine rms x hline s t) (hg : s.good = true) (hfuel : s.rest.length < fuel) :
    (HasLabel x c!"START OF FREQUENCY" → ∃ buf gline' s', pcoAtFreq fuel hline gline s = .ok (.inl (fillLine buf x, gline', s')) ∧
      s'.good = true ∧ s'.content = s.content ∧ s'.rest = t ∧ s'.rest.length ≤ s.rest.length) ∧
    (¬ HasLabel x c!"START OF FREQUENCY" → (rms = false → ¬ HasLabel x c!"START OF FREQ RMS") →
      ∃ s', pcoAtFreq fuel hline gline s = .ok (.inr (if rms = true then 11 else 5, s')) ∧ s'.fail = false ∧ s'.content = s.content) := by
  have hnf : s.fail = false := ((Stream.good_iff s).1 hg).2
  unfold pcoAtFreq
  unfold AtLine at ha
  split at ha
  · rename_i hrm
    subst hrm
    obtain ⟨buf, a, ls, b, rfl, h1, h2, h3, hr⟩ := ha
    have ha60 := h1.2.long (by decide)
    have hxa : ¬ HasLabel a c!"START OF FREQUENCY" := h1.2.excl (by decide) (by decide)
    simp only [hnf, Bool.false_eq_true, if_false, atxLabel_line h1.1.2.1 (Nat.le_of_lt ha60) (by decide : IsCStr c!"START OF FREQUENCY"),
      decide_eq_false hxa, atxLabel_line h1.1.2.1 (Nat.le_of_lt ha60) (by decide : IsCStr c!"START OF FREQ RMS"),
      decide_eq_true h1.2, Res.bind_ok, if_true]
    have hb60 := h2.2.long (by decide)
    have hlen : ls.length < fuel := by
      have : ls.length ≤ s.rest.length := by
        rw [hr, linesText_append]
        have := length_linesText ls
        simp; omega
      omega
    have hr' : s.rest = linesText (ls ++ [b]) ++ (linesText [x] ++ t) := by
      rw [hr, show ls ++ [b, x] = (ls ++ [b]) ++ [x] by simp, linesText_append]; simp
    obtain ⟨g', hsc⟩ := scanTo_lines (n := ATX_GRID_CHARS) (pat := c!"END OF FREQ RMS") (by decide) (last := b)
      (t := linesText [x] ++ t)
      ⟨(GridLine.of_labelled h2 (by decide)).1, Nat.le_of_lt hb60, h2.2⟩ ls
      (fun l hl => ⟨(h3 l hl).1.1, (h3 l hl).1.2, (h3 l hl).2⟩) fuel gline s hg hr' hlen
    rw [hsc, Res.bind_ok]
    have hr2 : (s.past (ls ++ [b])).rest = linesText [x] ++ t := Stream.past_rest hr'
    rw [expect_line (s := s.past (ls ++ [b])) hg hr2 hx h60 (by decide), Res.bind_ok]
    have hr3 : ((s.past (ls ++ [b])).past [x]).rest = t := Stream.past_rest hr2
    constructor
    · intro hl
      rw [decide_eq_true hl]
      refine ⟨_, _, _, rfl, hg, rfl, hr3, ?_⟩
      show (((s.past (ls ++ [b])).past [x]).rest).length ≤ _
      rw [hr3, hr]; simp
    · intro hl _
      rw [decide_eq_false hl]
      exact ⟨_, rfl, hnf, rfl⟩
  · rename_i hrm
    have hrm : rms = false := by simpa using hrm
    subst hrm
    obtain ⟨buf, rfl, hr⟩ := ha
    simp only [hnf, Bool.false_eq_true, if_false, atxLabel_line hx.2.1 h60 (by decide : IsCStr c!"START OF FREQUENCY"), Res.bind_ok]
    constructor
    · intro hl
      rw [if_pos (decide_eq_true hl)]
      exact ⟨buf, gline, s, rfl, hg, rfl, hr, Nat.le_refl _⟩
    · intro hl hl2
      rw [if_neg (by simpa using hl), atxLabel_line hx.2.1 h60 (by decide : IsCStr c!"START OF FREQ RMS"), Res.bind_ok,
        if_neg (by simpa using hl2)]
      exact ⟨s, rfl, hnf, rfl⟩

/-- Whether the last of the frequencies has an RMS block. -/
def endsRms (fs : List AtxFreq) : Bool := match fs.getLast? with | some f => f.rms.isSome | none => false

/-- Some good frequencies are read; then comes line `x`. -/
theorem pcoLoop_prefix {fuel n : Nat} {x : List Char} (hx : LineFits 84 x) (t : List Char) :
    ∀ (fs : List AtxFreq), (∀ f ∈ fs, f.WF) →
    ∀ (rms0 : Bool) (y : List Char) (ys : List (List Char)) (_ : (fs.map (·.lines)).flatten ++ [x] = y :: ys)
      (hline gline : List Char) (list : List Pco) (s : Stream), s.good = true → AtLine rms0 y hline s (linesText ys ++ t) → s.rest.length < fuel →
    ∃ hline' gline' l s', pcoLoop fuel (n + fs.length) hline gline list s = pcoLoop fuel n hline' gline' (list ++ l) s' ∧
      l.map Pco.flat = fs.map (·.offset) ∧ AtLine (if fs = [] then rms0 else endsRms fs) x hline' s' t ∧
      s'.good = true ∧ s'.content = s.content ∧ s'.rest.length ≤ s.rest.length := by
  intro fs
  induction fs with
  | nil =>
    intro _ rms0 y ys hy hline gline list s hg ha _
    simp only [List.map_nil, List.flatten_nil, List.nil_append, List.cons.injEq] at hy
    obtain ⟨rfl, rfl⟩ := hy
    exact ⟨hline, gline, [], s, by simp, rfl, by simpa [linesText] using ha, hg, rfl, Nat.le_refl _⟩
  | cons f fs ih =>
    intro hw rms0 y ys hy hline gline list s hg ha hfuel
    have hf := hw f (by simp)
    have hfl : (List.map (·.lines) (f :: fs)).flatten ++ [x] = f.start :: f.neu :: (f.pattern ++ f.stop ::
          (f.rmsLines ++ ((fs.map (·.lines)).flatten ++ [x]))) := by
      rw [List.map_cons, List.flatten_cons, AtxFreq.lines_cons]; simp
    rw [hfl, List.cons.injEq] at hy
    obtain ⟨rfl, rfl⟩ := hy
    obtain ⟨z, zs, hz⟩ : ∃ z zs, (fs.map (·.lines)).flatten ++ [x] = z :: zs := by
      cases hq : (fs.map (·.lines)).flatten ++ [x] with
      | nil => simp at hq
      | cons z zs => exact ⟨z, zs, rfl⟩
    have hzf : LineFits 84 z := by
      cases fs with
      | nil => simp at hz; rw [← hz.1]; exact hx
      | cons f' fs =>
        rw [List.map_cons, List.flatten_cons, AtxFreq.lines_cons] at hz
        simp only [List.cons_append, List.cons.injEq] at hz
        rw [← hz.1]; exact (hw f' (by simp)).start.1
    rw [hz] at ha
    have key : ∃ u us, f.rmsLines ++ z :: zs = u :: us ∧ LineFits 84 u ∧
        ∀ buf s', s'.rest = linesText us ++ t → AtLine f.rms.isSome z (fillLine buf u) s' (linesText zs ++ t) := by
      cases hrm : f.rms with
      | none =>
        refine ⟨z, zs, by rw [AtxFreq.rmsLines, hrm]; rfl, hzf, ?_⟩
        intro buf s' hs'
        exact ⟨buf, rfl, hs'⟩
      | some r =>
        obtain ⟨a, ls, b⟩ := r
        obtain ⟨h1, h2, h3⟩ := hf.rms a ls b hrm
        refine ⟨a, _, by rw [AtxFreq.rmsLines, hrm]; rfl, h1.1, ?_⟩
        intro buf s' hs'
        refine ⟨buf, a, ls, b, rfl, h1, h2, fun l hl => ⟨(h3 l hl).1, (h3 l hl).2.1⟩, ?_⟩
        rw [hs']
        simp [linesText_append, linesText_cons, show linesText [] = [] from rfl]
    obtain ⟨u, us, hu, huf, hat⟩ := key
    rw [hu] at ha
    obtain ⟨buf, g', p, s', e1, e2, e3, e4, e5, e6⟩ := pcoStep (n := n + fs.length) (gline := gline) (list := list) hf huf hg ha.atFreq hfuel
    obtain ⟨h', g2, l, s2, i1, i2, i3, i4, i5, i6⟩ := ih (fun q hq => hw q (by simp [hq])) f.rms.isSome z zs hz (fillLine buf u) g'
      (list ++ [p]) s' e3 (hat buf s' e5) (by omega)
    refine ⟨h', g2, p :: l, s2, ?_, by simp [e2, i2], ?_, i4, i5.trans e4, by omega⟩
    · rw [List.length_cons, ← Nat.add_assoc, e1, i1]; simp
    · cases fs with
      | nil => simpa [endsRms] using i3
      | cons f' fs => simpa [endsRms, List.getLast?_cons_cons] using i3

/-! ## The lines before the frequencies -/

/-- The head of the record is read, up to the first `START OF FREQUENCY` line `x`. -/
theorem collect_top {strptime : List Char → Res DateTime} {J : AtxJunk} {b : AtxBlock} (h : b.WF strptime) {x t : List Char}
    (hx : Labelled x c!"START OF FREQUENCY") {fuel : Nat} {s : Stream} (hg : s.good = true)
    (hr : s.rest = linesText (b.top ++ [x]) ++ t) (hfuel : s.rest.length < fuel) :
    ∃ hb s', collectPco J fuel [] s = Res.noexcept (pcoLoop fuel b.freqs.length (fillLine hb x) (J.grid s.pos) [] s') ∧ s'.good = true ∧
      s'.rest = t ∧ s'.content = s.content ∧ s'.rest.length ≤ s.rest.length := by
  have hbody : b.top ++ [x] = b.meth :: b.dazi :: b.zen :: b.num :: (b.opts.map (·.line) ++ [x]) := by simp [AtxBlock.top]
  rw [hbody] at hr
  have r1 := rest_cons hr
  have r2 := rest_cons r1
  have r3 := rest_cons r2
  have r4 := rest_cons r3
  have hn60 := h.num.2.long (by decide)
  have hle : ∀ {l : List Char} {ls : List (List Char)} {s : Stream}, s.rest = linesText (l :: ls) ++ t →
      (s.past [l]).rest.length ≤ s.rest.length := by
    intro l ls s h
    rw [rest_cons h, h, linesText_cons]; simp; omega
  have hlen := Nat.le_trans (hle r3) (Nat.le_trans (hle r2) (Nat.le_trans (hle r1) (hle hr)))
  have hm1 := expect_labelled (buf := J.head s.pos) hg hr h.meth (by decide) (by decide)
  have hm2 := expect_labelled (buf := fillLine (J.head s.pos) b.meth) (s := s.past [b.meth]) hg r1 h.dazi (by decide) (by decide)
  have hm3 := expect_labelled (buf := fillLine (fillLine (J.head s.pos) b.meth) b.dazi) (s := (s.past [b.meth]).past [b.dazi]) hg r2
    h.zen (by decide) (by decide)
  have hm4 := expect_labelled (buf := fillLine (fillLine (fillLine (J.head s.pos) b.meth) b.dazi) b.zen)
    (s := ((s.past [b.meth]).past [b.dazi]).past [b.zen]) hg r3 h.num (by decide) (by decide)
  have hg4 : ((((s.past [b.meth]).past [b.dazi]).past [b.zen]).past [b.num]).good = true := hg
  generalize hs4 : (((s.past [b.meth]).past [b.dazi]).past [b.zen]).past [b.num] = s4 at *
  have hcont : s4.content = s.content := by rw [← hs4]; rfl
  obtain ⟨hb, hsc⟩ := scanTo_lines (n := ATX_HEADER_CHARS) (pat := c!"START OF FREQUENCY") (by decide) (last := x)
      (t := t) ⟨hx.1, Nat.le_of_lt (hx.2.long (by decide)), hx.2⟩ (b.opts.map (·.line))
      (by
        intro l hl
        simp only [List.mem_map] at hl
        obtain ⟨o, ho, rfl⟩ := hl
        obtain ⟨i1, i2, i3⟩ := AtxOpt.inner (h.opts o ho)
        exact ⟨i3, i1.1.2, i2⟩) fuel
      (fillLine (fillLine (fillLine (fillLine (J.head s.pos) b.meth) b.dazi) b.zen) b.num) s4 hg4 r4
      (by
        have := length_linesText (b.opts.map (·.line))
        rw [r4, linesText_append] at hlen
        simp at hlen this
        simp
        omega)
  have hr5 := Stream.past_rest r4
  have hlen5 : (s4.past (b.opts.map (·.line) ++ [x])).rest.length ≤ s4.rest.length := by
    rw [hr5, r4]; simp
  refine ⟨hb, s4.past (b.opts.map (·.line) ++ [x]), ?_, hg4, hr5, hcont, by omega⟩
  unfold collectPco
  rw [hm1, Res.bind_ok]
  simp only [Bool.true_eq_false, if_false]
  rw [hm2, Res.bind_ok]
  simp only [Bool.true_eq_false, if_false]
  rw [hm3, Res.bind_ok]
  simp only [Bool.true_eq_false, if_false]
  rw [hm4, Res.bind_ok]
  simp only [Bool.true_eq_false, if_false]
  rw [take_fill (by omega), stoi_nat h.numVal]
  simp only [hsc, Res.bind_ok, Int.toNat_natCast]

/-- The record is read up to the line `x` after the frequencies `fs`. -/
theorem collect_upto {strptime : List Char → Res DateTime} {J : AtxJunk} {b : AtxBlock} (h : b.WF strptime) {fs qs : List AtxFreq}
    (hfs : b.freqs = fs ++ qs) {x t : List Char} (hx : LineFits 84 x)
    (hx0 : fs = [] → HasLabel x c!"START OF FREQUENCY") {fuel : Nat} {s : Stream} (hg : s.good = true)
    (hr : s.rest = linesText (b.top ++ (fs.map (·.lines)).flatten ++ [x]) ++ t) (hfuel : s.rest.length < fuel) :
    ∃ hline gline l s', collectPco J fuel [] s = Res.noexcept (pcoLoop fuel qs.length hline gline l s') ∧
      l.map Pco.flat = fs.map (·.offset) ∧ AtLine (endsRms fs) x hline s' t ∧ s'.good = true ∧ s'.content = s.content ∧
      s'.rest.length ≤ s.rest.length := by
  obtain ⟨z, zs, hz⟩ : ∃ z zs, (fs.map (·.lines)).flatten ++ [x] = z :: zs := by
    cases hq : (fs.map (·.lines)).flatten ++ [x] with
    | nil => simp at hq
    | cons z zs => exact ⟨z, zs, rfl⟩
  have hzl : Labelled z c!"START OF FREQUENCY" := by
    cases fs with
    | nil => simp at hz; rw [← hz.1]; exact ⟨hx, hx0 rfl⟩
    | cons f' fs =>
      rw [List.map_cons, List.flatten_cons, AtxFreq.lines_cons] at hz
      simp only [List.cons_append, List.cons.injEq] at hz
      rw [← hz.1]; exact (h.freqs f' (by rw [hfs]; simp)).start
  have hr' : s.rest = linesText (b.top ++ [z]) ++ (linesText zs ++ t) := by
    rw [hr, List.append_assoc, hz, linesText_append, linesText_append, linesText_cons, linesText_one]; simp
  obtain ⟨hb, s1, e1, e2, e3, e4, e5⟩ := collect_top (J := J) h hzl hg hr' hfuel
  obtain ⟨hline, gline, l, s2, i1, i2, i3, i4, i5, i6⟩ := pcoLoop_prefix (fuel := fuel) (n := qs.length) hx t fs
    (fun f hf => h.freqs f (by rw [hfs]; simp [hf])) false z zs hz (fillLine hb z) (J.grid s.pos) [] s1 e2 ⟨hb, rfl, e3⟩ (by omega)
  refine ⟨hline, gline, l, s2, ?_, i2, ?_, i4, i5.trans e4, by omega⟩
  · rw [e1, hfs]
    rw [List.length_append, Nat.add_comm fs.length, i1]; simp
  · cases fs with
    | nil => exact i3
    | cons f fs => exact i3

theorem pcoBand_bad {l buf : List Char} (h60 : 60 ≤ l.length) (h : BadFreqName l) : pcoBand (fillLine buf l) = .ok none := by
  have h3 : l[3]? = some (l[3]'(by omega)) := List.getElem?_eq_getElem _
  unfold pcoBand
  rw [getAt_fill h3, Res.bind_ok]
  rcases h with h | h
  · have hno := charToSatsys_none (c := l[3]'(by omega)) (fun sys he => h sys (by rw [h3, he]))
    cases hc : charToSatsys (l[3]'(by omega)) with
    | ok sys => exact absurd hc (hno sys)
    | _ => rfl
  · rw [drop_take_fill (by omega), stoi_noInt h]
    cases charToSatsys (l[3]'(by omega)) <;> rfl

/-! ## What a record gives -/

theorem collect_says {strptime : List Char → Res DateTime} {J : AtxJunk} {b : AtxBlock} (h : b.WF strptime) {D : List (List Char)} {st : Int}
    {offs : List (SatSys × Int × Rat × Rat × Rat)} (hd : AtxSays b D st offs) {fuel : Nat} {s : Stream} {t : List Char}
    (hg : s.good = true) (hr : s.rest = linesText D ++ t) (hfuel : s.rest.length < fuel) :
    ∃ l s', collectPco J fuel [] s = .ok (st, l, s') ∧ l.map Pco.flat = offs ∧ s'.fail = false ∧ s'.content = s.content := by
  have hnf : s.fail = false := ((Stream.good_iff s).1 hg).2
  cases hd with
  | intact l hl =>
    obtain ⟨hline, gline, ps, s1, e1, e2, e3, e4, e5, e6⟩ := collect_upto (J := J) h (fs := b.freqs) (qs := []) (by simp) hl
      (fun hn => absurd hn h.some_) hg hr hfuel
    rw [e1]
    exact ⟨ps, s1, rfl, e2, ((Stream.good_iff s1).1 e4).2, e5⟩
  | meth l hl =>
    unfold collectPco
    rw [expect_line hg hr hl.1 hl.2.1 (by decide), decide_eq_false hl.2.2, Res.bind_ok]
    exact ⟨[], _, rfl, rfl, hnf, rfl⟩
  | dazi l hl =>
    unfold collectPco
    rw [expect_labelled hg hr h.meth (by decide) (by decide), Res.bind_ok]
    simp only [Bool.true_eq_false, if_false]
    rw [expect_line (s := s.past [b.meth]) hg (rest_cons hr) hl.1 hl.2.1 (by decide), decide_eq_false hl.2.2, Res.bind_ok]
    exact ⟨[], _, rfl, rfl, hnf, rfl⟩
  | zen l hl =>
    unfold collectPco
    rw [expect_labelled hg hr h.meth (by decide) (by decide), Res.bind_ok]
    simp only [Bool.true_eq_false, if_false]
    rw [expect_labelled (s := s.past [b.meth]) hg (rest_cons hr) h.dazi (by decide) (by decide), Res.bind_ok]
    simp only [Bool.true_eq_false, if_false]
    rw [expect_line (s := (s.past [b.meth]).past [b.dazi]) hg (rest_cons (rest_cons hr)) hl.1 hl.2.1 (by decide),
      decide_eq_false hl.2.2, Res.bind_ok]
    exact ⟨[], _, rfl, rfl, hnf, rfl⟩
  | num l hl =>
    unfold collectPco
    rw [expect_labelled hg hr h.meth (by decide) (by decide), Res.bind_ok]
    simp only [Bool.true_eq_false, if_false]
    rw [expect_labelled (s := s.past [b.meth]) hg (rest_cons hr) h.dazi (by decide) (by decide), Res.bind_ok]
    simp only [Bool.true_eq_false, if_false]
    rw [expect_labelled (s := (s.past [b.meth]).past [b.dazi]) hg (rest_cons (rest_cons hr)) h.zen (by decide) (by decide), Res.bind_ok]
    simp only [Bool.true_eq_false, if_false]
    rw [expect_line (s := ((s.past [b.meth]).past [b.dazi]).past [b.zen]) hg (rest_cons (rest_cons (rest_cons hr))) hl.1 hl.2.1 (by decide),
      decide_eq_false hl.2.2, Res.bind_ok]
    exact ⟨[], _, rfl, rfl, hnf, rfl⟩
  | count l hl hn =>
    have h60 := hl.2.long (by decide)
    unfold collectPco
    rw [expect_labelled hg hr h.meth (by decide) (by decide), Res.bind_ok]
    simp only [Bool.true_eq_false, if_false]
    rw [expect_labelled (s := s.past [b.meth]) hg (rest_cons hr) h.dazi (by decide) (by decide), Res.bind_ok]
    simp only [Bool.true_eq_false, if_false]
    rw [expect_labelled (s := (s.past [b.meth]).past [b.dazi]) hg (rest_cons (rest_cons hr)) h.zen (by decide) (by decide), Res.bind_ok]
    simp only [Bool.true_eq_false, if_false]
    rw [expect_labelled (s := ((s.past [b.meth]).past [b.dazi]).past [b.zen]) hg (rest_cons (rest_cons (rest_cons hr))) hl (by decide)
      (by decide), Res.bind_ok]
    simp only [Bool.true_eq_false, if_false]
    rw [take_fill (by omega), stoi_noInt hn]
    exact ⟨[], _, rfl, rfl, hnf, rfl⟩
  | next fs q qs f l hfs hf hrm hl hl2 =>
    have hne : fs ≠ [] := by rintro rfl; cases hf
    have he : endsRms fs = false := by simp [endsRms, hf, hrm]
    obtain ⟨hline, gline, ps, s1, e1, e2, e3, e4, e5, e6⟩ := collect_upto (J := J) h hfs hl.1 (fun h => absurd h hne) hg hr hfuel
    obtain ⟨_, k⟩ := pcoAtFreq_line (gline := gline) hl.1 hl.2.1 e3 e4 (Nat.lt_of_le_of_lt e6 hfuel)
    obtain ⟨s2, k1, k2, k3⟩ := k hl.2.2 (fun _ => hl2)
    rw [he] at k1
    rw [e1, List.length_cons, pcoLoop, k1, Res.bind_ok]
    exact ⟨ps, s2, rfl, e2, k2, k3.trans e5⟩
  | nextRms fs q qs f l hfs hf hrm hl =>
    have hne : fs ≠ [] := by rintro rfl; cases hf
    have he : endsRms fs = true := by
      simp only [endsRms, hf]
      cases hq : f.rms with
      | none => exact absurd hq hrm
      | some _ => rfl
    obtain ⟨hline, gline, ps, s1, e1, e2, e3, e4, e5, e6⟩ := collect_upto (J := J) h hfs hl.1 (fun h => absurd h hne) hg hr hfuel
    obtain ⟨_, k⟩ := pcoAtFreq_line (gline := gline) hl.1 hl.2.1 e3 e4 (Nat.lt_of_le_of_lt e6 hfuel)
    obtain ⟨s2, k1, k2, k3⟩ := k hl.2.2 (fun hh => by rw [he] at hh; cases hh)
    rw [he] at k1
    rw [e1, List.length_cons, pcoLoop, k1, Res.bind_ok]
    exact ⟨ps, s2, rfl, e2, k2, k3.trans e5⟩
  | name fs q qs l hfs hl hbad =>
    have h60 := hl.2.long (by decide)
    obtain ⟨hline, gline, ps, s1, e1, e2, e3, e4, e5, e6⟩ := collect_upto (J := J) h hfs hl.1 (fun _ => hl.2) hg hr hfuel
    obtain ⟨k, _⟩ := pcoAtFreq_line (gline := gline) hl.1 (Nat.le_of_lt h60) e3 e4 (Nat.lt_of_le_of_lt e6 hfuel)
    obtain ⟨buf, g', s2, k1, k2, k3, k4, k5⟩ := k hl.2
    rw [e1, List.length_cons, pcoLoop, k1, Res.bind_ok]
    simp only [pcoBand_bad (Nat.le_of_lt h60) hbad, Res.bind_ok]
    exact ⟨ps, s2, rfl, e2, ((Stream.good_iff s2).1 k2).2, k3.trans e5⟩
  | neu fs q qs l hfs hl =>
    have hq : q.WF := h.freqs q (by rw [hfs]; simp)
    have h60 := hq.start.2.long (by decide)
    obtain ⟨hline, gline, ps, s1, e1, e2, e3, e4, e5, e6⟩ := collect_upto (J := J) (t := linesText [l] ++ t) h hfs hq.start.1
      (fun _ => hq.start.2) hg (by rw [hr]; simp [linesText]) hfuel
    obtain ⟨k, _⟩ := pcoAtFreq_line (gline := gline) hq.start.1 (Nat.le_of_lt h60) e3 e4 (Nat.lt_of_le_of_lt e6 hfuel)
    obtain ⟨buf, g', s2, k1, k2, k3, k4, k5⟩ := k hq.start.2
    rw [e1, List.length_cons, pcoLoop, k1, Res.bind_ok]
    simp only [pcoBand_freq hq, Res.bind_ok]
    rw [expect_line k2 k4 hl.1 hl.2.1 (by decide), decide_eq_false hl.2.2, Res.bind_ok]
    exact ⟨ps, _, rfl, e2, ((Stream.good_iff s2).1 k2).2, k3.trans e5⟩

/-- An offset that is no number ends the program. -/
theorem collect_badOffsets {strptime : List Char → Res DateTime} {J : AtxJunk} {b : AtxBlock} (h : b.WF strptime) {fs : List AtxFreq}
    {q : AtxFreq} {qs : List AtxFreq} (hfs : b.freqs = fs ++ q :: qs) {l : List Char} (hl : Labelled l c!"NORTH / EAST / UP")
    (hbad : BadOffsets l) {fuel : Nat} {s : Stream} {t : List Char} (hg : s.good = true)
    (hr : s.rest = linesText (b.top ++ (fs.map (·.lines)).flatten ++ [q.start, l]) ++ t) (hfuel : s.rest.length < fuel) :
    collectPco J fuel [] s = .terminate := by
  have hq : q.WF := h.freqs q (by rw [hfs]; simp)
  have h60 := hq.start.2.long (by decide)
  have hl60 := hl.2.long (by decide)
  obtain ⟨hline, gline, ps, s1, e1, e2, e3, e4, e5, e6⟩ := collect_upto (J := J) (t := linesText [l] ++ t) h hfs hq.start.1
    (fun _ => hq.start.2) hg (by rw [hr]; simp [linesText]) hfuel
  obtain ⟨k, _⟩ := pcoAtFreq_line (gline := gline) hq.start.1 (Nat.le_of_lt h60) e3 e4 (Nat.lt_of_le_of_lt e6 hfuel)
  obtain ⟨buf, g', s2, k1, k2, k3, k4, k5⟩ := k hq.start.2
  rw [e1, List.length_cons, pcoLoop, k1, Res.bind_ok]
  simp only [pcoBand_freq hq, Res.bind_ok]
  rw [expect_labelled k2 k4 hl (by decide) (by decide), Res.bind_ok]
  simp only [Bool.true_eq_false, if_false]
  rw [take_fill (by omega), drop_take_fill (by omega), drop_take_fill (by omega)]
  rcases hbad with hb | ⟨x, hx, hb⟩ | ⟨x, y, hx, hy, hb⟩
  · obtain ⟨e, he⟩ := stod_badReal hb
    rw [he]; rfl
  · obtain ⟨e, he⟩ := stod_badReal hb
    rw [stod_num hx, he]; rfl
  · obtain ⟨e, he⟩ := stod_badReal hb
    rw [stod_num hx, stod_num hy, he]; rfl

/-! ## The query -/

/-- The search in a file of raw records. -/
theorem findMatch_raw {J : AtxJunk} (hJ : J.WF) {rs : List AtxRaw} (hne : rs ≠ []) (hw : ∀ r ∈ rs, r.WF) {f : AtxFile} (hf : AtxOnRaw rs f)
    {ant : List Char} {k : AntCtor} {ss : List (List Char)} (hi : AntReach ant k ss) {fuel : Nat} (hfuel : f.strm.content.length < fuel) :
    ∃ m, atxFindMatch J fuel f ant = .ok m ∧ RawResult f.strm.content rs k ss (some 0) m := by
  obtain ⟨p, hp1, hp2⟩ := hf.head
  obtain ⟨hg, hc, hpos, hr⟩ := seekg_good hf.fail p
  have hblen : rs.length < fuel := by
    have h1 : rs.length ≤ (rs.map (·.lines)).flatten.length := by
      clear hne hw hf hp2
      induction rs with
      | nil => simp
      | cons b bs ih =>
        have : 0 < b.lines.length := by simp [AtxRaw.lines]
        simp only [List.map_cons, List.flatten_cons, List.length_append, List.length_cons]; omega
    have h2 := length_linesText (rs.map (·.lines)).flatten
    have h3 : (atxRawText rs).length ≤ f.strm.content.length := by rw [← hp2]; simp
    unfold atxRawText at h3
    omega
  obtain ⟨m, e1, e2⟩ := matchLoop_raw hJ hi rs hw fuel (List.replicate 20 ' ' ++ NUL :: (J.ant p).drop 21)
    (List.replicate 20 ' ' ++ NUL :: (J.ant p).drop 21) (some 0) none (f.strm.seekg p) hg (by rw [hr, hp2]) hblen (Or.inr ⟨rfl, hne⟩)
  rw [hc] at e2
  refine ⟨m, ?_, e2⟩
  unfold atxFindMatch
  simp only [hp1, atxSeek, hpos, antInit_eq (J.ant p) (hJ.ant p), Res.bind_ok]
  rw [e1]; rfl

/-- The record picked is the one whose lines are read. -/
theorem receiver_pick {J : AtxJunk} (hJ : J.WF) {rs : List AtxRaw} (hw : ∀ r ∈ rs, r.WF) {f : AtxFile} (hf : AtxOnRaw rs f)
    {ant : List Char} {k : AntCtor} {ss : List (List Char)} (hi : AntReach ant k ss) {must : Bool} {r : AtxRaw}
    (hp : RawPick rs k ss must r) {fuel : Nat} (hfuel : f.strm.content.length < fuel) :
    ∃ s more, s.good = true ∧ s.content = f.strm.content ∧ s.rest = linesText r.body ++ more ∧
      atxPcoReceiver J fuel f ant must = (collectPco J fuel [] s >>= fun c => pure (c.1, c.2.1, { f with strm := c.2.2 })) := by
  have hne : rs ≠ [] := by
    rintro rfl
    rcases hp with ⟨i, h, _⟩ | ⟨_, _, i, h, _⟩ <;> simp at h
  obtain ⟨m, hfind, e2, e3, e4⟩ := findMatch_raw hJ hne hw hf hi hfuel
  unfold atxPcoReceiver
  rw [hfind, Res.bind_ok]
  rcases e4 with ⟨i, b, q, more, x1, x2, x3, x4⟩ | ⟨x1, x2, x3⟩
  · have hb : b = r := RawPick.unique (must := must) (Or.inl ⟨i, x1⟩) hp
    subst hb
    obtain ⟨g1, g2, g3, g4⟩ := seekg_good e3 q
    rw [if_neg (by omega), if_neg (by omega), x3]
    exact ⟨m.strm.seekg q, more, g1, by rw [g2, e2], by rw [g4, e2, x4], rfl⟩
  · rcases hp with ⟨i, hp⟩ | ⟨y1, y2, i, y3⟩
    · exact absurd hp.2.1 (x1 r (List.mem_of_getElem? hp.1))
    · rw [if_neg (by omega), if_neg (by simp [y2])]
      rcases x3 with ⟨j, b, q, more, z1, z2, z3⟩ | ⟨z1, _⟩
      · have hb : b = r := z1.unique y3
        subst hb
        obtain ⟨g1, g2, g3, g4⟩ := seekg_good e3 q
        rw [z2]
        exact ⟨m.strm.seekg q, more, g1, by rw [g2, e2], by rw [g4, e2, z3], rfl⟩
      · exact absurd y3.2.1 (z1 r (List.mem_of_getElem? y3.1))

/-- **C80**.  In a file whose records begin and end as they should (but may be damaged inside), the
answer to a query for a receiver antenna depends only on the record it is about: if its lines, up to
some point, say `st` and `offs`, the query returns the status `st` and the offsets `offs`.  The object
can be queried again. -/
theorem C80_damaged_records_partial {strptime : List Char → Res DateTime} {J : AtxJunk} (hJ : J.WF) {rs : List AtxRaw} (hw : ∀ r ∈ rs, r.WF)
    {f : AtxFile} (hf : AtxOnRaw rs f) {ant : List Char} {k : AntCtor} {ss : List (List Char)} (hi : AntReach ant k ss) {must : Bool}
    {r : AtxRaw} (hp : RawPick rs k ss must r) {b : AtxBlock} (hb : b.WF strptime) {D E : List (List Char)} (hD : r.body = D ++ E)
    {st : Int} {offs : List (SatSys × Int × Rat × Rat × Rat)} (hs : AtxSays b D st offs) {fuel : Nat}
    (hfuel : f.strm.content.length < fuel) :
    ∃ l f', atxPcoReceiver J fuel f ant must = .ok (st, l, f') ∧ l.map Pco.flat = offs ∧ AtxOnRaw rs f' ∧
      f'.strm.content = f.strm.content := by
  obtain ⟨s, more, e1, e2, e3, e4⟩ := receiver_pick hJ hw hf hi hp hfuel
  obtain ⟨l, s', i1, i2, i3, i4⟩ := collect_says (J := J) (fuel := fuel) (t := linesText E ++ more) hb hs e1
    (by rw [e3, hD, linesText_append, List.append_assoc]) (by
      have : s.rest.length ≤ s.content.length := by simp [Stream.rest]
      rw [e2] at this; omega)
  obtain ⟨p, hp1, hp2⟩ := hf.head
  rw [e4, i1, Res.bind_ok]
  exact ⟨l, _, rfl, i2, ⟨⟨p, hp1, by show s'.content.drop p = _; rw [i4, e2]; exact hp2⟩, i3⟩, i4.trans e2⟩

/-- **C80**: no record of the file, damaged or not, is about the antenna: no offsets, and status 10 (the
serial number must match) or 1. -/
theorem C80_no_record {J : AtxJunk} (hJ : J.WF) {rs : List AtxRaw} (hne : rs ≠ []) (hw : ∀ r ∈ rs, r.WF)
    {f : AtxFile} (hf : AtxOnRaw rs f) (h1 : FirstLineOK f.strm.content) {ant : List Char} {k : AntCtor} {ss : List (List Char)}
    (hi : AntReach ant k ss) (hx : ∀ r ∈ rs, ¬ r.Exact k ss) {must : Bool} (hc : must = false → ∀ r ∈ rs, ¬ r.Close k) {fuel : Nat}
    (hfuel : f.strm.content.length < fuel) :
    ∃ f', atxPcoReceiver J fuel f ant must = .ok (if must = true then 10 else 1, [], f') ∧ AtxOnRaw rs f' ∧
      f'.strm.content = f.strm.content := by
  obtain ⟨p, hp1, hp2⟩ := hf.head
  obtain ⟨m, hfind, e2, e3, e4⟩ := findMatch_raw hJ hne hw hf hi hfuel
  unfold atxPcoReceiver
  rw [hfind, Res.bind_ok]
  rcases e4 with ⟨i, b, q, more, x1, _⟩ | ⟨x1, x2, x3⟩
  · exact absurd x1.2.1 (hx b (List.mem_of_getElem? x1.1))
  · rw [if_neg (by omega)]
    cases must with
    | true =>
      rw [if_pos ⟨x2, rfl⟩]
      exact ⟨_, rfl, ⟨⟨p, hp1, by rw [e2]; exact hp2⟩, e3⟩, e2⟩
    | false =>
      rw [if_neg (by simp)]
      rcases x3 with ⟨i, b, q, more, y1, _⟩ | ⟨y1, y2⟩
      · exact absurd y1.2.1 (hc rfl b (List.mem_of_getElem? y1.1))
      · obtain ⟨g1, g2, g3, g4⟩ := seekg_good e3 0
        obtain ⟨s', i1, i2, i3⟩ := collectPco_first (J := J) (fuel := fuel) g1 g3 (by rw [g2, e2]; exact h1)
        have hcc : s'.content = f.strm.content := by rw [i3, g2, e2]
        simp only [y2, atxSeek, i1, Res.bind_ok, Res.pure_eq]
        exact ⟨_, rfl, ⟨⟨p, hp1, by rw [hcc]; exact hp2⟩, i2⟩, hcc⟩

/-- **C80, why partial.**  If at some frequency of the record one of the three offsets is no number (or
does not fit a `double`), the query does not return: the program is terminated. -/
theorem C80_bad_offset_terminates {strptime : List Char → Res DateTime} {J : AtxJunk} (hJ : J.WF) {rs : List AtxRaw} (hw : ∀ r ∈ rs, r.WF)
    {f : AtxFile} (hf : AtxOnRaw rs f) {ant : List Char} {k : AntCtor} {ss : List (List Char)} (hi : AntReach ant k ss) {must : Bool}
    {r : AtxRaw} (hp : RawPick rs k ss must r) {b : AtxBlock} (hb : b.WF strptime) {fs : List AtxFreq} {q : AtxFreq} {qs : List AtxFreq}
    (hfs : b.freqs = fs ++ q :: qs) {l : List Char} (hl : Labelled l c!"NORTH / EAST / UP") (hbad : BadOffsets l) {E : List (List Char)}
    (hD : r.body = b.top ++ (fs.map (·.lines)).flatten ++ [q.start, l] ++ E) {fuel : Nat} (hfuel : f.strm.content.length < fuel) :
    atxPcoReceiver J fuel f ant must = .terminate := by
  obtain ⟨s, more, e1, e2, e3, e4⟩ := receiver_pick hJ hw hf hi hp hfuel
  have := collect_badOffsets (J := J) (fuel := fuel) (t := linesText E ++ more) hb hfs hl hbad e1
    (by rw [e3, hD, linesText_append, List.append_assoc]) (by
      have : s.rest.length ≤ s.content.length := by simp [Stream.rest]
      rw [e2] at this; omega)
  rw [e4, this]; rfl

end Ggnss
