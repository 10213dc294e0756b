import Verif.Model.Antex
import Verif.Spec.Antex
import Verif.Props.Bern
import Verif.Props.Antenna
/-! Reading of well-formed ANTEX lines. -/
namespace Ggnss

/-- The stream after the lines `ls`. -/
def Stream.past (s : Stream) (ls : List (List Char)) : Stream := s.adv (linesText ls).length

theorem Stream.past_good (s : Stream) (ls : List (List Char)) (h : s.good = true) : (s.past ls).good = true := h
theorem Stream.past_fail (s : Stream) (ls : List (List Char)) : (s.past ls).fail = s.fail := rfl
theorem Stream.past_content (s : Stream) (ls : List (List Char)) : (s.past ls).content = s.content := rfl
theorem Stream.past_past (s : Stream) (a b : List (List Char)) : (s.past a).past b = s.past (a ++ b) := by
  simp [past, linesText_append]
theorem Stream.past_nil (s : Stream) : s.past [] = s := by simp [past, linesText]
theorem Stream.past_rest {s : Stream} {ls : List (List Char)} {t : List Char} (h : s.rest = linesText ls ++ t) :
    (s.past ls).rest = t := Stream.adv_rest_append h

theorem linesText_one (l : List Char) : linesText [l] = l ++ ['\n'] := by simp [linesText]

theorem rest_cons {s : Stream} {l : List Char} {ls : List (List Char)} {t : List Char}
    (h : s.rest = linesText (l :: ls) ++ t) : (s.past [l]).rest = linesText ls ++ t := by
  apply Stream.past_rest
  rw [h, linesText_cons, linesText_one]; simp

theorem HasLabel.long {l p : List Char} (h : HasLabel l p) (hp : p ≠ []) : 60 < l.length := by
  by_contra hn
  have : l.drop 60 = [] := List.drop_eq_nil_iff.2 (by omega)
  unfold HasLabel at h
  rw [this] at h
  exact hp (List.prefix_nil.1 h)

theorem HasLabel.excl {l p q : List Char} (h : HasLabel l p) (h1 : ¬ p <+: q) (h2 : ¬ q <+: p) : ¬ HasLabel l q := by
  intro h'
  rcases List.prefix_or_prefix_of_prefix h h' with h3 | h3
  · exact h1 h3
  · exact h2 h3

theorem atxLabel_line {l buf pat : List Char} (hl : NUL ∉ l) (h60 : 60 ≤ l.length) (hp : IsCStr pat) :
    atxLabel (fillLine buf l) pat = .ok (decide (HasLabel l pat)) := by
  unfold atxLabel fillLine
  rw [drop_line h60]
  have := strncmpEq_cstr pat.length (l.drop 60) pat (buf.drop (l.length + 1)) [] (IsCStr.drop hl 60) hp
  unfold cArr
  rw [this, List.take_length]
  congr 1
  apply decide_eq_decide.2
  unfold HasLabel
  rw [List.prefix_iff_eq_take]
  exact ⟨fun h => h.symm, fun h => h.symm⟩

theorem getline_past {s : Stream} {l : List Char} {ls : List (List Char)} {t : List Char} {n : Nat}
    (hg : s.good = true) (hr : s.rest = linesText (l :: ls) ++ t) (hl : '\n' ∉ l) (hn : l.length ≤ n - 1) :
    s.getline n = (l, s.past [l]) := by
  rw [Stream.getline_line hg (l := l) (tail := linesText ls ++ t) (by rw [hr, linesText_cons]; simp) hl hn]
  simp [Stream.past, linesText_one]

theorem expect_line {s : Stream} {l : List Char} {ls : List (List Char)} {t buf pat : List Char} {n : Nat}
    (hg : s.good = true) (hr : s.rest = linesText (l :: ls) ++ t) (hl : LineFits (n - 1) l) (h60 : 60 ≤ l.length)
    (hp : IsCStr pat) :
    atxExpect n pat buf s = .ok (decide (HasLabel l pat), fillLine buf l, s.past [l]) := by
  unfold atxExpect
  rw [getline_past hg hr hl.1 hl.2.2]
  have hf : (s.past [l]).fail = false := ((Stream.good_iff s).1 hg).2
  simp only [hf, atxLabel_line hl.2.1 h60 hp, Res.bind_ok, Res.pure_eq, Bool.false_eq_true, if_false]

theorem expect_labelled {s : Stream} {l : List Char} {ls : List (List Char)} {t buf pat : List Char}
    (hg : s.good = true) (hr : s.rest = linesText (l :: ls) ++ t) (hl : Labelled l pat) (hp : IsCStr pat) (hne : pat ≠ []) :
    atxExpect ATX_HEADER_CHARS pat buf s = .ok (true, fillLine buf l, s.past [l]) := by
  rw [expect_line hg hr hl.1 (Nat.le_of_lt (hl.2.long hne)) hp, decide_eq_true hl.2]

theorem scanTo_lines {pat : List Char} {n : Nat} (hp : IsCStr pat) {last t : List Char}
    (hlast : LineFits (n - 1) last ∧ 60 ≤ last.length ∧ HasLabel last pat) :
    ∀ (ls : List (List Char)), (∀ l ∈ ls, LineFits (n - 1) l ∧ 60 ≤ l.length ∧ ¬ HasLabel l pat) →
    ∀ (fuel : Nat) (buf : List Char) (s : Stream), s.good = true → s.rest = linesText (ls ++ [last]) ++ t →
      ls.length < fuel →
    ∃ buf', atxScanTo n pat fuel buf s = .ok (fillLine buf' last, s.past (ls ++ [last])) := by
  intro ls
  induction ls with
  | nil =>
    intro _ fuel buf s hg hr hf
    obtain ⟨fuel, rfl⟩ : ∃ k, fuel = k + 1 := ⟨fuel - 1, by simp at hf; omega⟩
    unfold atxScanTo
    have h1 := getline_past (n := n) hg (l := last) (ls := []) (t := t) (by simpa using hr) hlast.1.1 hlast.1.2.2
    have hff : (s.past [last]).fail = false := ((Stream.good_iff s).1 hg).2
    simp only [h1, hff, atxLabel_line hlast.1.2.1 hlast.2.1 hp, Res.bind_ok, Res.pure_eq, Bool.false_eq_true, if_false]
    rw [if_pos (decide_eq_true hlast.2.2)]
    exact ⟨buf, by simp⟩
  | cons l ls ih =>
    intro hw fuel buf s hg hr hf
    obtain ⟨fuel, rfl⟩ : ∃ k, fuel = k + 1 := ⟨fuel - 1, by simp at hf; omega⟩
    obtain ⟨hl1, hl2, hl3⟩ := hw l (by simp)
    have hff : (s.past [l]).fail = false := ((Stream.good_iff s).1 hg).2
    unfold atxScanTo
    simp only [getline_past hg hr hl1.1 hl1.2.2, hff, atxLabel_line hl1.2.1 hl2 hp, Res.bind_ok, Res.pure_eq,
      Bool.false_eq_true, if_false]
    rw [if_neg (by simp [hl3])]
    obtain ⟨buf', h⟩ := ih (fun x hx => hw x (by simp [hx])) fuel (fillLine buf l) (s.past [l]) hg (rest_cons hr)
      (by simp at hf; omega)
    exact ⟨buf', by rw [h, Stream.past_past]; rfl⟩

theorem skip_lines {last t : List Char} (hlast : Labelled last c!"END OF ANTENNA") :
    ∀ (ls : List (List Char)), (∀ l ∈ ls, GridLine l ∧ ¬ HasLabel l c!"END OF ANTENNA") →
    ∀ (left : Nat) (buf : List Char) (s : Stream), s.good = true → s.rest = linesText (ls ++ [last]) ++ t →
      ls.length + 1 < left → atxSkipLoop left buf s = .ok (0, s.past (ls ++ [last])) := by
  have hp : IsCStr c!"END OF ANTENNA" := by decide
  intro ls
  induction ls with
  | nil =>
    intro _ left buf s hg hr hf
    obtain ⟨left, rfl⟩ : ∃ k, left = k + 2 := ⟨left - 2, by simp at hf; omega⟩
    unfold atxSkipLoop
    have h1 := getline_past (n := ATX_GRID_CHARS) hg (l := last) (ls := []) (t := t) (by simpa using hr) hlast.1.1
      (by have := hlast.1.2.2; unfold ATX_GRID_CHARS; omega)
    simp only [h1, atxLabel_line hlast.1.2.1 (Nat.le_of_lt (hlast.2.long (by decide))) hp, Res.bind_ok, Res.pure_eq]
    rw [if_pos (decide_eq_true hlast.2)]
    simp
  | cons l ls ih =>
    intro hw left buf s hg hr hf
    obtain ⟨left, rfl⟩ : ∃ k, left = k + 1 := ⟨left - 1, by simp at hf; omega⟩
    obtain ⟨hl1, hl3⟩ := hw l (by simp)
    unfold atxSkipLoop
    simp only [getline_past hg hr hl1.1.1 (n := ATX_GRID_CHARS) hl1.1.2.2, atxLabel_line hl1.1.2.1 hl1.2 hp, Res.bind_ok, Res.pure_eq]
    rw [if_neg (by simp [hl3])]
    rw [ih (fun x hx => hw x (by simp [hx])) left (fillLine buf l) (s.past [l]) hg (rest_cons hr)
      (by simp at hf; omega), Stream.past_past]
    rfl

/-! ## Numbers -/

theorem stoi_nat {l : List Char} {v : Nat} (h : NatAt l 0 v) : stoi l = .ok (v : Int) := by
  obtain ⟨h0, k, ds, rest, h1, h2, h3, h4, h5, h7⟩ := h
  rw [List.drop_zero] at h1
  subst h1
  have htw := takeWhile_digits ds rest h2 h4
  have hdw : (List.replicate k ' ' ++ (ds ++ rest)).dropWhile isSpace = ds ++ rest := by
    apply dropWhile_blanks
    intro c hc
    exact isDigit_not_space c (h2 c (head_digits_append h3 hc))
  have hs : strtol (List.replicate k ' ' ++ (ds ++ rest)) = some ((v : Int), rest, false) := by
    unfold strtol
    simp only [hdw]
    rw [takeSign_other _ (fun c hc => isDigit_not_sign c (h2 c (head_digits_append h3 hc)))]
    simp only [htw.1, htw.2, h3, if_false, Bool.false_eq_true]
    have e : digitsVal ds = v := h5
    rw [e, if_neg (by unfold LONG_MAX; omega), if_neg (by unfold LONG_MIN; omega)]
  unfold stoi
  rw [hs]
  simp only
  rw [if_neg (by simp; omega)]

theorem stod_num {l : List Char} {n : Numeral} (h : NumAt l 0 n) : stod l = .ok n.value := by
  obtain ⟨_, h2, rest, h3, h4⟩ := h
  rw [List.drop_zero] at h3
  unfold stod
  rw [h3, strtod_numeral n h2 rest h4]
  rfl

theorem take_fill {l buf : List Char} {n : Nat} (h : n ≤ l.length) : (fillLine buf l).take n = l.take n := by
  unfold fillLine; exact List.take_append_of_le_length h

theorem drop_take_fill {l buf : List Char} {n m : Nat} (h : m + n ≤ l.length) :
    ((fillLine buf l).drop m).take n = (l.drop m).take n := by
  unfold fillLine
  rw [drop_line (by omega), List.take_append_of_le_length (by simp; omega)]

/-! ## Lines of a block -/

theorem GridLine.of_labelled {l p : List Char} (h : Labelled l p) (hp : p ≠ []) : GridLine l :=
  ⟨⟨h.1.1, h.1.2.1, by have := h.1.2.2; omega⟩, Nat.le_of_lt (h.2.long hp)⟩

/-- Every line of a block but the last is a line that does not end the antenna. -/
def Inner (l : List Char) : Prop := GridLine l ∧ ¬ HasLabel l c!"END OF ANTENNA"

theorem Inner.of_labelled {l p : List Char} (h : Labelled l p) (hp : p ≠ []) (h1 : ¬ p <+: c!"END OF ANTENNA")
    (h2 : ¬ c!"END OF ANTENNA" <+: p) : Inner l := ⟨.of_labelled h hp, h.2.excl h1 h2⟩

theorem AtxFreq.inner {f : AtxFreq} (h : f.WF) : ∀ l ∈ f.lines, Inner l := by
  intro l hl
  unfold AtxFreq.lines at hl
  simp only [List.mem_cons, List.mem_append] at hl
  rcases hl with rfl | rfl | hl | rfl | hl
  · exact .of_labelled h.start (by decide) (by decide) (by decide)
  · exact .of_labelled h.neu (by decide) (by decide) (by decide)
  · exact ⟨(h.pattern l hl).1, (h.pattern l hl).2.2⟩
  · exact .of_labelled h.stop (by decide) (by decide) (by decide)
  · unfold AtxFreq.rmsLines at hl
    split at hl
    · simp at hl
    · rename_i a ls b he
      obtain ⟨h1, h2, h3⟩ := h.rms a ls b he
      simp only [List.mem_cons, List.mem_append, List.not_mem_nil, or_false] at hl
      rcases hl with rfl | hl | rfl
      · exact .of_labelled h1 (by decide) (by decide) (by decide)
      · exact ⟨(h3 l hl).1, (h3 l hl).2.2⟩
      · exact .of_labelled h2 (by decide) (by decide) (by decide)

theorem AtxOpt.inner {strptime : List Char → Res DateTime} {o : AtxOpt} (h : o.WF strptime) :
    Inner o.line ∧ ¬ HasLabel o.line c!"START OF FREQUENCY" ∧ LineFits 84 o.line := by
  cases o with
  | validFrom d l =>
    exact ⟨.of_labelled h.1 (by decide) (by decide) (by decide), h.1.2.excl (by decide) (by decide), h.1.1⟩
  | validUntil d l =>
    exact ⟨.of_labelled h.1 (by decide) (by decide) (by decide), h.1.2.excl (by decide) (by decide), h.1.1⟩
  | other l =>
    obtain ⟨h1, h2, h3, h4, h5, h6⟩ := h
    exact ⟨⟨⟨⟨h1.1, h1.2.1, by have := h1.2.2; show l.length ≤ 511; omega⟩, h2⟩, h6⟩, h5, h1⟩

/-- The lines of the body before the last. -/
def AtxBlock.inside (b : AtxBlock) : List (List Char) :=
  [b.meth, b.dazi, b.zen, b.num] ++ b.opts.map (·.line) ++ (b.freqs.map (·.lines)).flatten

theorem AtxBlock.body_eq (b : AtxBlock) : b.body = b.inside ++ [b.last] := rfl

theorem AtxBlock.inner {strptime : List Char → Res DateTime} {b : AtxBlock} (h : b.WF strptime) :
    ∀ l ∈ b.inside, Inner l := by
  intro l hl
  unfold AtxBlock.inside at hl
  simp only [List.mem_cons, List.mem_append, List.not_mem_nil, or_false, List.mem_map, List.mem_flatten] at hl
  rcases hl with ((rfl | rfl | rfl | rfl) | ⟨o, ho, rfl⟩) | ⟨ls, ⟨f, hf, rfl⟩, hl⟩
  · exact .of_labelled h.meth (by decide) (by decide) (by decide)
  · exact .of_labelled h.dazi (by decide) (by decide) (by decide)
  · exact .of_labelled h.zen (by decide) (by decide) (by decide)
  · exact .of_labelled h.num (by decide) (by decide) (by decide)
  · exact (AtxOpt.inner (h.opts o ho)).1
  · exact AtxFreq.inner (h.freqs f hf) l hl

/-- From any place inside a block the reader finds its end. -/
theorem skip_block {strptime : List Char → Res DateTime} {b : AtxBlock} (h : b.WF strptime)
    (pre ls : List (List Char)) (hb : b.inside = pre ++ ls) {J : AtxJunk} {s : Stream} {t : List Char}
    (hg : s.good = true) (hr : s.rest = linesText (ls ++ [b.last]) ++ t) :
    atxSkip J s = .ok (0, s.past (ls ++ [b.last])) := by
  unfold atxSkip
  apply skip_lines h.last ls (fun l hl => AtxBlock.inner h l (by rw [hb]; simp [hl])) 5000 _ s hg hr
  have := h.few
  rw [AtxBlock.body_eq, hb] at this
  simp at this; omega

end Ggnss
