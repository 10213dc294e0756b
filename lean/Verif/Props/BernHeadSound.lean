import Verif.Spec.BernHeadSound
import Verif.Props.BernAny
import Verif.Lemmas.Antex
/-! # C107: a SATELLIT file is opened exactly when its header is there, and the object stands on the records -/
namespace Ggnss

theorem begins_false {pat l : List Char} (h : ¬ pat <+: l) : decide (pat = l.take pat.length) = false := by
  rw [decide_eq_false_iff_not]; exact fun e => h (List.prefix_iff_eq_take.2 e)

theorem begins_true {pat l : List Char} (h : pat <+: l) : decide (pat = l.take pat.length) = true := by
  rw [decide_eq_true_eq]; exact List.prefix_iff_eq_take.1 h

/-- Reading from lines. -/
theorem bern_next {ls : List (List Char)} {s : Stream} (hg : s.good = true) (hr : s.rest = linesText ls) (hf : ∀ l ∈ ls, LineFits 255 l) :
    (ls = [] ∧ s.getline MAX_SATELLIT_CHARS = ([], { s with eof := true, fail := true })) ∨
    ∃ l ls', ls = l :: ls' ∧ s.getline MAX_SATELLIT_CHARS = (l, s.past [l]) ∧ (s.past [l]).good = true ∧ (s.past [l]).rest = linesText ls' := by
  cases ls with
  | nil => exact Or.inl ⟨rfl, Stream.getline_last (l := []) hg (by rw [hr]; rfl) (by simp) (by simp)⟩
  | cons l ls' =>
    have hl := hf l (by simp)
    have hr' : s.rest = linesText (l :: ls') ++ [] := by simpa using hr
    exact Or.inr ⟨l, ls', rfl, getline_past hg hr' hl.1 hl.2.2, hg, by simpa using rest_cons hr'⟩

theorem bernSkip_dead : ∀ (left : Nat) (buf l0 : List Char) (s : Stream), NUL ∉ l0 → ¬ bernPart2 <+: l0 → s.good = false →
    ∃ r, bernSkip left (fillLine buf l0) s = .ok r ∧ r.2.2.good = false := by
  have hcs : IsCStr bernPart2 := by decide
  intro left
  induction left with
  | zero =>
    intro buf l0 s h0 hn hs
    unfold bernSkip
    rw [strncmpEq_start h0 hcs, Res.bind_ok]
    exact ⟨_, rfl, hs⟩
  | succ left ih =>
    intro buf l0 s h0 hn hs
    unfold bernSkip
    rw [strncmpEq_start h0 hcs, Res.bind_ok, begins_false hn]
    simp only [Bool.false_eq_true, if_false, Stream.getline_bad hs]
    exact ih _ [] _ (by simp) (by decide) (by simp [Stream.good])

/-- No PART 2 line among those that count. -/
theorem bernSkip_none : ∀ (left : Nat) (ls : List (List Char)) (buf l0 : List Char) (s : Stream), NUL ∉ l0 → ¬ bernPart2 <+: l0 →
    (∀ l ∈ ls, LineFits 255 l) → (∀ l ∈ ls.take left, ¬ bernPart2 <+: l) → s.good = true → s.rest = linesText ls →
    ∃ r, bernSkip (left + 1) (fillLine buf l0) s = .ok r ∧ (r.2.2.good = false ∨ r.1 = 0) := by
  have hcs : IsCStr bernPart2 := by decide
  intro left
  induction left with
  | zero =>
    intro ls buf l0 s h0 hn hf _ hg hr
    rw [bernSkip, strncmpEq_start h0 hcs, Res.bind_ok, begins_false hn]
    simp only [Bool.false_eq_true, if_false]
    have hnul : ∃ l, (s.getline MAX_SATELLIT_CHARS).1 = l ∧ NUL ∉ l := by
      rcases bern_next hg hr hf with ⟨_, e⟩ | ⟨l, ls', rfl, e, _⟩
      · rw [e]; exact ⟨[], rfl, by simp⟩
      · rw [e]; exact ⟨l, rfl, (hf l (by simp)).2.1⟩
    obtain ⟨l, e, hl⟩ := hnul
    rw [e, bernSkip, strncmpEq_start hl hcs, Res.bind_ok]
    exact ⟨_, rfl, Or.inr rfl⟩
  | succ left ih =>
    intro ls buf l0 s h0 hn hf hw hg hr
    rw [bernSkip, strncmpEq_start h0 hcs, Res.bind_ok, begins_false hn]
    simp only [Bool.false_eq_true, if_false]
    rcases bern_next hg hr hf with ⟨_, e⟩ | ⟨l, ls', rfl, e, h1, h2⟩
    · rw [e]
      obtain ⟨r, h, h'⟩ := bernSkip_dead (left + 1) (fillLine buf l0) [] { s with eof := true, fail := true } (by simp) (by decide) (by simp [Stream.good])
      exact ⟨r, h, Or.inl h'⟩
    · rw [e]
      exact ih ls' _ l _ (hf l (by simp)).2.1 (hw l (by simp)) (fun x hx => hf x (by simp [hx])) (fun x hx => hw x (by simp [hx])) h1 h2

theorem first_beginning (p : List Char) : ∀ (n : Nat) (ls : List (List Char)), (∀ l ∈ ls.take n, ¬ p <+: l) ∨
    ∃ pre x post, ls = pre ++ x :: post ∧ pre.length < n ∧ p <+: x ∧ ∀ l ∈ pre, ¬ p <+: l := by
  intro n
  induction n with
  | zero => intro ls; left; simp
  | succ n ih =>
    intro ls
    cases ls with
    | nil => left; simp
    | cons l ls =>
      by_cases h : p <+: l
      · exact Or.inr ⟨[], l, ls, rfl, by simp, h, by simp⟩
      · rcases ih ls with h' | ⟨pre, x, post, rfl, h2, h3, h4⟩
        · left; simpa using ⟨h, h'⟩
        · right
          refine ⟨l :: pre, x, post, rfl, by simpa using h2, h3, ?_⟩
          simpa using ⟨h, h4⟩

theorem first_unique {p : List Char} : ∀ {a b : List (List Char)} {x y : List Char} {u v : List (List Char)}, a ++ x :: u = b ++ y :: v → p <+: x → p <+: y →
    (∀ l ∈ a, ¬ p <+: l) → (∀ l ∈ b, ¬ p <+: l) → a = b ∧ x = y ∧ u = v := by
  intro a
  induction a with
  | nil =>
    intro b x y u v h hx hy _ hb
    cases b with
    | nil => simp only [List.nil_append, List.cons.injEq] at h; exact ⟨rfl, h.1, h.2⟩
    | cons b bs =>
      simp only [List.nil_append, List.cons_append, List.cons.injEq] at h
      exact absurd (h.1 ▸ hx) (hb b (by simp))
  | cons a as ih =>
    intro b x y u v h hx hy ha hb
    cases b with
    | nil =>
      simp only [List.nil_append, List.cons_append, List.cons.injEq] at h
      exact absurd (h.1 ▸ hy) (ha a (by simp))
    | cons b bs =>
      simp only [List.cons_append, List.cons.injEq] at h
      obtain ⟨rfl, h⟩ := h
      obtain ⟨rfl, h2⟩ := ih h hx hy (fun l hl => ha l (by simp [hl])) (fun l hl => hb l (by simp [hl]))
      exact ⟨rfl, h2⟩

theorem bernLine1_not {first : List Char} (h : bernLine1 <+: first) : ¬ bernPart2 <+: first := by
  intro hc
  have h1 := List.prefix_iff_eq_take.1 hc
  have h2 := List.prefix_iff_eq_take.1 h
  have e1 : bernPart2.take 1 = first.take 1 := by
    conv_lhs => rw [h1, List.take_take, show min 1 bernPart2.length = 1 from rfl]
  have e2 : bernLine1.take 1 = first.take 1 := by
    conv_lhs => rw [h2, List.take_take, show min 1 bernLine1.length = 1 from rfl]
  rw [← e2] at e1
  revert e1
  decide

/-- Everything about opening a file of lines. -/
theorem bernOpen_exact {junk : List Char} {ls : List (List Char)} (hf : ∀ l ∈ ls, LineFits 255 l) :
    (∃ f tail, bernOpen junk (linesText ls) = .ok f ∧ BernHead ls tail ∧ BernStands tail f ∧ f.strm.content = linesText ls) ∨
    (bernOpen junk (linesText ls) = .throw .runtime_error ∧ ∀ tail, ¬ BernHead ls tail) := by
  have hcs1 : IsCStr bernLine1 := by decide
  have hcsa : IsCStr bernHead1 := by decide
  have hcsb : IsCStr bernHead2 := by decide
  generalize hct : linesText ls = content
  have hg : (⟨content, 0, false, false⟩ : Stream).good = true := rfl
  have hr : (⟨content, 0, false, false⟩ : Stream).rest = linesText ls := by rw [hct]; simp [Stream.rest]
  have hs0 : (⟨content, 0, false, false⟩ : Stream).seekg 0 = ⟨content, 0, false, false⟩ := rfl
  have hc0 : (⟨content, 0, false, false⟩ : Stream).content = content := rfl
  unfold bernOpen
  generalize hs : (⟨content, 0, false, false⟩ : Stream) = s at hg hr hs0 hc0
  unfold bernInitialize
  simp only [hs0]
  rcases bern_next hg hr hf with ⟨rfl, e⟩ | ⟨first, ls', rfl, e, hg1, hr1⟩
  · right
    rw [e]
    simp only
    rw [strncmpEq_start (by simp) hcs1, Res.bind_ok, begins_false (by decide)]
    refine ⟨rfl, ?_⟩
    rintro tail ⟨_, _, _, _, _, _, h, _⟩
    cases h
  rw [e]
  simp only
  have hff := hf first (by simp)
  have hf' : ∀ l ∈ ls', LineFits 255 l := fun l hl => hf l (by simp [hl])
  rw [strncmpEq_start hff.2.1 hcs1, Res.bind_ok]
  by_cases hline1 : bernLine1 <+: first
  swap
  · right
    rw [begins_false hline1]
    refine ⟨rfl, ?_⟩
    rintro tail ⟨_, _, _, _, _, _, h, h', _⟩
    exact hline1 ((List.cons.inj h).1 ▸ h')
  rw [begins_true hline1]
  simp only [Bool.true_eq_false, if_false]
  have hnp := bernLine1_not hline1
  rcases first_beginning bernPart2 999 ls' with hnone | ⟨pre, part2, post, rfl, hlen, hp2, hpre⟩
  · right
    obtain ⟨r, h1, h2⟩ := bernSkip_none 999 ls' junk first _ hff.2.1 hnp hf' hnone hg1 hr1
    rw [h1, Res.bind_ok, if_pos h2]
    refine ⟨rfl, ?_⟩
    rintro tail ⟨f', pre, part2, _, _, _, h, _, _, h3, h4, _⟩
    obtain ⟨_, rfl⟩ := List.cons.inj h
    refine hnone part2 ?_ h4
    rw [List.take_append, List.mem_append]
    right
    rw [show 999 - pre.length = (998 - pre.length) + 1 by omega]
    simp
  obtain ⟨left', buf', hk⟩ := bernSkip_lines part2 (linesText post) (hf' part2 (by simp)) hp2 pre 1000 (by omega)
    (fun l hl => ⟨hf' l (by simp [hl]), hpre l hl⟩) junk first (s.past [first]) hff.2.1 hnp hg1 (by rw [hr1, linesText_append, linesText_cons])
  rw [hk, Res.bind_ok]
  generalize hs1 : (s.past [first]).adv ((linesText pre ++ (part2 ++ ['\n'])).length) = s1
  have hg2 : s1.good = true := by rw [← hs1]; exact hg1
  have hc2 : s1.content = content := by rw [← hs1]; exact hc0
  have hr2 : s1.rest = linesText post := by
    rw [← hs1]
    exact Stream.adv_rest_append (a := linesText pre ++ (part2 ++ ['\n'])) (by rw [hr1, linesText_append, linesText_cons]; simp)
  simp only
  rw [if_neg (by simp [hg2])]
  have hfp : ∀ l ∈ post, LineFits 255 l := fun l hl => hf' l (by simp [hl])
  -- a header that these lines could have
  have only : ∀ tail, BernHead (first :: (pre ++ part2 :: post)) tail → ∃ dashes head1 head2, post = dashes :: head1 :: head2 :: tail ∧ bernHead1 <+: head1 ∧ bernHead2 <+: head2 := by
    rintro tail ⟨f', pre', part2', dashes, head1, head2, h, _, h2, _, h4, h5, h6⟩
    obtain ⟨_, h⟩ := List.cons.inj h
    obtain ⟨_, _, h⟩ := first_unique h hp2 h4 hpre h2
    exact ⟨dashes, head1, head2, h, h5, h6⟩
  have hbad : ∀ s : Stream, ({ s with eof := true, fail := true } : Stream).good = false := fun s => by simp [Stream.good]
  have refuse12 : ∀ (buf l : List Char) (sx : Stream) (k : Res (Int × Option Nat × Stream)), NUL ∉ l → ¬ bernHead1 <+: l →
      (do let e ← strncmpEq bernHead1.length (cArr bernHead1) (fillLine buf l)
          if e = false then pure (12, some 0, sx) else k) = Res.ok ((12 : Int), some 0, sx) := by
    intro buf l sx k h0 hn
    rw [strncmpEq_start h0 hcsa, Res.bind_ok, begins_false hn]
    rfl
  rcases bern_next hg2 hr2 hfp with ⟨rfl, e1⟩ | ⟨dashes, post1, rfl, e1, hg3, hr3⟩
  · right
    rw [e1]
    simp only [Stream.getline_bad (hbad s1)]
    rw [refuse12 _ _ _ _ (by simp) (by decide)]
    refine ⟨rfl, fun tail ht => ?_⟩
    obtain ⟨_, _, _, h, _⟩ := only tail ht
    cases h
  rw [e1]
  simp only
  rcases bern_next hg3 hr3 (fun l hl => hfp l (by simp [hl])) with ⟨rfl, e2⟩ | ⟨head1, post2, rfl, e2, hg4, hr4⟩
  · right
    rw [e2]
    simp only
    rw [refuse12 _ _ _ _ (by simp) (by decide)]
    refine ⟨rfl, fun tail ht => ?_⟩
    obtain ⟨_, _, _, h, _⟩ := only tail ht
    cases h
  rw [e2]
  simp only
  have hh1 := hfp head1 (by simp)
  by_cases hhead1 : bernHead1 <+: head1
  swap
  · right
    rw [refuse12 _ _ _ _ hh1.2.1 hhead1]
    refine ⟨rfl, fun tail ht => ?_⟩
    obtain ⟨_, _, _, h, h1, _⟩ := only tail ht
    obtain ⟨_, h⟩ := List.cons.inj h
    exact hhead1 ((List.cons.inj h).1 ▸ h1)
  rw [strncmpEq_start hh1.2.1 hcsa, Res.bind_ok, begins_true hhead1]
  simp only [Bool.true_eq_false, if_false]
  rcases bern_next hg4 hr4 (fun l hl => hfp l (by simp [hl])) with ⟨rfl, e3⟩ | ⟨head2, tail, rfl, e3, hg5, hr5⟩
  · right
    rw [e3]
    simp only
    rw [strncmpEq_start (by simp) hcsb, Res.bind_ok, begins_false (by decide)]
    refine ⟨rfl, fun tail ht => ?_⟩
    obtain ⟨_, _, _, h, _⟩ := only tail ht
    simp at h
  rw [e3]
  simp only
  have hh2 := hfp head2 (by simp)
  by_cases hhead2 : bernHead2 <+: head2
  swap
  · right
    rw [strncmpEq_start hh2.2.1 hcsb, Res.bind_ok, begins_false hhead2]
    refine ⟨rfl, fun tail ht => ?_⟩
    obtain ⟨_, _, _, h, _, h2⟩ := only tail ht
    simp only [List.cons.injEq] at h
    exact hhead2 (h.2.2.1 ▸ h2)
  rw [strncmpEq_start hh2.2.1 hcsb, Res.bind_ok, begins_true hhead2]
  simp only [Bool.true_eq_false, if_false]
  left
  have hhead : BernHead (first :: (pre ++ part2 :: dashes :: head1 :: head2 :: tail)) tail :=
    ⟨first, pre, part2, dashes, head1, head2, rfl, hline1, hpre, hlen, hp2, hhead1, hhead2⟩
  rcases bern_next hg5 hr5 (fun l hl => hfp l (by simp [hl])) with ⟨rfl, e4⟩ | ⟨blank, rest, rfl, e4, hg6, hr6⟩
  · rw [e4]
    refine ⟨_, [], rfl, hhead, Or.inl ⟨rfl, ?_, ?_⟩, ?_⟩
    · simp [Stream.tellg, Stream.good]
    · simp [Stream.tellg, Stream.good]
    · simp only [Stream.tellg, Stream.good]
      exact hc2
  · rw [e4]
    refine ⟨_, blank :: rest, rfl, hhead, Or.inr ⟨blank, rest, ((((s1.past [dashes]).past [head1]).past [head2]).past [blank]).pos, rfl, ?_, ?_, ?_⟩, ?_⟩
    · simp only [tellg_good hg6]
    · simp only [tellg_good hg6]; exact ((Stream.good_iff _).1 hg6).2
    · simp only [tellg_good hg6]; exact hr6
    · simp only [tellg_good hg6]; exact hc2

/-- **C107**.  Whatever lines of at most 255 chars a file consists of: if it is opened, its first line names the format, the PART 2 line and the headings are there, and the
object stands on the records, i.e. behind the line that follows the headings (without any such line it has no position). -/
theorem C107_opened {junk : List Char} {ls : List (List Char)} (hf : ∀ l ∈ ls, LineFits 255 l) {f : BernFile} (h : bernOpen junk (linesText ls) = .ok f) :
    ∃ tail, BernHead ls tail ∧ BernStands tail f ∧ f.strm.content = linesText ls := by
  rcases bernOpen_exact (junk := junk) hf with ⟨g, tail, e, h1, h2, h3⟩ | ⟨e, _⟩
  · rw [e] at h; cases h; exact ⟨tail, h1, h2, h3⟩
  · rw [e] at h; cases h

/-- **C107**: it is opened exactly when the header is there, and refused with an exception otherwise. -/
theorem C107_opened_iff {junk : List Char} {ls : List (List Char)} (hf : ∀ l ∈ ls, LineFits 255 l) :
    ((∃ f, bernOpen junk (linesText ls) = .ok f) ↔ ∃ tail, BernHead ls tail) ∧
    (bernOpen junk (linesText ls) = .throw .runtime_error ↔ ¬ ∃ tail, BernHead ls tail) := by
  rcases bernOpen_exact (junk := junk) hf with ⟨g, tail, e, h1, _⟩ | ⟨e, hn⟩
  · rw [e]
    refine ⟨⟨fun _ => ⟨tail, h1⟩, fun _ => ⟨g, rfl⟩⟩, ⟨fun h => ?_, fun h => absurd ⟨tail, h1⟩ h⟩⟩
    cases h
  · rw [e]
    refine ⟨⟨fun h => ?_, fun ⟨f, h⟩ => absurd h (hn f)⟩, ⟨fun _ ⟨f, h⟩ => hn f h, fun _ => rfl⟩⟩
    obtain ⟨f, h⟩ := h
    cases h

/-- **C107**: the lines leave no choice. -/
theorem C107_determined {ls t1 t2 : List (List Char)} (h1 : BernHead ls t1) (h2 : BernHead ls t2) : t1 = t2 := by
  obtain ⟨f, pre, part2, d, a, b, e, _, q1, _, q2, _⟩ := h1
  obtain ⟨f', pre', part2', d', a', b', e', _, q1', _, q2', _⟩ := h2
  rw [e] at e'
  obtain ⟨_, h⟩ := List.cons.inj e'
  obtain ⟨_, _, h⟩ := first_unique h q2 q2' q1 q1'
  simp only [List.cons.injEq] at h
  exact h.2.2.2

/-- **C107**, an object without records: a file that ends with the headings is opened, and the object has no position. -/
theorem C107_headings_last {junk : List Char} {ls : List (List Char)} (hf : ∀ l ∈ ls, LineFits 255 l) (h : BernHead ls []) :
    ∃ f, bernOpen junk (linesText ls) = .ok f ∧ f.part2 = none ∧ f.strm.fail = true := by
  obtain ⟨f, e⟩ := (C107_opened_iff (junk := junk) hf).1.2 ⟨[], h⟩
  obtain ⟨tail, h1, h2, _⟩ := C107_opened hf e
  have := C107_determined h1 h
  subst this
  rcases h2 with ⟨_, h2, h3⟩ | ⟨_, _, _, h2, _⟩
  · exact ⟨f, e, h2, h3⟩
  · cases h2

end Ggnss
