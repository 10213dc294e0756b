import Verif.Spec.BernOpen
import Verif.Props.BernAny
import Verif.Lemmas.Antex
import Verif.Props.BernExample
/-!
# C72: which files the SATELLIT constructor accepts
-/
namespace Ggnss

/-- The stream stands before the lines `ls` of a text file, or has failed at its end. -/
def At (s : Stream) (ls : List (List Char)) : Prop := (s.good = true ∧ s.rest = linesText ls) ∨ (s.good = false ∧ ls = [])

theorem At.getline {s : Stream} {ls : List (List Char)} (h : At s ls) (hf : ∀ l ∈ ls, LineFits 255 l) :
    (s.getline MAX_SATELLIT_CHARS).1 = ls.headD [] ∧ At (s.getline MAX_SATELLIT_CHARS).2 ls.tail ∧
      (ls = [] → (s.getline MAX_SATELLIT_CHARS).2.good = false) ∧
      (∀ l ls', ls = l :: ls' → (s.getline MAX_SATELLIT_CHARS).2 = s.past [l] ∧ s.good = true) := by
  rcases h with ⟨hg, hr⟩ | ⟨hg, rfl⟩
  · cases ls with
    | nil =>
      have e : s.getline MAX_SATELLIT_CHARS = ([], { s with pos := s.pos + 0, eof := true, fail := true }) := by
        rw [Stream.getline_last hg (l := []) (by rw [hr]; rfl) (by simp) (by decide)]
        rfl
      rw [e]
      refine ⟨rfl, Or.inr ⟨by simp [Stream.good], rfl⟩, fun _ => by simp [Stream.good], fun l ls' h => by cases h⟩
    | cons l ls =>
      obtain ⟨f1, f2, f3⟩ := hf l (by simp)
      have hr' : s.rest = linesText (l :: ls) ++ [] := by simpa using hr
      rw [getline_past (n := MAX_SATELLIT_CHARS) hg hr' f1 f3]
      refine ⟨rfl, Or.inl ⟨hg, by simpa using rest_cons hr'⟩, fun h => by (cases h), fun l' ls' h => ?_⟩
      injection h with h1 h2
      subst h1
      exact ⟨rfl, hg⟩
  · rw [Stream.getline_bad hg]
    exact ⟨rfl, Or.inr ⟨by simp [Stream.good], rfl⟩, fun _ => by simp [Stream.good], fun l ls' h => by cases h⟩

theorem headD_nul {ls : List (List Char)} (hf : ∀ l ∈ ls, LineFits 255 l) : NUL ∉ ls.headD [] := by
  cases ls with
  | nil => simp
  | cons l ls => exact (hf l (by simp)).2.1

theorem strncmpEq_prefix {l buf pat : List Char} (hl : NUL ∉ l) (hp : IsCStr pat) :
    strncmpEq pat.length (cArr pat) (fillLine buf l) = .ok (decide (pat <+: l)) := by
  rw [strncmpEq_start hl hp]
  congr 1
  exact decide_eq_decide.2 List.prefix_iff_eq_take.symm

/-- The search for part 2. -/
theorem bernSkip_at : ∀ (left : Nat) (cur : List Char) (ls : List (List Char)) (buf : List Char) (s : Stream), NUL ∉ cur → At s ls →
    (∀ l ∈ ls, LineFits 255 l) →
    (∃ pre p2 rest k b s', cur :: ls = pre ++ p2 :: rest ∧ pre.length < left ∧ (∀ l ∈ pre, ¬ bernPart2 <+: l) ∧ bernPart2 <+: p2 ∧
        bernSkip left (fillLine buf cur) s = .ok (k + 1, b, s') ∧ At s' rest ∧ (pre = [] → s' = s) ∧ (pre ≠ [] → s'.good = true)) ∨
      ((¬ ∃ pre p2 rest, cur :: ls = pre ++ p2 :: rest ∧ pre.length < left ∧ (∀ l ∈ pre, ¬ bernPart2 <+: l) ∧ bernPart2 <+: p2) ∧
        ∃ b s', bernSkip left (fillLine buf cur) s = .ok (0, b, s')) := by
  have hcs : IsCStr bernPart2 := by decide
  intro left
  induction left with
  | zero =>
    intro cur ls buf s hc _ _
    right
    refine ⟨by rintro ⟨_, _, _, _, h, _⟩; omega, fillLine buf cur, s, ?_⟩
    unfold bernSkip
    rw [strncmpEq_prefix hc hcs, Res.bind_ok]
    rfl
  | succ left ih =>
    intro cur ls buf s hc hat hf
    unfold bernSkip
    rw [strncmpEq_prefix hc hcs, Res.bind_ok]
    by_cases hm : bernPart2 <+: cur
    · rw [if_pos (by simpa using hm)]
      left
      exact ⟨[], cur, ls, left, _, s, rfl, by simp, by simp, hm, rfl, hat, fun _ => rfl, fun h => absurd rfl h⟩
    · rw [if_neg (by simpa using hm)]
      simp only
      obtain ⟨g1, g2, g3, g4⟩ := hat.getline hf
      rw [g1]
      generalize (s.getline MAX_SATELLIT_CHARS).2 = s1 at *
      cases ls with
      | nil =>
        rcases ih [] [] (fillLine buf cur) s1 (by simp) g2 (by simp) with ⟨pre, p2, rest, _, _, _, e1, _, _, e4, _⟩ | ⟨_, b, s', e⟩
        · exfalso
          have hp : p2 ∈ [([] : List Char)] := by rw [e1]; simp
          rw [List.mem_singleton.1 hp] at e4
          exact absurd e4 (by decide)
        · right
          refine ⟨?_, b, s', e⟩
          rintro ⟨pre, p2, rest, e1, _, _, e4⟩
          have hp : p2 ∈ [cur] := by rw [e1]; simp
          rw [List.mem_singleton.1 hp] at e4
          exact hm e4
      | cons l ls =>
        obtain ⟨e5, e6⟩ := g4 l ls rfl
        rcases ih l ls (fillLine buf cur) s1 (hf l (by simp)).2.1 g2 (fun x hx => hf x (by simp [hx])) with
          ⟨pre, p2, rest, k, b, s', e1, e2, e3, e4, h, hat', hs', hg'⟩ | ⟨hno, b, s', e⟩
        · left
          refine ⟨cur :: pre, p2, rest, k, b, s', by rw [e1]; rfl, by simp; omega, ?_, e4, h, hat', (fun h => by cases h), fun _ => ?_⟩
          · intro x hx
            rcases List.mem_cons.1 hx with rfl | hx
            · exact hm
            · exact e3 x hx
          · by_cases hp : pre = []
            · have : s' = s1 := hs' hp
              rw [this, e5]; exact e6
            · exact hg' hp
        · right
          refine ⟨?_, b, s', e⟩
          rintro ⟨pre, p2, rest, e1, e2, e3, e4⟩
          cases pre with
          | nil =>
            simp only [List.nil_append, List.cons.injEq] at e1
            rw [← e1.1] at e4
            exact hm e4
          | cons x pre =>
            simp only [List.cons_append, List.cons.injEq] at e1
            exact hno ⟨pre, p2, rest, e1.2, by simp at e2; omega, fun y hy => e3 y (by simp [hy]), e4⟩

theorem part2_unique {pre pre' : List (List Char)} {p p' : List Char} {r r' : List (List Char)} (h : pre ++ p :: r = pre' ++ p' :: r')
    (h1 : ∀ l ∈ pre, ¬ bernPart2 <+: l) (h2 : bernPart2 <+: p) (h1' : ∀ l ∈ pre', ¬ bernPart2 <+: l) (h2' : bernPart2 <+: p') :
    pre = pre' ∧ p = p' ∧ r = r' := by
  induction pre generalizing pre' with
  | nil =>
    cases pre' with
    | nil => simpa using h
    | cons x xs =>
      simp only [List.nil_append, List.cons_append, List.cons.injEq] at h
      exact absurd (h.1 ▸ h2) (h1' x (by simp))
  | cons y ys ih =>
    cases pre' with
    | nil =>
      simp only [List.nil_append, List.cons_append, List.cons.injEq] at h
      exact absurd (h.1.symm ▸ h2') (h1 y (by simp))
    | cons x xs =>
      simp only [List.cons_append, List.cons.injEq] at h
      obtain ⟨a, b, c⟩ := ih h.2 (fun l hl => h1 l (by simp [hl])) (fun l hl => h1' l (by simp [hl]))
      exact ⟨by rw [h.1, a], b, c⟩

theorem title_not_part2 {l : List Char} (h : bernLine1 <+: l) : ¬ bernPart2 <+: l := by
  intro hc
  have h1 := List.prefix_iff_eq_take.1 hc
  have h2 : bernLine1 = l.take bernLine1.length := List.prefix_iff_eq_take.1 h
  have e1 : bernPart2.take 1 = l.take 1 := by
    conv_lhs => rw [h1, List.take_take, show min 1 bernPart2.length = 1 from rfl]
  have e2 : bernLine1.take 1 = l.take 1 := by
    conv_lhs => rw [h2, List.take_take, show min 1 bernLine1.length = 1 from rfl]
  rw [← e2] at e1
  revert e1
  decide

theorem headD_split {pat : List Char} {ls : List (List Char)} (hp : pat ≠ []) (h : pat <+: ls.headD []) : ∃ l ls', ls = l :: ls' ∧ pat <+: l := by
  cases ls with
  | nil => exact absurd (List.prefix_nil.1 h) hp
  | cons l ls => exact ⟨l, ls, rfl, h⟩

set_option maxRecDepth 20000 in
/-- **C72**.  For every text file (lines of at most 255 chars): the constructor succeeds exactly for files that start as SATELLIT files do; otherwise it throws
`std::runtime_error`.  Whatever was on the stack (`junk`). -/
theorem C72_open_iff (junk : List Char) (ls : List (List Char)) (hf : ∀ l ∈ ls, LineFits 255 l) :
    ((∃ f, bernOpen junk (linesText ls) = .ok f) ↔ ∃ rest, BernOpenable ls rest) ∧
      ((¬ ∃ rest, BernOpenable ls rest) → bernOpen junk (linesText ls) = .throw .runtime_error) := by
  have hcs1 : IsCStr bernLine1 := by decide
  have hcsa : IsCStr bernHead1 := by decide
  have hcsb : IsCStr bernHead2 := by decide
  have key : (∃ f, bernOpen junk (linesText ls) = .ok f) ↔ ∃ rest, BernOpenable ls rest := by
    have hat : At ⟨linesText ls, 0, false, false⟩ ls := Or.inl ⟨rfl, by simp [Stream.rest]⟩
    unfold bernOpen bernInitialize
    have hsk : (⟨linesText ls, 0, false, false⟩ : Stream).seekg 0 = ⟨linesText ls, 0, false, false⟩ := rfl
    rw [hsk]
    simp only
    obtain ⟨g1, g2, _, g4⟩ := hat.getline hf
    rw [g1, strncmpEq_prefix (headD_nul hf) hcs1]
    generalize (Stream.getline ⟨linesText ls, 0, false, false⟩ MAX_SATELLIT_CHARS).2 = s1 at *
    rw [Res.bind_ok]
    by_cases h1 : bernLine1 <+: ls.headD []
    · rw [if_neg (by simpa using h1)]
      obtain ⟨first, ls, rfl, h1⟩ := headD_split (by decide) h1
      simp only [List.tail_cons, List.headD_cons] at *
      have hf' : ∀ l ∈ ls, LineFits 255 l := fun l hl => hf l (by simp [hl])
      rcases bernSkip_at 1000 first ls junk s1 (hf first (by simp)).2.1 g2 hf' with ⟨pre, p2, rest, k, b, s', e1, e2, e3, e4, h, hat', ep, hg'⟩ | ⟨hno, b, s', e⟩
      · rw [h, Res.bind_ok]
        cases pre with
        | nil =>
          simp only [List.nil_append, List.cons.injEq] at e1
          exact absurd (e1.1 ▸ e4) (title_not_part2 h1)
        | cons x pre =>
          simp only [List.cons_append, List.cons.injEq] at e1
          obtain ⟨hx, rfl⟩ := e1
          subst hx
          have hg := hg' (by simp)
          simp only
          rw [if_neg (by simp [hg])]
          have hfr : ∀ l ∈ rest, LineFits 255 l := fun l hl => hf' l (by simp [hl])
          obtain ⟨a1, a2, _, _⟩ := hat'.getline hfr
          generalize (s'.getline MAX_SATELLIT_CHARS).1 = x1 at *
          generalize (s'.getline MAX_SATELLIT_CHARS).2 = t1 at *
          obtain ⟨b1, b2, _, _⟩ := a2.getline (fun l hl => hfr l (List.mem_of_mem_tail hl))
          rw [b1]
          generalize (t1.getline MAX_SATELLIT_CHARS).2 = t2 at *
          obtain ⟨c1, c2, _, _⟩ := b2.getline (fun l hl => hfr l (List.mem_of_mem_tail (List.mem_of_mem_tail hl)))
          rw [c1]
          generalize (t2.getline MAX_SATELLIT_CHARS).2 = t3 at *
          rw [strncmpEq_prefix (headD_nul (fun l hl => hfr l (List.mem_of_mem_tail hl))) hcsa, Res.bind_ok]
          have uniq : ∀ rest', BernOpenable (first :: (pre ++ p2 :: rest)) rest' → ∃ d h1 h2, rest = d :: h1 :: h2 :: rest' ∧ bernHead1 <+: h1 ∧ bernHead2 <+: h2 := by
            rintro rest' ⟨f', pre', p2', d, h1', h2', q1, q2, q3, q4, q5, q6, q7⟩
            simp only [List.cons.injEq] at q1
            obtain ⟨-, -, w⟩ := part2_unique q1.2 (fun l hl => e3 l (by simp [hl])) e4 q4 q5
            exact ⟨d, h1', h2', w, q6, q7⟩
          by_cases h2 : bernHead1 <+: rest.tail.headD []
          · rw [if_neg (by simpa using h2)]
            rw [strncmpEq_prefix (headD_nul (fun l hl => hfr l (List.mem_of_mem_tail (List.mem_of_mem_tail hl)))) hcsb, Res.bind_ok]
            by_cases h3 : bernHead2 <+: rest.tail.tail.headD []
            · rw [if_neg (by simpa using h3)]
              simp only [Res.pure_eq, Res.noexcept_ok, Res.bind_ok, ne_eq, not_true_eq_false, if_false]
              refine ⟨fun _ => ?_, fun _ => ⟨_, rfl⟩⟩
              cases rest with
              | nil => exact absurd (List.prefix_nil.1 h2) (by decide)
              | cons d rest =>
                obtain ⟨l1, r1, e5, h2⟩ := headD_split (by decide) h2
                simp only [List.tail_cons] at e5 h3
                subst e5
                obtain ⟨l2, r2, e6, h3⟩ := headD_split (by decide) h3
                simp only [List.tail_cons] at e6
                subst e6
                exact ⟨r2, first, pre, p2, d, l1, l2, rfl, h1, by simp at e2; omega, fun l hl => e3 l (by simp [hl]), e4, h2, h3⟩
            · rw [if_pos (by simpa using h3)]
              simp only [Res.pure_eq, Res.noexcept_ok, Res.bind_ok]
              refine ⟨fun ⟨_, h⟩ => by simp at h, ?_⟩
              rintro ⟨rest', hb⟩
              obtain ⟨d, l1, l2, rfl, w1, w2⟩ := uniq rest' hb
              exact absurd w2 h3
          · rw [if_pos (by simpa using h2)]
            simp only [Res.pure_eq, Res.noexcept_ok, Res.bind_ok]
            refine ⟨fun ⟨_, h⟩ => by simp at h, ?_⟩
            rintro ⟨rest', hb⟩
            obtain ⟨d, l1, l2, rfl, w1, w2⟩ := uniq rest' hb
            exact absurd w1 h2
      · rw [e, Res.bind_ok]
        simp only
        rw [if_pos (Or.inr trivial)]
        simp only [Res.pure_eq, Res.noexcept_ok, Res.bind_ok]
        refine ⟨fun ⟨_, h⟩ => by simp at h, ?_⟩
        rintro ⟨rest', f', pre', p2', d, h1', h2', q1, q2, q3, q4, q5, q6, q7⟩
        simp only [List.cons.injEq] at q1
        refine absurd ⟨first :: pre', p2', d :: h1' :: h2' :: rest', ?_, by simp; omega, ?_, q5⟩ hno
        · rw [q1.2]; rfl
        · intro l hl
          rcases List.mem_cons.1 hl with rfl | hl
          · exact title_not_part2 h1
          · exact q4 l hl
    · rw [if_pos (by simpa using h1)]
      simp only [Res.pure_eq, Res.noexcept_ok, Res.bind_ok]
      refine ⟨fun ⟨_, h⟩ => by simp at h, ?_⟩
      rintro ⟨rest', f', pre', p2', d, h1', h2', rfl, q2, _⟩
      exact absurd q2 h1
  refine ⟨key, fun h => ?_⟩
  rcases C34_open_any_partial junk (linesText ls) with hx | hx
  · exact absurd (key.1 hx) h
  · exact hx

namespace BernExample

/-- The lines of the example file without its records. -/
def lines : List (List Char) := [hdr.first, c!"", c!"PART 1: PHYSICAL SATELLITE PARAMETERS", hdr.part2, hdr.dashes, hdr.head1, hdr.head2, c!""]

set_option maxRecDepth 20000 in
theorem lines_fit : ∀ l ∈ lines, LineFits 255 l := by decide

set_option maxRecDepth 20000 in
theorem lines_openable : BernOpenable lines [c!""] :=
  ⟨hdr.first, [c!"", c!"PART 1: PHYSICAL SATELLITE PARAMETERS"], hdr.part2, hdr.dashes, hdr.head1, hdr.head2, rfl, ⟨c!" 09-DEC-19", rfl⟩, by decide, by decide,
    ⟨[], rfl⟩, ⟨[], rfl⟩, ⟨[], rfl⟩⟩

/-- C72 applies, both ways: the file, and the file without the line of column titles. -/
example : ∃ f, bernOpen noise (linesText lines) = .ok f := (C72_open_iff noise lines lines_fit).1.2 ⟨_, lines_openable⟩

set_option maxRecDepth 20000 in
example : bernOpen noise (linesText (lines.take 5 ++ lines.drop 6)) = .throw .runtime_error := by
  apply (C72_open_iff noise _ (by decide)).2
  rintro ⟨rest, first, pre, p2, d, h1, h2, e, _, _, q3, q4, q5, _⟩
  simp only [lines, List.take_succ_cons, List.take_zero, List.drop_succ_cons, List.drop_zero, List.cons_append, List.nil_append, List.cons.injEq] at e
  have hs : ([c!"", c!"PART 1: PHYSICAL SATELLITE PARAMETERS"] : List (List Char)) ++ hdr.part2 :: [hdr.dashes, hdr.head2, c!""] = pre ++ p2 :: d :: h1 :: h2 :: rest := e.2
  obtain ⟨-, -, w⟩ := part2_unique hs (by decide) ⟨[], rfl⟩ q3 q4
  simp only [List.cons.injEq] at w
  rw [← w.2.1] at q5
  revert q5
  decide

end BernExample

end Ggnss
