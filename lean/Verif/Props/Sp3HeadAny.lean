import Verif.Props.Sp3Head
import Verif.Props.ObsHeadAny
/-!
# C61, C62: SP3 files with arbitrary content; what an opened file must contain; the interpolator
-/
namespace Ggnss

/-! ## Accuracy lines that are none -/

theorem accsRead_one {h : Sp3Header} (hw : h.Frame) {x : List Char} (hx : LineFits 84 x) (he : h.accs = [x]) : h.AccsRead := by
  intro t left buf s hg hr
  rw [he] at hr ⊢
  have hr' : s.rest = linesText (x :: (h.c1 :: h.c2 :: h.f1 :: h.f2 :: h.i1 :: h.i2 :: h.comments)) ++ t := by simpa using hr
  refine ⟨fillLine (fillLine buf h.acc) x, ?_⟩
  have e : [x].length + left = left + 1 := by simp; omega
  rw [e]
  unfold sp3AccLines
  rw [strncmp2_begins hw.acc_ok.1 hw.acc_ok.2 _ _ (by decide) (by decide), Res.bind_ok]
  simp only [and_self, decide_true, if_true, getline_past (n := SP3_HEADER_CHARS) hg hr' hx.1 hx.2.2]
  rw [peek_line (s := s.past [x]) hg (rest_cons hr') hw.c1_ok.2, if_pos (by simp)]
  rfl

/-- **C61**, what is accepted though it is not SP3: the line after the first "++" line is never looked
at, so any text may stand there. -/
theorem C61_any_second_accuracy_line {L : Sp3Lib} (junk : List Char) {h : Sp3Header} (hw : h.Frame) {x : List Char}
    (hx : LineFits 84 x) (he : h.accs = [x]) {d : MicroTime}
    (hd : ∀ t, h.StartIs t → L.date t = .ok d) (hwk : L.sameWeek d h.week h.sow.value = true)
    (hmj : L.sameMjd d h.mjd h.dayFraction.value = true) {c : Char} (hc : c ≠ '/') (tail : List Char) :
    ∃ f, sp3Open L false junk (linesText h.lines ++ c :: tail) = .ok f ∧ h.SaysIn d f := by
  obtain ⟨f, h1, h2, _⟩ := sp3Open_core junk hw (accsRead_one hw hx he) hd hwk hmj hc tail
  exact ⟨f, h1, h2⟩

/-! ## What an opened file contains -/

/-- The lines still to be read, as long as the stream is good. -/
def LinesLeft (s : Stream) (ls : List (List Char)) : Prop := s.good = true → s.rest = linesText ls

theorem getline_lines {s : Stream} {ls : List (List Char)} (hl : ∀ l ∈ ls, LineFits 84 l) (h : LinesLeft s ls) :
    (∃ l ls', ls = l :: ls' ∧ s.getline SP3_HEADER_CHARS = (l, s.past [l]) ∧ (s.past [l]).good = true ∧ LinesLeft (s.past [l]) ls') ∨
      ∃ s', s.getline SP3_HEADER_CHARS = ([], s') ∧ s'.good = false := by
  cases hg : s.good with
  | false => right; exact ⟨_, Stream.getline_bad hg, by simp [Stream.good]⟩
  | true =>
    have hr := h hg
    cases ls with
    | nil =>
      right
      refine ⟨{ s with eof := true, fail := true }, ?_, by simp [Stream.good]⟩
      have hr' : s.rest = [] := by simpa [linesText] using hr
      unfold Stream.getline
      rw [if_pos hg, hr']; simp
    | cons l ls =>
      left
      have hf := hl l (by simp)
      have hr' : s.rest = linesText (l :: ls) ++ [] := by simpa using hr
      exact ⟨l, ls, rfl, getline_past (n := SP3_HEADER_CHARS) hg hr' hf.1 hf.2.2, hg, fun _ => by simpa using rest_cons hr'⟩

theorem starts_iff {buf l : List Char} {a b : Char} (ha : a ≠ NUL) (hb : b ≠ NUL) (hlen : 2 ≤ (fillLine buf l).length) :
    sp3Starts (fillLine buf l) a b = .ok (decide (Begins l a b)) := by
  have key : ∀ x r, fillLine buf (x :: r) = x :: fillLine (buf.drop 1) r := by
    intro x r; simp [fillLine, Nat.add_comm]
  unfold sp3Starts
  rw [getAt_lt (by omega : 0 < _), getAt_lt (by omega : 1 < _)]
  simp only [Res.bind_ok, Res.pure_eq, Res.ok.injEq]
  match l with
  | [] =>
    have h1 : ¬ Begins ([] : List Char) a b := by simp [Begins]
    rw [decide_eq_false h1]
    have : (fillLine buf [])[0] = NUL := rfl
    simp [this, Ne.symm ha]
  | [x] =>
    have h1 : ¬ Begins [x] a b := by simp [Begins]
    rw [decide_eq_false h1]
    have : (fillLine buf [x])[1] = NUL := by simp [fillLine]
    simp [this, Ne.symm hb]
  | x :: y :: r =>
    have h0 : (fillLine buf (x :: y :: r))[0] = x := by simp [fillLine]
    have h1 : (fillLine buf (x :: y :: r))[1] = y := by simp [fillLine]
    simp [h0, h1, Begins]

theorem strncmp2_iff {buf l : List Char} {a b : Char} (ha : a ≠ NUL) (hb : b ≠ NUL) (hl : NUL ∉ l) :
    strncmpEq 2 (fillLine buf l) (cArr [a, b]) = .ok (decide (Begins l a b)) := by
  have := strncmpEq_cstr 2 l [a, b] (buf.drop (l.length + 1)) [] hl (by simp [IsCStr, Ne.symm ha, Ne.symm hb])
  have e : cArr [a, b] = [a, b] ++ [NUL] := rfl
  rw [e]
  unfold fillLine
  rw [this]
  congr 1
  apply decide_eq_decide.2
  constructor
  · intro h
    match l, h with
    | x :: y :: r, h => simpa [Begins] using h
  · intro h; rw [h.take]; rfl

theorem fill_len2 {buf l : List Char} (h : 2 ≤ buf.length) : 2 ≤ (fillLine buf l).length := by simp [fillLine]; omega

/-- A line that is accepted by `sp3Expect` was there. -/
theorem sp3Expect_sound {s s' : Stream} {ls : List (List Char)} {buf buf' : List Char} {a b : Char} (hl : ∀ l ∈ ls, LineFits 84 l)
    (hL : LinesLeft s ls) (ha : a ≠ NUL) (hb : b ≠ NUL) (hbuf : 2 ≤ buf.length) (h : sp3Expect a b buf s = .ok (true, buf', s')) :
    ∃ l ls', ls = l :: ls' ∧ Begins l a b ∧ buf' = fillLine buf l ∧ s' = s.past [l] ∧ s'.good = true ∧ LinesLeft s' ls' := by
  unfold sp3Expect at h
  rcases getline_lines hl hL with ⟨l, ls', h1, h2, h3, h4⟩ | ⟨s1, h1, h2⟩
  · simp only [h2, starts_iff ha hb (fill_len2 hbuf), Res.bind_ok, Res.pure_eq, Res.ok.injEq, Prod.mk.injEq, decide_eq_true_eq] at h
    obtain ⟨e1, e2, e3⟩ := h
    exact ⟨l, ls', h1, e1, e2.symm, e3.symm, e3 ▸ h3, e3 ▸ h4⟩
  · simp only [h1, starts_iff ha hb (fill_len2 hbuf), Res.bind_ok, Res.pure_eq, Res.ok.injEq, Prod.mk.injEq, decide_eq_true_eq] at h
    exact absurd h.1 (by simp [Begins])

theorem sp3SatLines_sound : ∀ (left : Nat) (l : List Char) (ls : List (List Char)) (buf : List Char) (s : Stream) (r : Nat × List Char × Stream),
    NUL ∉ l → (∀ x ∈ ls, LineFits 84 x) → 2 ≤ buf.length → LinesLeft s ls →
    sp3SatLines left (fillLine buf l) s = .ok (some r) → sp3Starts r.2.1 '+' '+' = .ok true →
    ∃ sats acc more buf', l :: ls = sats ++ acc :: more ∧ (∀ x ∈ sats, Begins x '+' ' ') ∧ Begins acc '+' '+' ∧
      r.2.1 = fillLine buf' acc ∧ 2 ≤ buf'.length ∧ LinesLeft r.2.2 more := by
  intro left
  induction left with
  | zero => intro l ls buf s r _ _ _ _ h; simp [sp3SatLines] at h
  | succ left ih =>
    intro l ls buf s r hn hl hb hL h hst
    unfold sp3SatLines at h
    rw [strncmp2_iff (by decide) (by decide) hn, Res.bind_ok] at h
    by_cases hbg : Begins l '+' ' '
    · rw [decide_eq_true hbg] at h
      simp only [if_true] at h
      rcases getline_lines hl hL with ⟨x, ls', h1, h2, h3, h4⟩ | ⟨s1, h1, h2⟩
      · rw [h2] at h
        obtain ⟨sats, acc, more, buf', e1, e2, e3⟩ := ih x ls' (fillLine buf l) (s.past [x]) r (hl x (by simp [h1])).2.1
          (fun y hy => hl y (by simp [h1, hy])) (fill_len2 hb) h4 h hst
        refine ⟨l :: sats, acc, more, buf', by rw [h1, e1]; rfl, ?_, e3⟩
        intro y hy
        rcases List.mem_cons.1 hy with rfl | hy
        · exact hbg
        · exact e2 y hy
      · rw [h1] at h
        obtain ⟨sats, acc, more, buf', e1, e2, e3, _⟩ := ih [] [] (fillLine buf l) s1 r (by simp)
          (by simp) (fill_len2 hb) (fun hg => by rw [h2] at hg; cases hg) h hst
        exfalso
        cases sats with
        | nil => simp at e1; rw [e1.1] at e3; simp [Begins] at e3
        | cons y sats => simp at e1
    · rw [decide_eq_false hbg] at h
      simp only [Bool.false_eq_true, if_false, Res.pure_eq, Res.ok.injEq, Option.some.injEq] at h
      subst h
      simp only at hst
      rw [starts_iff (by decide) (by decide) (fill_len2 hb)] at hst
      have hb' : Begins l '+' '+' := by simpa using hst
      exact ⟨[], l, ls, buf, rfl, by simp, hb', rfl, hb, hL⟩

theorem peek_lines {s : Stream} {ls : List (List Char)} (h : LinesLeft s ls) : LinesLeft s.peek.2 ls := by
  intro hg
  cases hp : s.peek with
  | mk o s' =>
    cases o with
    | some c => obtain ⟨rfl, h1, _⟩ := Stream.peek_some hp; exact h h1
    | none =>
      rw [hp] at hg
      rcases Stream.peek_none hp with ⟨_, _, rfl⟩ | ⟨_, rfl⟩ <;> simp [Stream.good] at hg

theorem sp3AccLines_sound : ∀ (left : Nat) (l : List Char) (ls : List (List Char)) (buf : List Char) (s : Stream) (r : Nat × List Char × Stream),
    LineFits 84 l → (∀ x ∈ ls, LineFits 84 x) → 2 ≤ buf.length → LinesLeft s ls → Begins l '+' '+' →
    sp3AccLines left (fillLine buf l) s = .ok (some r) →
    2 ≤ r.2.1.length ∧ (r.2.2.good = false ∨
    ∃ accs last more, l :: ls = accs ++ last :: more ∧ accs ≠ [] ∧ (∀ x ∈ accs, Begins x '+' '+') ∧ LinesLeft r.2.2 more) := by
  intro left
  induction left with
  | zero => intro l ls buf s r _ _ _ _ _ h; simp [sp3AccLines] at h
  | succ left ih =>
    intro l ls buf s r hn hl hb hL hbg h
    unfold sp3AccLines at h
    rw [strncmp2_iff (by decide) (by decide) hn.2.1, Res.bind_ok, decide_eq_true hbg] at h
    simp only [if_true] at h
    rcases getline_lines hl hL with ⟨x, ls', h1, h2, h3, h4⟩ | ⟨s1, h1, h2⟩
    · rw [h2] at h
      simp only at h
      split at h
      · simp only [Res.pure_eq, Res.ok.injEq, Option.some.injEq] at h
        subst h
        exact ⟨fill_len2 (fill_len2 hb), Or.inr ⟨[l], x, ls', by rw [h1]; rfl, by simp, by simpa using hbg, peek_lines h4⟩⟩
      · by_cases hx : Begins x '+' '+'
        · obtain ⟨e0, e⟩ := ih x ls' (fillLine buf l) _ r (hl x (by simp [h1])) (fun y hy => hl y (by simp [h1, hy])) (fill_len2 hb)
            (peek_lines h4) hx h
          refine ⟨e0, ?_⟩
          rcases e with e | ⟨accs, last, more, e1, e2, e3, e4⟩
          · exact Or.inl e
          · right
            refine ⟨l :: accs, last, more, by rw [h1, e1]; rfl, by simp, ?_, e4⟩
            intro y hy
            rcases List.mem_cons.1 hy with rfl | hy
            · exact hbg
            · exact e3 y hy
        · cases left with
          | zero => simp [sp3AccLines] at h
          | succ left =>
            unfold sp3AccLines at h
            rw [strncmp2_iff (by decide) (by decide) (hl x (by simp [h1])).2.1, Res.bind_ok, decide_eq_false hx] at h
            simp only [Bool.false_eq_true, if_false, Res.pure_eq, Res.ok.injEq, Option.some.injEq] at h
            subst h
            exact ⟨fill_len2 (fill_len2 hb), Or.inr ⟨[l], x, ls', by rw [h1]; rfl, by simp, by simpa using hbg, peek_lines h4⟩⟩
    · rw [h1] at h
      simp only at h
      have hpk : s1.peek = (none, { s1 with fail := true }) := by unfold Stream.peek; rw [h2]; rfl
      rw [hpk, if_pos (by simp)] at h
      simp only [Res.pure_eq, Res.ok.injEq, Option.some.injEq] at h
      subst h
      exact ⟨fill_len2 (fill_len2 hb), Or.inl (by simp [Stream.good])⟩

theorem sp3Comments_sound : ∀ (room : Nat) (buf : List Char) (s s' : Stream) (ls : List (List Char)),
    (∀ x ∈ ls, LineFits 84 x) → 2 ≤ buf.length → LinesLeft s ls →
    sp3Comments room s.peek.1 buf s.peek.2 = .ok (.inr s') →
    ∃ comments others, ls = comments ++ others ∧ (∀ x ∈ comments, Begins x '/' '*') ∧ LinesLeft s' others ∧
      (s'.good = true → ∀ x ∈ others.head?, x.head? ≠ some '/') := by
  intro room
  induction room with
  | zero =>
    intro buf s s' ls hl hb hL h
    unfold sp3Comments at h
    split at h
    · rename_i hne
      simp only [Res.ok.injEq, Sum.inr.injEq] at h
      subst h
      refine ⟨[], ls, rfl, by simp, peek_lines hL, ?_⟩
      intro hg x hx hh
      cases ls with
      | nil => simp at hx
      | cons y ls =>
        simp at hx; subst hx
        cases y with
        | nil => simp at hh
        | cons c y =>
          simp at hh; subst hh
          have hg' : s.good = true := by
            cases hp : s.peek with
            | mk o s1 =>
              rw [hp] at hg
              cases o with
              | some c => exact (Stream.peek_some hp).2.1
              | none => rcases Stream.peek_none hp with ⟨_, _, rfl⟩ | ⟨_, rfl⟩ <;> simp [Stream.good] at hg
          have hr := hL hg'
          rw [Stream.peek_cons (c := '/') (tail := y ++ '\n' :: linesText ls) hg' (by rw [hr, linesText_cons]; simp)] at hne
          exact hne rfl
    · simp only at h
      cases hg1 : getAt (fillLine buf (s.peek.2.getline SP3_HEADER_CHARS).1) 1 with
      | ok c =>
        rw [hg1, Res.bind_ok] at h
        split at h <;> simp at h
      | throw e => rw [hg1] at h; simp at h
      | terminate => rw [hg1] at h; simp at h
      | ub => rw [hg1] at h; simp at h
      | diverge => rw [hg1] at h; simp at h
  | succ room ih =>
    intro buf s s' ls hl hb hL h
    unfold sp3Comments at h
    split at h
    · rename_i hne
      simp only [Res.ok.injEq, Sum.inr.injEq] at h
      subst h
      refine ⟨[], ls, rfl, by simp, peek_lines hL, ?_⟩
      intro hg x hx hh
      cases ls with
      | nil => simp at hx
      | cons y ls =>
        simp at hx; subst hx
        cases y with
        | nil => simp at hh
        | cons c y =>
          simp at hh; subst hh
          have hg' : s.good = true := by
            cases hp : s.peek with
            | mk o s1 =>
              rw [hp] at hg
              cases o with
              | some c => exact (Stream.peek_some hp).2.1
              | none => rcases Stream.peek_none hp with ⟨_, _, rfl⟩ | ⟨_, rfl⟩ <;> simp [Stream.good] at hg
          have hr := hL hg'
          rw [Stream.peek_cons (c := '/') (tail := y ++ '\n' :: linesText ls) hg' (by rw [hr, linesText_cons]; simp)] at hne
          exact hne rfl
    · rename_i hne
      simp only [ne_eq, not_not] at hne
      obtain ⟨e1, e2, tl, e3⟩ := Stream.peek_some (show s.peek = (some '/', s.peek.2) from by rw [← hne])
      rw [e1] at h
      simp only at h
      rcases getline_lines hl hL with ⟨x, ls', h1, h2, h3, h4⟩ | ⟨s1, h1, h2⟩
      · rw [h2] at h
        have hx0 : x.head? = some '/' ∨ x = [] := by
          have := hL e2
          rw [h1, e3, linesText_cons] at this
          cases x with
          | nil => right; rfl
          | cons c x => left; simp at this ⊢; exact this.1.symm
        have hlen : 1 < (fillLine (buf) x).length := by have := fill_len2 (l := x) hb; omega
        simp only [getAt_lt hlen, Res.bind_ok] at h
        split at h
        · simp at h
        · rename_i hstar
          simp only [ne_eq, not_not] at hstar
          have hstar : (fillLine buf x)[1]? = some '*' := by rw [List.getElem?_eq_getElem hlen, hstar]
          have hne0 : x ≠ [] := by
            intro hx
            have := hL e2
            rw [h1, e3, linesText_cons, hx] at this
            simp at this
          have hbg : Begins x '/' '*' := by
            match x, hx0, hstar, hne0 with
            | [], _, _, hne0 => exact absurd rfl hne0
            | [c], hx0, hstar, _ => simp [fillLine] at hstar; exact absurd hstar (by decide)
            | c :: c' :: r, hx0, hstar, _ => simp [fillLine] at hstar hx0; simp [Begins, hx0, hstar]
          obtain ⟨cs, os, f1, f2, f3⟩ := ih (fillLine buf x) (s.past [x]) s' ls' (fun y hy => hl y (by simp [h1, hy])) (fill_len2 hb) h4 h
          refine ⟨x :: cs, os, by rw [h1, f1]; rfl, ?_, f3⟩
          intro y hy
          rcases List.mem_cons.1 hy with rfl | hy
          · exact hbg
          · exact f2 y hy
      · exfalso
        have := Stream.getline_ok h1
        have hr := hL e2
        cases ls with
        | nil => rw [hr] at e3; simp [linesText] at e3
        | cons y ls =>
          have hf := hl y (by simp)
          rw [getline_past (n := SP3_HEADER_CHARS) (t := []) e2 (by simpa using hr) hf.1 hf.2.2] at h1
          cases h1
          rw [show (s.past [[]]).good = s.good from rfl, e2] at h2; cases h2

theorem bind_ok_inv {α β : Type} {x : Res α} {f : α → Res β} {b : β} (h : (x >>= f) = .ok b) : ∃ a, x = .ok a ∧ f a = .ok b := by
  cases x with
  | ok a => exact ⟨a, rfl, h⟩
  | throw e => simp at h
  | terminate => simp at h
  | ub => simp at h
  | diverge => simp at h

theorem noexcept_ok_inv {α : Type} {x : Res α} {a : α} (h : x.noexcept = .ok a) : x = .ok a := by
  cases x <;> simp at h ⊢
  exact h

/-- What must stand in a file for it to be opened (`last`: the line after the "++" lines, see
`C61_any_second_accuracy_line`). -/
structure Sp3Lines (ls : List (List Char)) where
  first : List Char
  second : List Char
  sats : List (List Char)
  accs : List (List Char)
  last : List Char
  c1 : List Char
  c2 : List Char
  f1 : List Char
  f2 : List Char
  i1 : List Char
  i2 : List Char
  comments : List (List Char)
  others : List (List Char)
  eq : ls = first :: second :: (sats ++ (accs ++ last :: c1 :: c2 :: f1 :: f2 :: i1 :: i2 :: (comments ++ others)))
  first_is : Begins first '#' 'c' ∨ Begins first '#' 'd'
  second_is : Begins second '#' '#'
  sats_are : sats ≠ [] ∧ ∀ l ∈ sats, Begins l '+' ' '
  accs_are : accs ≠ [] ∧ ∀ l ∈ accs, Begins l '+' '+'
  c_are : Begins c1 '%' 'c' ∧ Begins c2 '%' 'c'
  f_are : Begins f1 '%' 'f' ∧ Begins f2 '%' 'f'
  i_are : Begins i1 '%' 'i' ∧ Begins i2 '%' 'i'
  comments_are : ∀ l ∈ comments, Begins l '/' '*'

theorem sp3HeadTail_sound {left : Nat} {buf : List Char} {s : Stream} {ls : List (List Char)} {r : Option Nat × Stream}
    (hl : ∀ x ∈ ls, LineFits 84 x) (hb : 2 ≤ buf.length) (hL : LinesLeft s ls) (h : sp3HeadTail left buf s = .ok (.inr r)) :
    ∃ f1 f2 i1 i2 comments others, ls = f1 :: f2 :: i1 :: i2 :: (comments ++ others) ∧ Begins f1 '%' 'f' ∧ Begins f2 '%' 'f' ∧
      Begins i1 '%' 'i' ∧ Begins i2 '%' 'i' ∧ (∀ l ∈ comments, Begins l '/' '*') ∧ LinesLeft r.2 others ∧
      (r.2.good = true → ∀ x ∈ others.head?, x.head? ≠ some '/') := by
  unfold sp3HeadTail at h
  obtain ⟨⟨b1, B1, S1⟩, e1, h⟩ := bind_ok_inv h
  cases b1 with
  | false => simp at h
  | true =>
  simp only [Bool.not_true, Bool.false_eq_true, if_false] at h
  obtain ⟨⟨b2, B2, S2⟩, e2, h⟩ := bind_ok_inv h
  cases b2 with
  | false => simp at h
  | true =>
  simp only [Bool.not_true, Bool.false_eq_true, if_false] at h
  obtain ⟨⟨b3, B3, S3⟩, e3, h⟩ := bind_ok_inv h
  cases b3 with
  | false => simp at h
  | true =>
  simp only [Bool.not_true, Bool.false_eq_true, if_false] at h
  obtain ⟨⟨b4, B4, S4⟩, e4, h⟩ := bind_ok_inv h
  cases b4 with
  | false => simp at h
  | true =>
  simp only [Bool.not_true, Bool.false_eq_true, if_false] at h
  obtain ⟨x5, e5, h⟩ := bind_ok_inv h
  cases x5 with
  | inl e => simp at h
  | inr s5 =>
  simp only [Res.pure_eq, Res.ok.injEq, Sum.inr.injEq] at h
  have hfin := h
  clear h
  obtain ⟨f1, l1, q1, p1, rfl, rfl, g1, L1⟩ := sp3Expect_sound hl hL (by decide) (by decide) hb e1
  subst q1
  obtain ⟨f2, l2, q2, p2, rfl, rfl, g2, L2⟩ := sp3Expect_sound (fun x hx => hl x (by simp [hx])) L1 (by decide) (by decide) (fill_len2 hb) e2
  subst q2
  obtain ⟨i1, l3, q3, p3, rfl, rfl, g3, L3⟩ := sp3Expect_sound (fun x hx => hl x (by simp [hx])) L2 (by decide) (by decide) (fill_len2 (fill_len2 hb)) e3
  subst q3
  obtain ⟨i2, l4, q4, p4, rfl, rfl, g4, L4⟩ := sp3Expect_sound (fun x hx => hl x (by simp [hx])) L3 (by decide) (by decide)
    (fill_len2 (fill_len2 (fill_len2 hb))) e4
  subst q4
  obtain ⟨cs, os, q5, p5, L5, p6⟩ := sp3Comments_sound _ _ _ _ l4 (fun x hx => hl x (by simp [hx])) (fill_len2 (fill_len2 (fill_len2 (fill_len2 hb)))) L4 e5
  subst q5
  have hr2 : r.2.good = true → r.2 = s5 := by
    intro hg
    rw [← hfin] at hg ⊢
    unfold Stream.tellg at hg ⊢
    split at hg
    · rename_i h5; rw [if_pos h5]
    · simp [Stream.good] at hg
  exact ⟨f1, f2, i1, i2, cs, os, rfl, p1, p2, p3, p4, p5, fun hg => by have e := hr2 hg; rw [e] at hg ⊢; exact L5 hg,
    fun hg => by have e := hr2 hg; rw [e] at hg; exact p6 hg⟩

theorem sp3HeadMid_sound {e0 : Bool} {buf : List Char} {s : Stream} {ls : List (List Char)} {r : Int × List Char × Option Nat × Stream}
    (hl : ∀ x ∈ ls, LineFits 84 x) (hb : 2 ≤ buf.length) (hL : LinesLeft s ls) (h : sp3HeadMid e0 buf s = .ok (.inr r)) :
    r.1 ≠ 0 ∧ ∃ sats accs last c1 c2 f1 f2 i1 i2 comments others,
      ls = sats ++ (accs ++ last :: c1 :: c2 :: f1 :: f2 :: i1 :: i2 :: (comments ++ others)) ∧
      (sats ≠ [] ∧ ∀ l ∈ sats, Begins l '+' ' ') ∧ (accs ≠ [] ∧ ∀ l ∈ accs, Begins l '+' '+') ∧
      (Begins c1 '%' 'c' ∧ Begins c2 '%' 'c') ∧ (Begins f1 '%' 'f' ∧ Begins f2 '%' 'f') ∧
      (Begins i1 '%' 'i' ∧ Begins i2 '%' 'i') ∧ (∀ l ∈ comments, Begins l '/' '*') ∧ LinesLeft r.2.2.2 others ∧
      (r.2.2.2.good = true → ∀ x ∈ others.head?, x.head? ≠ some '/') := by
  unfold sp3HeadMid at h
  obtain ⟨⟨b1, B1, S1⟩, e1, h⟩ := bind_ok_inv h
  cases b1 with
  | false => simp at h
  | true =>
  simp only [Bool.not_true, Bool.false_eq_true, if_false] at h
  obtain ⟨n, e2, h⟩ := bind_ok_inv h
  cases n with
  | none => simp at h
  | some n =>
  simp only at h
  obtain ⟨a, e3, h⟩ := bind_ok_inv h
  cases a with
  | none => simp at h
  | some a =>
  simp only at h
  obtain ⟨b4, e4, h⟩ := bind_ok_inv h
  cases b4 with
  | false => simp at h
  | true =>
  simp only [Bool.not_true, Bool.false_eq_true, if_false] at h
  obtain ⟨c, e5, h⟩ := bind_ok_inv h
  cases c with
  | none => simp at h
  | some c =>
  simp only at h
  obtain ⟨⟨b6, B6, S6⟩, e6, h⟩ := bind_ok_inv h
  cases b6 with
  | false => simp at h
  | true =>
  simp only [Bool.not_true, Bool.false_eq_true, if_false] at h
  obtain ⟨ts, e7, h⟩ := bind_ok_inv h
  obtain ⟨⟨b8, B8, S8⟩, e8, h⟩ := bind_ok_inv h
  cases b8 with
  | false => simp at h
  | true =>
  simp only [Bool.not_true, Bool.false_eq_true, if_false] at h
  obtain ⟨t9, e9, h⟩ := bind_ok_inv h
  cases t9 with
  | inl e => simp at h
  | inr t9 =>
  simp only [Res.pure_eq, Res.ok.injEq, Sum.inr.injEq] at h
  have hfin := h
  clear h
  have hn : n ≠ 0 := by
    unfold sp3Nonzero at e2
    obtain ⟨p, _, e2⟩ := bind_ok_inv e2
    split at e2
    · simp at e2
    · rename_i hh
      simp only [Res.pure_eq, Res.ok.injEq, Option.some.injEq] at e2
      rw [← e2]
      exact fun h0 => hh (Or.inl h0)
  obtain ⟨sat, l1, q1, p1, rfl, rfl, g1, L1⟩ := sp3Expect_sound hl hL (by decide) (by decide) hb e1
  subst q1
  obtain ⟨sats, acc, more, buf', q2, p2, p3, p4, hb', L2⟩ := sp3SatLines_sound _ sat l1 buf _ a (hl sat (by simp)).2.1
    (fun x hx => hl x (by simp [hx])) hb L1 e3 e4
  have hsats : sats ≠ [] := by
    rintro rfl
    simp at q2
    have := p1.2
    rw [q2.1] at this
    have h2 := p3.2
    rw [h2] at this; simp at this
  rw [q2] at hl ⊢
  rw [p4] at e5
  obtain ⟨hb5, h5⟩ := sp3AccLines_sound _ acc more buf' _ c (hl acc (by simp)) (fun x hx => hl x (by simp [hx])) hb' L2 p3 e5
  rcases h5 with h5 | ⟨accs, last, more5, q5, p5, p5', L5⟩
  · obtain ⟨c1, l6, q6, _⟩ := sp3Expect_sound (ls := []) (by simp) (fun hg => by rw [h5] at hg; cases hg) (by decide) (by decide) hb5 e6
    cases q6
  · have hl5 : ∀ x ∈ more5, LineFits 84 x := by
      intro x hx
      apply hl x
      rw [q5]; simp [hx]
    obtain ⟨c1, l6, q6, p6, rfl, rfl, g6, L6⟩ := sp3Expect_sound hl5 L5 (by decide) (by decide) hb5 e6
    subst q6
    obtain ⟨c2, l7, q7, p7, rfl, rfl, g7, L7⟩ := sp3Expect_sound (fun x hx => hl5 x (by simp [hx])) L6 (by decide) (by decide) (fill_len2 hb5) e8
    subst q7
    obtain ⟨f1, f2, i1, i2, cs, os, q8, h1, h2, h3, h4, h5, h6, h7⟩ := sp3HeadTail_sound (fun x hx => hl5 x (by simp [hx])) (fill_len2 (fill_len2 hb5)) L7 e9
    subst q8
    rw [← hfin]
    exact ⟨hn, sats, accs, last, c1, c2, f1, f2, i1, i2, cs, os, by rw [q5], ⟨hsats, p2⟩, ⟨p5, p5'⟩, ⟨p6, p7⟩, ⟨h1, h2⟩, ⟨h3, h4⟩, h5, h6, h7⟩

/-- **C61** (soundness).  Whatever the lines of a file are (at most 84 chars each), it is opened only
when it has the structure of an SP3 header: the marks of the first two lines, at least one line of
satellites, at least two lines where the accuracies belong (the last of them is not looked at), the
"%c", "%f" and "%i" lines, comments.  The stream of the object stands behind the comments, and the
number of satellites is not 0. -/
theorem C61_opened_structure {L : Sp3Lib} {e0 : Bool} {junk : List Char} (hj : junk.length = 85) {ls : List (List Char)}
    (hl : ∀ l ∈ ls, LineFits 84 l) {f : Sp3File} (h : sp3Open L e0 junk (linesText ls) = .ok f) :
    f.numSats ≠ 0 ∧ ∃ d : Sp3Lines ls, d.first[1]? = some f.version ∧
      (f.strm.good = true → f.strm.rest = linesText d.others ∧ ∀ x ∈ d.others.head?, x.head? ≠ some '/') := by
  unfold sp3Open at h
  obtain ⟨r, e, h⟩ := bind_ok_inv h
  cases r with
  | inl e => simp at h
  | inr f' =>
  simp only [Res.pure_eq, Res.ok.injEq] at h
  subst h
  have e := noexcept_ok_inv e
  have hL0 : LinesLeft ((⟨linesText ls, 0, false, false⟩ : Stream).seekg 0) ls := fun _ => by simp [Stream.seekg, Stream.rest]
  generalize (⟨linesText ls, 0, false, false⟩ : Stream).seekg 0 = s at hL0 e
  simp only at e
  obtain ⟨r1, e1, e⟩ := bind_ok_inv e
  cases r1 with
  | inl e => simp at e
  | inr h1 =>
  simp only at e
  obtain ⟨r2, e2, e⟩ := bind_ok_inv e
  cases r2 with
  | inl e => simp at e
  | inr itv =>
  simp only at e
  obtain ⟨r3, e3, e⟩ := bind_ok_inv e
  cases r3 with
  | inl e => simp at e
  | inr m =>
  simp only [Res.pure_eq, Res.ok.injEq, Sum.inr.injEq] at e
  have hfin := e
  clear e
  -- the first line
  have hfirst : ∀ x : List Char, sp3First L e0 (fillLine junk x) = .ok (.inr h1) →
      (Begins x '#' 'c' ∨ Begins x '#' 'd') ∧ x[1]? = some h1.version := by
    intro x hx
    have hlen : 2 ≤ (fillLine junk x).length := fill_len2 (by omega)
    unfold sp3First at hx
    rw [getAt_lt (by omega : 0 < (fillLine junk x).length), Res.bind_ok] at hx
    split at hx
    · simp at hx
    · rename_i h0
      rw [getAt_lt (by omega : 1 < (fillLine junk x).length), Res.bind_ok] at hx
      split at hx
      · simp at hx
      · rename_i h1'
        have hv : h1.version = (fillLine junk x)[1] := by
          obtain ⟨a1, _, hx⟩ := bind_ok_inv hx
          cases a1 with
          | none => simp at hx
          | some a1 =>
          simp only at hx
          obtain ⟨a2, _, hx⟩ := bind_ok_inv hx
          cases a2 with
          | none => simp at hx
          | some a2 =>
          simp only at hx
          obtain ⟨a3, _, hx⟩ := bind_ok_inv hx
          cases a3 with
          | none => simp at hx
          | some a3 =>
          simp only at hx
          obtain ⟨a4, _, hx⟩ := bind_ok_inv hx
          cases a4 with
          | none => simp at hx
          | some a4 =>
          simp only at hx
          obtain ⟨a5, _, hx⟩ := bind_ok_inv hx
          cases a5 with
          | none => simp at hx
          | some a5 =>
          simp only at hx
          unfold sp3FirstEnd at hx
          obtain ⟨_, _, hx⟩ := bind_ok_inv hx
          obtain ⟨a6, _, hx⟩ := bind_ok_inv hx
          cases a6 with
          | none => simp at hx
          | some a6 =>
          simp only at hx
          obtain ⟨_, _, hx⟩ := bind_ok_inv hx
          obtain ⟨_, _, hx⟩ := bind_ok_inv hx
          obtain ⟨_, _, hx⟩ := bind_ok_inv hx
          obtain ⟨_, _, hx⟩ := bind_ok_inv hx
          obtain ⟨_, _, hx⟩ := bind_ok_inv hx
          simp only [Res.pure_eq, Res.ok.injEq, Sum.inr.injEq] at hx
          rw [← hx]
        have g0 : (fillLine junk x)[0]? = some '#' := by
          rw [List.getElem?_eq_getElem (by omega)]
          simpa using h0
        have g1 : (fillLine junk x)[1]? = some h1.version := by
          rw [List.getElem?_eq_getElem (by omega), hv]
        have hvv : h1.version = 'c' ∨ h1.version = 'd' := by
          rw [hv]
          by_contra hno
          simp only [not_or] at hno
          exact h1' hno
        match x, g0, g1 with
        | [], g0, _ => simp [fillLine] at g0; exact absurd g0 (by decide)
        | [y], _, g1 =>
          simp [fillLine] at g1
          rw [← g1] at hvv
          exact absurd hvv (by decide)
        | y :: z :: x, g0, g1 =>
          simp [fillLine] at g0 g1
          refine ⟨?_, by simp [g1]⟩
          rcases hvv with hvv | hvv
          · left; simp [Begins, g0, g1, hvv]
          · right; simp [Begins, g0, g1, hvv]
  rcases getline_lines hl hL0 with ⟨x, ls1, q1, w1, g1, L1⟩ | ⟨s1, w1, g1⟩
  · rw [w1] at e1 e2 e3
    simp only at e1 e2 e3
    obtain ⟨hx1, hx2⟩ := hfirst x e1
    subst q1
    have hsecond : ∀ y : List Char, sp3Second L e0 (fillLine (fillLine junk x) y) h1.start = .ok (.inr itv) → Begins y '#' '#' := by
      intro y hy
      unfold sp3Second at hy
      rw [starts_iff (by decide) (by decide) (fill_len2 (fill_len2 (by omega))), Res.bind_ok] at hy
      by_contra hno
      rw [decide_eq_false hno] at hy
      simp at hy
    rcases getline_lines (fun z hz => hl z (by simp [hz])) L1 with ⟨y, ls2, q2, w2, g2, L2⟩ | ⟨s2, w2, g2⟩
    · rw [w2] at e2 e3
      simp only at e2 e3
      subst q2
      obtain ⟨hn, sats, accs, last, c1, c2, f1, f2, i1, i2, cs, os, q3, p1, p2, p3, p4, p5, p6, p7, p8⟩ := sp3HeadMid_sound
        (fun z hz => hl z (by simp [hz])) (fill_len2 (fill_len2 (by omega))) L2 e3
      refine ⟨by rw [← hfin]; exact hn, ⟨x, y, sats, accs, last, c1, c2, f1, f2, i1, i2, cs, os, by rw [q3], hx1, hsecond y e2, p1, p2, p3, p4, p5, p6⟩,
        by rw [← hfin]; exact hx2, ?_⟩
      intro hg
      rw [← hfin] at hg ⊢
      exact ⟨p7 hg, p8 hg⟩
    · rw [w2] at e2
      have := hsecond _ e2
      simp [Begins] at this
  · rw [w1] at e1
    have := (hfirst _ e1).2
    simp at this

/-! ## The interpolator -/

/-- **C62**, false of the code: no interpolator can be constructed from an opened SP3 file (whatever
the file contained): the constructor ends the program when the number of satellites is negative (and the interval not 0) and
runs into undefined behaviour in every other case. -/
theorem C62_never_constructed {L : Sp3Lib} {e0 : Bool} {junk content : List Char} {f : Sp3File}
    (h : sp3Open L e0 junk content = .ok f) (sec : Int) :
    lagrangeNew sec f = if f.interval ≠ 0 ∧ f.numSats < 0 then .terminate else .ub := by
  have hn : f.numSats ≠ 0 := by
    unfold sp3Open at h
    obtain ⟨r, e, h⟩ := bind_ok_inv h
    cases r with
    | inl e => simp at h
    | inr f' =>
    simp only [Res.pure_eq, Res.ok.injEq] at h
    subst h
    have e := noexcept_ok_inv e
    simp only at e
    obtain ⟨r1, e1, e⟩ := bind_ok_inv e
    cases r1 with
    | inl e => simp at e
    | inr h1 =>
    simp only at e
    obtain ⟨r2, e2, e⟩ := bind_ok_inv e
    cases r2 with
    | inl e => simp at e
    | inr itv =>
    simp only at e
    obtain ⟨r3, e3, e⟩ := bind_ok_inv e
    cases r3 with
    | inl e => simp at e
    | inr m =>
    simp only [Res.pure_eq, Res.ok.injEq, Sum.inr.injEq] at e
    rw [← e]
    unfold sp3HeadMid at e3
    obtain ⟨a, _, e3⟩ := bind_ok_inv e3
    split at e3
    · simp at e3
    obtain ⟨n, e2, e3⟩ := bind_ok_inv e3
    cases n with
    | none => simp at e3
    | some n =>
    have hn : n ≠ 0 := by
      unfold sp3Nonzero at e2
      obtain ⟨p, _, e2⟩ := bind_ok_inv e2
      split at e2
      · simp at e2
      · rename_i hh
        simp only [Res.pure_eq, Res.ok.injEq, Option.some.injEq] at e2
        rw [← e2]
        exact fun h0 => hh (Or.inl h0)
    simp only at e3
    obtain ⟨x1, _, e3⟩ := bind_ok_inv e3
    cases x1 with
    | none => simp at e3
    | some x1 =>
    simp only at e3
    obtain ⟨x2, _, e3⟩ := bind_ok_inv e3
    split at e3
    · simp at e3
    obtain ⟨x3, _, e3⟩ := bind_ok_inv e3
    cases x3 with
    | none => simp at e3
    | some x3 =>
    simp only at e3
    obtain ⟨x4, _, e3⟩ := bind_ok_inv e3
    split at e3
    · simp at e3
    obtain ⟨x5, _, e3⟩ := bind_ok_inv e3
    obtain ⟨x6, _, e3⟩ := bind_ok_inv e3
    split at e3
    · simp at e3
    obtain ⟨x7, _, e3⟩ := bind_ok_inv e3
    cases x7 with
    | inl e => simp at e3
    | inr x7 =>
    simp only [Res.pure_eq, Res.ok.injEq, Sum.inr.injEq] at e3
    rw [← e3]
    exact hn
  unfold lagrangeNew
  by_cases h0 : f.interval = 0
  · rw [if_pos h0, if_neg (fun hh => hh.1 h0)]; rfl
  · rw [if_neg h0]
    by_cases h1 : f.numSats < 0
    · rw [if_pos h1, if_pos ⟨h0, h1⟩]; rfl
    · rw [if_neg h1, if_neg (fun hh => h1 hh.2)]
      obtain ⟨k, hk⟩ : ∃ k, f.numSats.toNat = k + 1 := ⟨f.numSats.toNat - 1, by omega⟩
      rw [hk]
      rfl

end Ggnss
