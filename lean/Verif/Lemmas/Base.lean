import Verif.Model.Base
/-! Helper lemmas about C strings and buffers. -/
namespace Ggnss

theorem IsCStr.cons {c : Char} {s : List Char} (h : IsCStr (c :: s)) : c ≠ NUL ∧ IsCStr s := by
  unfold IsCStr at *
  simp only [List.mem_cons, not_or] at h
  exact ⟨Ne.symm h.1, h.2⟩

theorem IsCStr.append {s t : List Char} (hs : IsCStr s) (ht : IsCStr t) : IsCStr (s ++ t) := by
  unfold IsCStr at *; simp [hs, ht]

theorem IsCStr.take {s : List Char} (h : IsCStr s) (n : Nat) : IsCStr (s.take n) :=
  fun hm => h (List.mem_of_mem_take hm)

theorem IsCStr.drop {s : List Char} (h : IsCStr s) (n : Nat) : IsCStr (s.drop n) :=
  fun hm => h (List.mem_of_mem_drop hm)

theorem IsCStr.replicate (n : Nat) (c : Char) (h : c ≠ NUL) : IsCStr (List.replicate n c) := by
  unfold IsCStr; simp [List.mem_replicate]; intro _; exact Ne.symm h

theorem cstrOf_append {s : List Char} (hs : IsCStr s) (rest : List Char) :
    cstrOf (s ++ NUL :: rest) = .ok s := by
  induction s with
  | nil => simp [cstrOf]
  | cons c s ih =>
    obtain ⟨h1, h2⟩ := hs.cons
    simp [cstrOf, h1, ih h2]

theorem cstrOf_ok {buf s : List Char} (h : cstrOf buf = .ok s) :
    ∃ rest, buf = s ++ NUL :: rest ∧ IsCStr s := by
  induction buf generalizing s with
  | nil => simp [cstrOf] at h
  | cons c cs ih =>
    unfold cstrOf at h
    split at h
    · rename_i hc
      injection h with h; subst h; subst hc
      exact ⟨cs, rfl, by simp [IsCStr]⟩
    · rename_i hc
      split at h
      · rename_i r hr
        injection h with h; subst h
        obtain ⟨rest, h1, h2⟩ := ih hr
        refine ⟨rest, by simp [h1], ?_⟩
        unfold IsCStr at *
        simp only [List.mem_cons, not_or]
        exact ⟨Ne.symm hc, h2⟩
      · rename_i e he
        exact absurd h (he s)

theorem cstrOf_total (buf : List Char) : (∃ s, cstrOf buf = .ok s) ∨ (cstrOf buf = .ub ∧ NUL ∉ buf) := by
  induction buf with
  | nil => right; simp [cstrOf]
  | cons c cs ih =>
    by_cases hc : c = NUL
    · left; exact ⟨[], by simp [cstrOf, hc]⟩
    · rcases ih with ⟨s, h⟩ | ⟨h, hn⟩
      · left; exact ⟨c :: s, by simp [cstrOf, hc, h]⟩
      · right; refine ⟨by simp [cstrOf, hc, h], ?_⟩
        simp only [List.mem_cons, not_or]; exact ⟨Ne.symm hc, hn⟩

theorem getAt_append_left {s t : List Char} {i : Nat} (h : i < s.length) :
    getAt (s ++ t) i = .ok s[i] := by
  unfold getAt
  rw [List.getElem?_append_left h, List.getElem?_eq_getElem h]

theorem getAt_lt {s : List Char} {i : Nat} (h : i < s.length) : getAt s i = .ok s[i] := by
  unfold getAt
  rw [List.getElem?_eq_getElem h]

theorem memcpyAt_ok {buf src : List Char} {off : Nat} (h : off + src.length ≤ buf.length) :
    memcpyAt buf off src = .ok (buf.take off ++ src ++ buf.drop (off + src.length)) := by
  simp [memcpyAt, h]

/-- `strncmp` on two terminated arrays compares the first `n` chars of the two strings. -/
theorem strncmpEq_cstr (n : Nat) (a b ra rb : List Char) (ha : IsCStr a) (hb : IsCStr b) :
    strncmpEq n (a ++ NUL :: ra) (b ++ NUL :: rb) = .ok (decide (a.take n = b.take n)) := by
  induction n generalizing a b with
  | zero => simp [strncmpEq]
  | succ n ih =>
    cases a with
    | nil =>
      cases b with
      | nil => simp [strncmpEq]
      | cons y b =>
        have := hb.cons.1
        simp [strncmpEq, Ne.symm this]
    | cons x a =>
      cases b with
      | nil =>
        have := ha.cons.1
        simp [strncmpEq, this]
      | cons y b =>
        have hx := ha.cons.1
        simp only [List.cons_append, strncmpEq]
        by_cases hxy : x = y
        · subst hxy
          simp [hx, ih a b ha.cons.2 hb.cons.2]
        · simp [hxy]

/-- `strncmp` never needs more than `n` chars of each array. -/
theorem strncmpEq_long (n : Nat) (a b ra rb : List Char) (ha : IsCStr a) (hb : IsCStr b)
    (la : n ≤ a.length) (lb : n ≤ b.length) :
    strncmpEq n (a ++ ra) (b ++ rb) = .ok (decide (a.take n = b.take n)) := by
  induction n generalizing a b with
  | zero => simp [strncmpEq]
  | succ n ih =>
    cases a with
    | nil => simp at la
    | cons x a =>
      cases b with
      | nil => simp at lb
      | cons y b =>
        have hx := ha.cons.1
        simp only [List.cons_append, strncmpEq]
        by_cases hxy : x = y
        · subst hxy
          have := ih a b ha.cons.2 hb.cons.2 (by simpa using la) (by simpa using lb)
          simp [hx, this]
        · simp [hxy]

end Ggnss
