import Verif.Model.Stream
import Mathlib.Data.List.TakeWhile
import Mathlib.Tactic.Conv
/-! Lemmas about the stream model. -/
namespace Ggnss
namespace Stream

theorem good_iff (s : Stream) : s.good = true ↔ s.eof = false ∧ s.fail = false := by
  unfold good; cases s.eof <;> cases s.fail <;> simp

theorem takeWhile_line (l tail : List Char) (h : '\n' ∉ l) :
    (l ++ '\n' :: tail).takeWhile (fun c => decide (c ≠ '\n')) = l := by
  induction l with
  | nil => simp
  | cons c l ih =>
    simp only [List.mem_cons, not_or] at h
    have : c ≠ '\n' := Ne.symm h.1
    simp only [List.cons_append, List.takeWhile_cons, this, ne_eq, not_false_eq_true, decide_true, if_true]
    rw [ih h.2]

/-- Position after `k` more bytes. -/
def adv (s : Stream) (k : Nat) : Stream := { s with pos := s.pos + k }

@[simp] theorem adv_good (s : Stream) (k : Nat) : (s.adv k).good = s.good := rfl
@[simp] theorem adv_fail (s : Stream) (k : Nat) : (s.adv k).fail = s.fail := rfl
@[simp] theorem adv_adv (s : Stream) (j k : Nat) : (s.adv j).adv k = s.adv (j + k) := by
  simp [adv, Nat.add_assoc]
@[simp] theorem adv_zero (s : Stream) : s.adv 0 = s := rfl
theorem adv_rest (s : Stream) (k : Nat) : (s.adv k).rest = s.rest.drop k := by
  simp [adv, rest]
theorem adv_rest_append {s : Stream} {a b : List Char} (h : s.rest = a ++ b) :
    (s.adv a.length).rest = b := by
  rw [adv_rest, h]; simp

/-- A line that fits is read and its newline consumed. -/
theorem getline_line {s : Stream} {l tail : List Char} {n : Nat} (hg : s.good = true)
    (hr : s.rest = l ++ '\n' :: tail) (hl : '\n' ∉ l) (hn : l.length ≤ n - 1) :
    s.getline n = (l, s.adv (l.length + 1)) := by
  have htw : s.rest.takeWhile (fun c => decide (c ≠ '\n')) = l := by
    rw [hr]; exact takeWhile_line l tail hl
  have hd : s.rest.drop l.length = '\n' :: tail := by rw [hr]; simp
  unfold getline
  rw [if_pos hg]
  simp only [htw]
  rw [if_pos hn, hd]
  rfl

/-- The last line of a file without newline at its end. -/
theorem getline_last {s : Stream} {l : List Char} {n : Nat} (hg : s.good = true)
    (hr : s.rest = l) (hl : '\n' ∉ l) (hn : l.length ≤ n - 1) :
    s.getline n = (l, { s with pos := s.pos + l.length, eof := true, fail := l.isEmpty }) := by
  have htw : s.rest.takeWhile (fun c => decide (c ≠ '\n')) = l := by
    rw [hr, List.takeWhile_eq_self_iff]
    intro c hc; simp only [ne_eq, decide_eq_true_eq]; intro h; subst h; exact hl hc
  have hd : s.rest.drop l.length = [] := by rw [hr]; simp
  unfold getline
  rw [if_pos hg]
  simp only [htw]
  rw [if_pos hn, hd]

/-- A line that does not fit: `n - 1` chars are stored and failbit is set. -/
theorem getline_long {s : Stream} {l tail : List Char} {n : Nat} (hg : s.good = true)
    (hr : s.rest = l ++ '\n' :: tail) (hl : '\n' ∉ l) (hn : n - 1 < l.length) :
    s.getline n = (l.take (n - 1), { s with pos := s.pos + (n - 1), fail := true }) := by
  have htw : s.rest.takeWhile (fun c => decide (c ≠ '\n')) = l := by
    rw [hr]; exact takeWhile_line l tail hl
  unfold getline
  rw [if_pos hg]
  simp only [htw]
  rw [if_neg (by omega)]

theorem peek_cons {s : Stream} {c : Char} {tail : List Char} (hg : s.good = true)
    (hr : s.rest = c :: tail) : s.peek = (some c, s) := by
  unfold peek; rw [if_pos hg, hr]

theorem peek_nil {s : Stream} (hg : s.good = true) (hr : s.rest = []) :
    s.peek = (none, { s with eof := true }) := by
  unfold peek; rw [if_pos hg, hr]

theorem peek_some {s s' : Stream} {c : Char} (h : s.peek = (some c, s')) :
    s' = s ∧ s.good = true ∧ ∃ tail, s.rest = c :: tail := by
  unfold peek at h
  split at h
  · rename_i hg
    split at h
    · cases h
    · rename_i c' tl hr
      cases h
      exact ⟨rfl, hg, tl, hr⟩
  · cases h

theorem peek_none {s s' : Stream} (h : s.peek = (none, s')) :
    (s.good = true ∧ s.rest = [] ∧ s' = { s with eof := true }) ∨
    (s.good = false ∧ s' = { s with fail := true }) := by
  unfold peek at h
  split at h
  · rename_i hg
    split at h
    · rename_i hr; cases h; exact Or.inl ⟨hg, hr, rfl⟩
    · cases h
  · rename_i hg; cases h; right; simpa using hg

/-- A successful `getline` consumes at least one byte. -/
theorem getline_progress {s s' : Stream} {l : List Char} {n : Nat} (h : s.getline n = (l, s'))
    (hf : s'.fail = false) : s'.rest.length < s.rest.length := by
  unfold getline at h
  split at h
  · rename_i hg
    simp only at h
    split at h
    · split at h
      · rename_i hd
        injection h with h1 h2
        subst h2
        simp only [List.isEmpty_eq_false_iff] at hf
        have : s.rest ≠ [] := by intro h0; rw [h0] at hf; simp at hf
        have hlen : 0 < s.rest.length := List.length_pos_iff.2 this
        have hle := List.drop_eq_nil_iff.1 hd
        have : 0 < (s.rest.takeWhile (fun c => decide (c ≠ '\n'))).length := List.length_pos_iff.2 hf
        simp only [rest, List.length_drop] at *
        omega
      · rename_i hd
        injection h with h1 h2
        subst h2
        have : (s.rest.drop (s.rest.takeWhile (fun c => decide (c ≠ '\n'))).length).length ≠ 0 := by
          rw [hd]; simp
        simp only [rest, List.length_drop] at *
        omega
    · injection h with h1 h2; subst h2; simp at hf
  · injection h with h1 h2; subst h2; simp at hf

theorem getline_content {s s' : Stream} {l : List Char} {n : Nat} (h : s.getline n = (l, s')) :
    s'.content = s.content := by
  unfold getline at h
  split at h
  · simp only at h
    split at h
    · split at h <;> (injection h with _ h2; subst h2; rfl)
    · injection h with _ h2; subst h2; rfl
  · injection h with _ h2; subst h2; rfl

/-- On a stream that is not good nothing is read. -/
theorem getline_bad {s : Stream} {n : Nat} (h : s.good = false) :
    s.getline n = ([], { s with fail := true }) := by
  unfold getline; simp [h]

/-- What is stored by a successful `getline` is the text up to the end of line. -/
theorem getline_ok {s s' : Stream} {l : List Char} {n : Nat} (h : s.getline n = (l, s'))
    (hf : s'.fail = false) :
    s.good = true ∧ '\n' ∉ l ∧ l.length ≤ n - 1 ∧
      ((s.rest = l ∧ l ≠ [] ∧ s'.eof = true ∧ s'.rest = []) ∨ ∃ tail, s.rest = l ++ '\n' :: tail ∧ s' = s.adv (l.length + 1)) := by
  have hnl : '\n' ∉ s.rest.takeWhile (fun c => decide (c ≠ '\n')) := by
    intro hm
    have := List.mem_takeWhile_imp hm
    simp at this
  unfold getline at h
  split at h
  · rename_i hg
    simp only at h
    split at h
    · rename_i hle
      split at h
      · rename_i hd
        injection h with h1 h2
        subst h2
        simp only [List.isEmpty_eq_false_iff] at hf
        have heq : s.rest = s.rest.takeWhile (fun c => decide (c ≠ '\n')) := by
          have := List.drop_eq_nil_iff.1 hd
          have hp : s.rest.takeWhile (fun c => decide (c ≠ '\n')) <+: s.rest := List.takeWhile_prefix _
          exact (hp.eq_of_length_le this).symm
        refine ⟨hg, h1 ▸ hnl, h1 ▸ hle, Or.inl ⟨h1 ▸ heq, h1 ▸ hf, rfl, ?_⟩⟩
        simpa [rest] using hd
      · rename_i x xs hd
        injection h with h1 h2
        subst h2
        refine ⟨hg, h1 ▸ hnl, h1 ▸ hle, Or.inr ⟨xs, ?_, ?_⟩⟩
        · have h3 : s.rest = s.rest.takeWhile (fun c => decide (c ≠ '\n')) ++ s.rest.dropWhile (fun c => decide (c ≠ '\n')) :=
            (List.takeWhile_append_dropWhile).symm
          have h4 : s.rest.drop (s.rest.takeWhile (fun c => decide (c ≠ '\n'))).length
              = s.rest.dropWhile (fun c => decide (c ≠ '\n')) := by
            generalize hT : s.rest.takeWhile (fun c => decide (c ≠ '\n')) = T at *
            generalize s.rest.dropWhile (fun c => decide (c ≠ '\n')) = D at *
            rw [h3]; simp
          rw [hd] at h4
          have h5 : x = '\n' := by
            have h6 : s.rest.dropWhile (fun c => decide (c ≠ '\n')) ≠ [] := by rw [← h4]; simp
            have := List.head_dropWhile_not (fun c => decide (c ≠ '\n')) h6
            simp only [← h4, List.head_cons] at this
            simpa using this
          rw [h5] at h4
          rw [← h1]
          conv_lhs => rw [h3, ← h4]
        · rw [← h1]; simp [adv, Nat.add_assoc]
    · injection h with h1 h2; subst h2; simp at hf
  · injection h with h1 h2; subst h2; simp at hf

@[simp] theorem clear_good (s : Stream) : s.clear.good = true := rfl
@[simp] theorem clear_rest (s : Stream) : s.clear.rest = s.rest := rfl
@[simp] theorem clear_content (s : Stream) : s.clear.content = s.content := rfl
@[simp] theorem clear_pos (s : Stream) : s.clear.pos = s.pos := rfl

end Stream
end Ggnss
