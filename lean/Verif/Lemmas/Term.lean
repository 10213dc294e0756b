import Verif.Model.Num
import Verif.Model.Stream
import Verif.Lemmas.Base
/-! Arrays whose last byte is a terminator: C string functions on them stay inside. -/
namespace Ggnss

/-- An array of `n + 1` bytes, the last one a terminator. -/
def TermN (n : Nat) (buf : List Char) : Prop := buf.length = n + 1 ∧ buf[n]? = some NUL

theorem getline_lenN (s : Stream) (n : Nat) : (s.getline n).1.length ≤ n - 1 := by
  unfold Stream.getline
  split
  · simp only
    split
    · split <;> assumption
    · rw [List.length_take]; exact Nat.min_le_left _ _
  · simp

theorem TermN.fillLen {n : Nat} {buf l : List Char} (h : TermN n buf) (hl : l.length ≤ n) : TermN n (fillLine buf l) := by
  unfold fillLine
  constructor
  · simp [h.1]; omega
  · rw [List.getElem?_append_right hl]
    by_cases hn : l.length = n
    · simp [hn]
    · obtain ⟨m, hm⟩ : ∃ m, n - l.length = m + 1 := ⟨n - 1 - l.length, by omega⟩
      rw [hm, List.getElem?_cons_succ, List.getElem?_drop]
      rw [show l.length + 1 + m = n by omega]; exact h.2

theorem TermN.fill {n : Nat} {buf : List Char} (h : TermN n buf) (s : Stream) :
    TermN n (fillLine buf (s.getline (n + 1)).1) :=
  h.fillLen (by simpa using getline_lenN s (n + 1))

theorem TermN.nul {n : Nat} {buf : List Char} (h : TermN n buf) {k : Nat} (hk : k ≤ n) : NUL ∈ buf.drop k := by
  rw [List.mem_iff_getElem?]
  exact ⟨n - k, by rw [List.getElem?_drop, show k + (n - k) = n by omega]; exact h.2⟩

theorem TermN.strtolA {n : Nat} {buf : List Char} (h : TermN n buf) {k : Nat} (hk : k ≤ n) :
    strtolA (buf.drop k) = .ok (strtol (buf.drop k)) := by
  unfold Ggnss.strtolA; rw [if_pos (h.nul hk)]

theorem TermN.strtodA {n : Nat} {buf : List Char} (h : TermN n buf) {k : Nat} (hk : k ≤ n) :
    strtodA (buf.drop k) = .ok (strtod (buf.drop k)) := by
  unfold Ggnss.strtodA; rw [if_pos (h.nul hk)]

theorem TermN.getAt {n : Nat} {buf : List Char} (h : TermN n buf) {k : Nat} (hk : k ≤ n) :
    ∃ c, getAt buf k = .ok c := ⟨_, getAt_lt (by have := h.1; omega)⟩

theorem nul_split {a : List Char} (h : NUL ∈ a) : ∃ x y, a = x ++ NUL :: y ∧ IsCStr x := by
  induction a with
  | nil => simp at h
  | cons c cs ih =>
    by_cases hc : c = NUL
    · exact ⟨[], cs, by simp [hc], by simp [IsCStr]⟩
    · obtain ⟨x, y, h1, h2⟩ := ih (by simpa [Ne.symm hc] using h)
      refine ⟨c :: x, y, by simp [h1], ?_⟩
      unfold IsCStr at *
      simp [Ne.symm hc, h2]

/-- `strncmp` of two arrays that both contain a terminator is defined. -/
theorem strncmpEq_nul {a b : List Char} (n : Nat) (ha : NUL ∈ a) (hb : NUL ∈ b) :
    ∃ e, strncmpEq n a b = .ok e := by
  obtain ⟨x, y, rfl, hx⟩ := nul_split ha
  obtain ⟨x', y', rfl, hx'⟩ := nul_split hb
  exact ⟨_, strncmpEq_cstr n x x' y y' hx hx'⟩

theorem nul_cArr (s : List Char) : NUL ∈ cArr s := by simp [cArr]

theorem nul_fill (buf l : List Char) : NUL ∈ fillLine buf l := by simp [fillLine]

theorem cstrOf_nul {a : List Char} (h : NUL ∈ a) : ∃ s, cstrOf a = .ok s := by
  obtain ⟨x, y, rfl, hx⟩ := nul_split h
  exact ⟨x, cstrOf_append hx y⟩

end Ggnss
