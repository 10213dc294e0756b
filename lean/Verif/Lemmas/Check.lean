import Verif.Spec.Columns
import Verif.Lemmas.Num
/-! Executable checks of `NumAt` and `NatAt`, for examples. -/
namespace Ggnss

/-- Executable version of `NumAt`, for examples. -/
def numCheck (l : List Char) (off : Nat) (n : Numeral) : Bool :=
  decide (off ≤ l.length) && decide (allDigits n.ip) && decide (allDigits n.fracDigits) &&
  (!n.ip.isEmpty) &&
  (match n.exp with | none => true | some (_, ds) => decide (allDigits ds) && !ds.isEmpty) &&
  decide ((l.drop off).take n.text.length = n.text) &&
  (match (l.drop off).drop n.text.length with
    | [] => true
    | c :: _ => (!c.isDigit) && c != '.' && c != 'e' && c != 'E' && c != 'x' && c != 'X') &&
  decide (n.ip.length ≤ 100) && decide (n.fracDigits.length ≤ 100) &&
  (match n.exp with | none => true | some (_, ds) => decide (ds.length ≤ 2))

theorem numCheck_sound {l : List Char} {off : Nat} {n : Numeral} (h : numCheck l off n = true) :
    NumAt l off n := by
  unfold numCheck at h
  simp only [Bool.and_eq_true, decide_eq_true_eq] at h
  obtain ⟨⟨⟨⟨⟨⟨⟨⟨⟨h1, h2⟩, h3⟩, h4⟩, h5⟩, h6⟩, h7⟩, h8⟩, h9⟩, h10⟩ := h
  have hs : n.Shape := ⟨h2, h3, Or.inl (by simpa using h4), by
    intro s ds he
    rw [he] at h5
    simpa using h5⟩
  refine ⟨h1, ⟨hs, fits_of_shape hs h8 h9 (by
    intro s ds he
    rw [he] at h10
    simpa using h10)⟩, (l.drop off).drop n.text.length, ?_, ?_⟩
  · conv_lhs => rw [← List.take_append_drop n.text.length (l.drop off), h6]
  · intro c hc
    revert h7 hc
    cases (l.drop off).drop n.text.length with
    | nil => simp
    | cons x xs =>
      simp only [List.head?_cons, Option.some.injEq]
      rintro h7 rfl
      simpa [and_assoc] using h7

/-- Executable version of `NatAt`, for examples. -/
def natCheck (l : List Char) (off k : Nat) (ds : List Char) (v : Nat) : Bool :=
  decide (off ≤ l.length) && decide ((l.drop off).take (k + ds.length) = List.replicate k ' ' ++ ds) &&
  decide (allDigits ds) && !ds.isEmpty &&
  (match (l.drop off).drop (k + ds.length) with | [] => true | c :: _ => !c.isDigit) &&
  decide (Nat.ofDigitChars 10 ds 0 = v) && decide (v < 2147483648)

theorem natCheck_sound {l : List Char} {off k : Nat} {ds : List Char} {v : Nat}
    (h : natCheck l off k ds v = true) : NatAt l off v := by
  unfold natCheck at h
  simp only [Bool.and_eq_true, decide_eq_true_eq] at h
  obtain ⟨⟨⟨⟨⟨⟨h1, h2⟩, h3⟩, h4⟩, h5⟩, h6⟩, h7⟩ := h
  refine ⟨h1, k, ds, (l.drop off).drop (k + ds.length), ?_, h3, by simpa using h4, ?_, h6, h7⟩
  · conv_lhs => rw [← List.take_append_drop (k + ds.length) (l.drop off), h2]
    simp
  · intro c hc
    revert h5 hc
    cases (l.drop off).drop (k + ds.length) with
    | nil => simp
    | cons x xs => simp only [List.head?_cons, Option.some.injEq]; rintro h5 rfl; simpa using h5

end Ggnss
