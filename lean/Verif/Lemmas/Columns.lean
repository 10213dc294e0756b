import Verif.Spec.Columns
import Verif.Lemmas.Check
import Verif.Lemmas.Nav
/-! The number parsers on columns of a line array. -/
namespace Ggnss

theorem drop_line {l tail : List Char} {off : Nat} (h : off ≤ l.length) :
    (l ++ tail).drop off = l.drop off ++ tail := by
  rw [List.drop_append, Nat.sub_eq_zero_of_le h]; rfl

theorem head_append_nul (l tail : List Char) (P : Char → Prop) (h : ∀ c, l.head? = some c → P c) (hn : P NUL) :
    ∀ c, (l ++ NUL :: tail).head? = some c → P c := by
  intro c hc
  cases l with
  | nil => simp at hc; subst hc; exact hn
  | cons x l => simp at hc; subst hc; exact h x rfl

theorem strtodA_num {l tail : List Char} {off : Nat} {n : Numeral} (h : NumAt l off n) :
    ∃ r, strtodA ((l ++ NUL :: tail).drop off) = .ok (some (n.value, r, false)) := by
  obtain ⟨h1, h2, rest, h3, h4⟩ := h
  have hst : stopsNumber (rest ++ NUL :: tail) :=
    head_append_nul rest tail (fun c => c.isDigit = false ∧ c ≠ '.' ∧ c ≠ 'e' ∧ c ≠ 'E' ∧ c ≠ 'x' ∧ c ≠ 'X') h4 (by decide)
  refine ⟨rest ++ NUL :: tail, ?_⟩
  unfold strtodA
  rw [drop_line h1, if_pos (by simp), h3, List.append_assoc, strtod_numeral n h2 _ hst]

theorem strtol_nat {l tail : List Char} {off v : Nat} (h : NatAt l off v) :
    ∃ r, strtolA ((l ++ NUL :: tail).drop off) = .ok (some ((v : Int), r, false)) := by
  obtain ⟨h0, k, ds, rest, h1, h2, h3, h4, h5, h7⟩ := h
  have hnd : ∀ c, (rest ++ NUL :: tail).head? = some c → c.isDigit = false :=
    head_append_nul rest tail (fun c => c.isDigit = false) h4 (by decide)
  refine ⟨rest ++ NUL :: tail, ?_⟩
  unfold strtolA
  rw [drop_line h0, if_pos (by simp), h1]
  have htw := takeWhile_digits ds (rest ++ NUL :: tail) h2 hnd
  have hdw : (List.replicate k ' ' ++ (ds ++ rest) ++ NUL :: tail).dropWhile isSpace = ds ++ (rest ++ NUL :: tail) := by
    rw [List.append_assoc, List.append_assoc]
    apply dropWhile_blanks
    intro c hc
    exact isDigit_not_space c (h2 c (head_digits_append h3 hc))
  unfold strtol
  simp only [hdw]
  rw [takeSign_other _ (fun c hc => isDigit_not_sign c (h2 c (head_digits_append h3 hc)))]
  simp only [htw.1, htw.2, h3, if_false, Bool.false_eq_true]
  have e : digitsVal ds = v := h5
  rw [e, if_neg (by unfold LONG_MAX; omega), if_neg (by unfold LONG_MIN; omega)]

theorem toInt32_nat {v : Nat} (h : v < 2147483648) : toInt32 (v : Int) = v := toInt32_small (by omega) (by omega)

end Ggnss
