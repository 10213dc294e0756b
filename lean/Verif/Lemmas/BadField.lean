import Verif.Spec.BadField
import Verif.Props.ObsRange
/-!
# What the C library makes of bad columns
-/
namespace Ggnss

theorem strtod_blanks {t : List Char} (h : ∀ c ∈ t, c = ' ') (tail : List Char) : strtod (t ++ NUL :: tail) = none := by
  have : t ++ NUL :: tail = List.replicate t.length ' ' ++ NUL :: tail := by
    rw [List.eq_replicate_of_mem h]; simp
  rw [this]
  exact strtod_notNumber (by decide) (by decide) (by decide)

theorem strtod_badReal {t : List Char} (h : BadReal t) (tail : List Char) :
    strtod (t ++ NUL :: tail) = none ∨ ∃ v r, strtod (t ++ NUL :: tail) = some (v, r, true) := by
  rcases h with (h | ⟨k, c, r, rfl, h1, h2, h3⟩) | ⟨n, rest, hn, rfl, hst, hbig⟩
  · exact Or.inl (strtod_blanks h tail)
  · left; rw [List.append_assoc, List.cons_append, strtod_notNumber h1 h2 h3]
  · right
    exact ⟨_, _, by rw [List.append_assoc, strtod_shape n hn _ (head_append_nul rest tail _ hst (by decide)), (dblErange_iff _).2 hbig]⟩

theorem strtol_badInt {t : List Char} (h : BadInt t) (tail : List Char) :
    strtol (t ++ NUL :: tail) = none ∨ ∃ v r, strtol (t ++ NUL :: tail) = some (v, r, true) := by
  rcases h with h | h
  · exact Or.inl (strtol_noInt h)
  · exact Or.inr (strtol_tooLong h tail)

theorem strtodA_badReal {l : List Char} {off : Nat} (ho : off ≤ l.length) (h : BadReal (l.drop off)) (tail : List Char) :
    ∃ p, strtodA ((l ++ NUL :: tail).drop off) = .ok p ∧ (p = none ∨ ∃ v r, p = some (v, r, true)) := by
  refine ⟨strtod (l.drop off ++ NUL :: tail), ?_, strtod_badReal h tail⟩
  rw [drop_line ho]; unfold strtodA; rw [if_pos (by simp)]

theorem strtolA_badInt {l : List Char} {off : Nat} (ho : off ≤ l.length) (h : BadInt (l.drop off)) (tail : List Char) :
    ∃ p, strtolA ((l ++ NUL :: tail).drop off) = .ok p ∧ (p = none ∨ strtolErr p = true) := by
  refine ⟨strtol (l.drop off ++ NUL :: tail), ?_, ?_⟩
  · rw [drop_line ho]; unfold strtolA; rw [if_pos (by simp)]
  · rcases strtol_badInt h tail with h | ⟨v, r, h⟩
    · exact Or.inl h
    · right; rw [h]; rfl

end Ggnss
