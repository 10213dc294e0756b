import Verif.Model.Num
import Verif.Model.Obs
import Verif.Model.Antenna
import Verif.Lemmas.Num
/-!
# The assumed C library, characterised

What `Model/Num` assumes of `strtol`, `strtod` and the conversions between integer types, said
without reference to the way it is computed there.
-/
namespace Ggnss

/-- `(int) v` for `long v`: the one `int` congruent to `v` modulo 2^32. -/
theorem toInt32_spec (v : Int) :
    (-2147483648 ≤ toInt32 v ∧ toInt32 v < 2147483648 ∧ ∃ k : Int, toInt32 v = v + k * 4294967296) ∧
    ∀ w : Int, -2147483648 ≤ w → w < 2147483648 → (∃ k : Int, w = v + k * 4294967296) → w = toInt32 v := by
  unfold toInt32
  refine ⟨⟨by omega, by omega, -((v + 2147483648) / 4294967296), by omega⟩, ?_⟩
  rintro w h1 h2 ⟨k, hk⟩
  omega

/-- A `char` promoted to `int`: bytes from 128 on are negative. -/
theorem scharVal_spec (c : Char) (h : c.toNat < 256) :
    -128 ≤ scharVal c ∧ scharVal c < 128 ∧ (scharVal c = c.toNat ∨ scharVal c = (c.toNat : Int) - 256) := by
  unfold scharVal
  split <;> omega

example : scharVal 'é' = -23 := by decide

/-- `strtol` on blanks, a sign, digits and something that is not a digit: the number, clamped to the
`long`s, with ERANGE exactly when it had to be clamped. -/
theorem strtol_spec {ws sg ds rest : List Char} (hw : ∀ c ∈ ws, isSpace c = true)
    (hs : sg = [] ∨ sg = ['+'] ∨ sg = ['-']) (hd : ∀ c ∈ ds, c.isDigit = true) (hne : ds ≠ [])
    (hr : ∀ c, rest.head? = some c → c.isDigit = false) (v : Int)
    (hv : v = if sg = ['-'] then -(Nat.ofDigitChars 10 ds 0 : Int) else (Nat.ofDigitChars 10 ds 0 : Int)) :
    strtol (ws ++ sg ++ ds ++ rest) =
      some (max LONG_MIN (min LONG_MAX v), rest, decide (v < LONG_MIN ∨ LONG_MAX < v)) := by
  obtain ⟨d, ds', rfl⟩ : ∃ d ds', ds = d :: ds' := by cases ds with | nil => exact absurd rfl hne | cons d t => exact ⟨d, t, rfl⟩
  have hdd : d.isDigit = true := hd d (by simp)
  have hns : isSpace d = false := isDigit_not_space d hdd
  have hh : ∀ c, (sg ++ (d :: ds') ++ rest).head? = some c → isSpace c = false := by
    rcases hs with rfl | rfl | rfl <;> intro c hc <;> simp at hc <;> subst hc
    · exact hns
    · decide
    · decide
  have h1 : (ws ++ sg ++ d :: ds' ++ rest).dropWhile isSpace = sg ++ (d :: ds') ++ rest := by
    rw [List.append_assoc, List.append_assoc, ← List.append_assoc sg]
    rw [List.dropWhile_append_of_pos hw]
    cases hx : (sg ++ (d :: ds') ++ rest) with
    | nil => simp at hx
    | cons a t =>
      rw [List.dropWhile_cons, hh a (by rw [hx]; rfl)]; rfl
  obtain ⟨ht, hdr⟩ := takeWhile_digits (d :: ds') rest hd hr
  unfold strtol
  have hsgn : takeSign (sg ++ (d :: ds') ++ rest) = (decide (sg = ['-']), d :: ds' ++ rest) := by
    rcases hs with rfl | rfl | rfl
    · have := takeSign_other ((d :: ds') ++ rest) (fun c hc => by simp at hc; subst hc; exact isDigit_not_sign d hdd)
      simpa using this
    · rfl
    · rfl
  simp only [h1, hsgn, ht, hdr]
  rw [if_neg hne]
  have hv' : v = if (decide (sg = ['-'])) = true then -(digitsVal (d :: ds') : Int) else (digitsVal (d :: ds') : Int) := by
    rw [hv]; simp [digitsVal]
  rw [← hv']
  unfold LONG_MAX LONG_MIN
  by_cases c1 : v > 9223372036854775807
  · rw [if_pos c1, show max (-9223372036854775808) (min 9223372036854775807 v) = (9223372036854775807 : Int) by omega,
      decide_eq_true (by omega)]
  · by_cases c2 : v < -9223372036854775808
    · rw [if_neg c1, if_pos c2, show max (-9223372036854775808) (min 9223372036854775807 v) = (-9223372036854775808 : Int) by omega,
        decide_eq_true (by omega)]
    · rw [if_neg c1, if_neg c2, show max (-9223372036854775808) (min 9223372036854775807 v) = v by omega,
        decide_eq_false (by omega)]

example : strtol (c!" " ++ c!"-" ++ c!"99999999999999999999" ++ c!"x") =
    some (max LONG_MIN (min LONG_MAX (-99999999999999999999)), c!"x", decide ((-99999999999999999999 : Int) < LONG_MIN ∨ LONG_MAX < -99999999999999999999)) :=
  strtol_spec (by decide) (by decide) (by decide) (by decide) (by decide) (-99999999999999999999) (by decide)

/-- `strtod` knows infinity and NaN: both are beyond every `double` and no range error. -/
theorem strtod_inf_nan {w : List Char} (hw : w.map Char.toLower = c!"nan" ∨ w.map Char.toLower = c!"inf") :
    ∃ v r, strtod w = some (v, r, false) ∧ ((DBL_LIMIT : Rat) < v ∨ v < -(DBL_LIMIT : Rat)) := by
  have hbig : (DBL_LIMIT : Rat) < HUGE := by
    have : DBL_LIMIT < (10 ^ 400 : Nat) := by decide +kernel
    unfold HUGE
    exact Rat.natCast_lt_natCast.2 this
  obtain ⟨a, b, c, rfl⟩ : ∃ a b c, w = [a, b, c] := by
    have hl : w.length = 3 := by
      rcases hw with h | h <;> simpa using congrArg List.length h
    match w, hl with
    | [a, b, c], _ => exact ⟨a, b, c, rfl⟩
  have hnsp : isSpace a = false ∧ a ≠ '-' ∧ a ≠ '+' := by
    refine ⟨?_, ?_, ?_⟩
    · cases h : isSpace a with
      | false => rfl
      | true =>
        exfalso
        simp [isSpace] at h
        rcases h with (((((h | h) | h) | h) | h) | h) <;> subst h <;> revert hw <;> simp [Char.toLower]
    · rintro rfl; revert hw; simp [Char.toLower]
    · rintro rfl; revert hw; simp [Char.toLower]
  have hd : ([a, b, c] : List Char).dropWhile isSpace = [a, b, c] := by rw [List.dropWhile_cons, hnsp.1]; rfl
  have hs : takeSign [a, b, c] = (false, [a, b, c]) := takeSign_other _ (fun x hx => by
    simp at hx; subst hx; exact ⟨hnsp.2.1, hnsp.2.2⟩)
  unfold strtod
  simp only [hd, hs]
  unfold strtodWord dropWord
  rcases hw with h | h
  · refine ⟨-HUGE, [], ?_, Or.inr (by simpa using hbig)⟩
    simp only [List.length_cons, List.length_nil, List.take, h]
    have : ¬ (0 : Rat) < -HUGE := by
      have : (0 : Rat) ≤ HUGE := by unfold HUGE; exact_mod_cast Nat.zero_le _
      simpa using this
    simp [dropNanArg]
  · refine ⟨HUGE, [], ?_, Or.inl hbig⟩
    simp only [List.length_cons, List.length_nil, List.take, h]
    simp

/-- A default constructed satellite antenna is the empty text: every byte is set, whatever was there. -/
theorem C14_default (g : List Char) (h : g.length = 21) : satAntInit g = .ok (List.replicate 21 NUL) := by
  unfold satAntInit memsetAt
  have : (List.replicate 21 NUL).length = 21 := by simp
  simp [memcpyAt, h]

theorem takeSign_le (l : List Char) : (takeSign l).2.length ≤ l.length := by
  unfold takeSign; split <;> simp

theorem dropWord_le {w l r : List Char} (h : dropWord w l = some r) : r.length ≤ l.length := by
  unfold dropWord at h
  split at h
  · cases h; simp
  · cases h

theorem dropNanArg_le (l : List Char) : (dropNanArg l).length ≤ l.length := by
  unfold dropNanArg
  split
  · rename_i r
    split
    · rename_i r' h
      have h1 : (r.dropWhile (fun c => c.isAlphanum || c = '_')).length ≤ r.length := (List.dropWhile_suffix _).length_le
      rw [h] at h1
      simp at h1 ⊢; omega
    · exact Nat.le_refl _
  · exact Nat.le_refl _

theorem takeFrac_le (l : List Char) : (takeFrac l).2.length ≤ l.length := by
  unfold takeFrac
  split
  · exact Nat.le_trans (List.dropWhile_suffix _).length_le (by simp)
  · exact Nat.le_refl _

theorem takeHexFrac_le (l : List Char) : (takeHexFrac l).2.length ≤ l.length := by
  unfold takeHexFrac
  split
  · exact Nat.le_trans (List.dropWhile_suffix _).length_le (by simp)
  · exact Nat.le_refl _

theorem takeExp_le (l : List Char) : (takeExp l).2.length ≤ l.length := by
  unfold takeExp
  split
  · exact Nat.le_refl _
  · rename_i c r
    split
    · simp only
      split
      · exact Nat.le_refl _
      · exact Nat.le_trans (List.dropWhile_suffix _).length_le (Nat.le_trans (takeSign_le r) (by simp))
    · exact Nat.le_refl _

theorem takeBinExp_le (l : List Char) : (takeBinExp l).2.length ≤ l.length := by
  unfold takeBinExp
  split
  · exact Nat.le_refl _
  · rename_i c r
    split
    · simp only
      split
      · exact Nat.le_refl _
      · exact Nat.le_trans (List.dropWhile_suffix _).length_le (Nat.le_trans (takeSign_le r) (by simp))
    · exact Nat.le_refl _

/-- The end pointer of `strtod` is not before the beginning of the text. -/
theorem strtod_le {l r : List Char} {v : Rat} {er : Bool} (h : strtod l = some (v, r, er)) : r.length ≤ l.length := by
  have h0 : (takeSign (l.dropWhile isSpace)).2.length ≤ l.length :=
    Nat.le_trans (takeSign_le _) (List.dropWhile_suffix _).length_le
  unfold strtod at h
  simp only at h
  generalize (takeSign (l.dropWhile isSpace)).2 = t at *
  split at h
  · rename_i w u hw
    simp only [Option.some.injEq, Prod.mk.injEq] at h
    have : u.length ≤ t.length := by
      unfold strtodWord at hw
      split at hw
      · rename_i h1; cases hw; exact dropWord_le h1
      · split at hw
        · rename_i h1; cases hw; exact dropWord_le h1
        · split at hw
          · rename_i h1; cases hw; exact Nat.le_trans (dropNanArg_le _) (dropWord_le h1)
          · cases hw
    rw [← h.2.1]; omega
  · split at h
    · rename_i w u hw
      simp only [Option.some.injEq, Prod.mk.injEq] at h
      have : u.length ≤ t.length := by
        unfold strtodHex at hw
        split at hw
        · rename_i c r
          split at hw
          · unfold strtodHexBody at hw
            simp only at hw
            split at hw
            · cases hw
            · simp only [Option.some.injEq, Prod.mk.injEq] at hw
              rw [← hw.2]
              refine Nat.le_trans (takeBinExp_le _) (Nat.le_trans (takeHexFrac_le _) (Nat.le_trans (List.dropWhile_suffix _).length_le ?_))
              simp; omega
          · cases hw
        · cases hw
      rw [← h.2.1]; omega
    · split at h
      · rename_i w u hw
        simp only [Option.some.injEq, Prod.mk.injEq] at h
        have : u.length ≤ t.length := by
          unfold strtodDec at hw
          simp only at hw
          split at hw
          · cases hw
          · simp only [Option.some.injEq, Prod.mk.injEq] at hw
            rw [← hw.2]
            exact Nat.le_trans (takeExp_le _) (Nat.le_trans (takeFrac_le _) (List.dropWhile_suffix _).length_le)
        rw [← h.2.1]; omega
      · cases h

end Ggnss
