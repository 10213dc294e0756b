import Verif.Model.Num
import Verif.Spec.Numeral
import Mathlib.Tactic.NormNum
import Mathlib.Tactic.Ring
import Mathlib.Tactic.FieldSimp
import Mathlib.Tactic.Linarith
import Mathlib.Tactic.Positivity
/-! Lemmas relating the model of `strtod` to the grammar of numerals. -/
namespace Ggnss

theorem takeWhile_digits (ds rest : List Char) (h : allDigits ds)
    (hr : ∀ c, rest.head? = some c → c.isDigit = false) :
    (ds ++ rest).takeWhile Char.isDigit = ds ∧ (ds ++ rest).dropWhile Char.isDigit = rest := by
  induction ds with
  | nil =>
    cases rest with
    | nil => simp
    | cons c r => have := hr c rfl; simp [this]
  | cons d ds ih =>
    have hd : d.isDigit = true := h d (by simp)
    obtain ⟨h1, h2⟩ := ih (fun c hc => h c (by simp [hc]))
    simp [hd, h1, h2]

theorem dropWhile_blanks (k : Nat) (l : List Char) (h : ∀ c, l.head? = some c → isSpace c = false) :
    (List.replicate k ' ' ++ l).dropWhile isSpace = l := by
  induction k with
  | zero =>
    cases l with
    | nil => rfl
    | cons c l => have := h c rfl; simp [this]
  | succ k ih =>
    have hsp : isSpace ' ' = true := by decide
    rw [List.replicate_succ, List.cons_append, List.dropWhile_cons, hsp]; exact ih

theorem isDigit_not_space (c : Char) (h : c.isDigit = true) : isSpace c = false := by
  unfold isSpace
  by_contra hc
  simp only [Bool.not_eq_false, Bool.or_eq_true, decide_eq_true_eq] at hc
  rcases hc with ((((h1 | h1) | h1) | h1) | h1) | h1 <;> subst h1 <;> revert h <;> decide

theorem takeSign_other (l : List Char) (h : ∀ c, l.head? = some c → c ≠ '-' ∧ c ≠ '+') :
    takeSign l = (false, l) := by
  unfold takeSign
  split
  · exact absurd rfl (h '-' rfl).1
  · exact absurd rfl (h '+' rfl).2
  · rfl

theorem takeSign_text (s : Option Bool) (l : List Char)
    (h : ∀ c, l.head? = some c → c ≠ '-' ∧ c ≠ '+') :
    takeSign (signText s ++ l) = (s == some true, l) := by
  match s with
  | none => simpa [signText] using takeSign_other l h
  | some true => rfl
  | some false => rfl

theorem isDigit_not_sign (c : Char) (h : c.isDigit = true) : c ≠ '-' ∧ c ≠ '+' := by
  constructor <;> (rintro rfl; revert h; decide)

theorem head_digits_append {ds rest : List Char} (hne : ds ≠ []) {c : Char}
    (h : (ds ++ rest).head? = some c) : c ∈ ds := by
  cases ds with
  | nil => exact absurd rfl hne
  | cons d ds => simp at h; simp [h]

theorem digVal_acc (l : List Char) (h : allDigits l) (a : Nat) :
    l.foldl (fun (a : Rat) c => 10 * a + ((c.toNat : Rat) - 48)) (a : Rat) =
      (Nat.ofDigitChars 10 l a : Rat) := by
  induction l generalizing a with
  | nil => simp
  | cons c l ih =>
    have hc := h c (by simp)
    have h48 : 48 ≤ c.toNat := by
      simp only [Char.isDigit, Bool.and_eq_true, decide_eq_true_eq, ge_iff_le] at hc
      exact UInt32.le_iff_toNat_le.1 hc.1
    rw [List.foldl_cons, Nat.ofDigitChars_cons, ← ih (fun d hd => h d (by simp [hd]))]
    congr 1
    push_cast [Nat.cast_sub h48]
    rfl

theorem digVal_eq (l : List Char) (h : allDigits l) :
    Numeral.digVal l = (Nat.ofDigitChars 10 l 0 : Rat) := by
  have := digVal_acc l h 0
  simpa [Numeral.digVal] using this

theorem scale10_eq (m : Rat) (e : Int) : scale10 m e = m * (10 : Rat) ^ e := by
  unfold scale10
  split
  · rename_i h
    obtain ⟨n, rfl⟩ := Int.eq_ofNat_of_zero_le h
    push_cast; simp
  · rename_i h
    obtain ⟨n, rfl⟩ := Int.eq_negSucc_of_lt_zero (by omega : e < 0)
    simp [div_eq_mul_inv]

theorem takeExp_text (n : Numeral) (hn : n.Shape) (rest : List Char) (hr : stopsNumber rest) :
    takeExp (n.expText ++ rest) = (n.expVal, rest) := by
  unfold Numeral.expText Numeral.expVal
  match he : n.exp with
  | none =>
    simp only [List.nil_append]
    cases rest with
    | nil => rfl
    | cons c r =>
      obtain ⟨_, _, h3, h4, _, _⟩ := hr c rfl
      simp [takeExp, h3, h4]
  | some (s, ds) =>
    obtain ⟨h1, h2⟩ := hn.exp s ds he
    have hsign := takeSign_text s (ds ++ rest) (fun c hc =>
      isDigit_not_sign c (h1 c (head_digits_append h2 hc)))
    obtain ⟨hw1, hw2⟩ := takeWhile_digits ds rest h1 (fun c hc => (hr c hc).1)
    simp only [List.cons_append, takeExp, or_true, if_true, List.append_assoc, hsign, hw1, hw2, h2, if_false]
    match s with
    | none => rfl
    | some true => rfl
    | some false => rfl

theorem fracText_head (n : Numeral) (rest : List Char) (hr : stopsNumber rest) (c : Char)
    (h : (n.fracText ++ (n.expText ++ rest)).head? = some c) : c.isDigit = false := by
  unfold Numeral.fracText Numeral.expText at h
  match hf : n.frac with
  | some ds => rw [hf] at h; simp at h; subst h; decide
  | none =>
    rw [hf] at h
    match he : n.exp with
    | some (s, ds) => rw [he] at h; simp at h; subst h; decide
    | none => rw [he] at h; exact (hr c h).1

theorem takeFrac_text (n : Numeral) (hn : n.Shape) (rest : List Char) (hr : stopsNumber rest) :
    takeFrac (n.fracText ++ (n.expText ++ rest)) = (n.fracDigits, n.expText ++ rest) := by
  have hexp : ∀ c, (n.expText ++ rest).head? = some c → c.isDigit = false ∧ c ≠ '.' := by
    intro c h
    unfold Numeral.expText at h
    match he : n.exp with
    | some (s, ds) => rw [he] at h; simp at h; subst h; decide
    | none => rw [he] at h; exact ⟨(hr c h).1, (hr c h).2.1⟩
  unfold Numeral.fracText Numeral.fracDigits
  have hfr := hn.frac
  unfold Numeral.fracDigits at hfr
  match hf : n.frac with
  | none =>
    simp only [List.nil_append, Option.getD_none]
    generalize n.expText ++ rest = l at *
    unfold takeFrac
    split
    · exact absurd rfl (hexp '.' rfl).2
    · rfl
  | some ds =>
    rw [hf] at hfr
    obtain ⟨h1, h2⟩ := takeWhile_digits ds (n.expText ++ rest) hfr (fun c hc => (hexp c hc).1)
    simp [takeFrac, h1, h2]

theorem dblErange_neg (v : Rat) : dblErange (-v) = dblErange v := by
  unfold dblErange
  apply decide_eq_decide.2
  generalize (DBL_LIMIT : Rat) = B
  generalize (DBL_SMALL : Rat) = S
  constructor
  · rintro ⟨h, h1 | h1 | h1⟩
    · exact ⟨by simpa using h, Or.inl ⟨by linarith [h1.2], by linarith [h1.1]⟩⟩
    · exact ⟨by simpa using h, Or.inr (Or.inr (by linarith))⟩
    · exact ⟨by simpa using h, Or.inr (Or.inl (by linarith))⟩
  · rintro ⟨h, h1 | h1 | h1⟩
    · exact ⟨by simpa using h, Or.inl ⟨by linarith [h1.2], by linarith [h1.1]⟩⟩
    · exact ⟨by simpa using h, Or.inr (Or.inr (by linarith))⟩
    · exact ⟨by simpa using h, Or.inr (Or.inl (by linarith))⟩

theorem dblErange_fits {v : Rat} (h : FitsDouble v) : dblErange v = false := by
  unfold dblErange
  apply decide_eq_false
  rintro ⟨h0, h1⟩
  obtain ⟨h2, h3⟩ := h.resolve_left h0
  have e1 : (DBL_SMALL : Rat) = 2 ^ 1022 := by exact Nat.cast_pow 2 1022
  have e2 : (DBL_LIMIT : Rat) = 2 ^ 1024 - 2 ^ 970 := by
    unfold DBL_LIMIT
    rw [Nat.cast_sub (Nat.pow_le_pow_right (by norm_num) (by norm_num)), Nat.cast_pow, Nat.cast_pow]; rfl
  rw [e1, e2] at h1
  generalize ((2 : Rat) ^ 1024 - 2 ^ 970) = B at *
  have hS : (0 : Rat) < 2 ^ 1022 := by positivity
  generalize ((2 : Rat) ^ 1022) = S at *
  rw [div_le_iff₀ hS] at h2
  rcases h1 with h1 | h1 | h1
  · have : |v * S| < 1 := abs_lt.2 h1
    rw [abs_mul, abs_of_pos hS] at this
    linarith
  · linarith [le_abs_self v]
  · linarith [neg_le_abs v]

theorem dblErange_iff (v : Rat) : dblErange v = true ↔ ¬ FitsDouble v := by
  constructor
  · intro h hf
    rw [dblErange_fits hf] at h
    exact absurd h (by decide)
  · intro hf
    unfold dblErange
    apply decide_eq_true
    unfold FitsDouble at hf
    push Not at hf
    refine ⟨hf.1, ?_⟩
    have e1 : (DBL_SMALL : Rat) = 2 ^ 1022 := by exact Nat.cast_pow 2 1022
    have e2 : (DBL_LIMIT : Rat) = 2 ^ 1024 - 2 ^ 970 := by
      unfold DBL_LIMIT
      rw [Nat.cast_sub (Nat.pow_le_pow_right (by norm_num) (by norm_num)), Nat.cast_pow, Nat.cast_pow]; rfl
    have h2 := hf.2
    rw [e1, e2]
    generalize ((2 : Rat) ^ 1024 - 2 ^ 970) = B at *
    have hS : (0 : Rat) < 2 ^ 1022 := by positivity
    generalize ((2 : Rat) ^ 1022) = S at *
    by_cases h1 : 1 / S ≤ |v|
    · right
      have := h2 h1
      rcases abs_cases v with ⟨h3, _⟩ | ⟨h3, _⟩
      · left; linarith
      · right; linarith
    · left
      rw [div_le_iff₀ hS, not_le] at h1
      apply abs_lt.1
      rw [abs_mul, abs_of_pos hS]
      exact h1

theorem fltErange_fits {v : Rat} (h : FitsFloat v) : fltErange v = false := by
  unfold fltErange
  apply decide_eq_false
  rintro ⟨h0, h1⟩
  obtain ⟨h2, h3⟩ := h.resolve_left h0
  have e1 : (FLT_SMALL : Rat) = 2 ^ 126 := by unfold FLT_SMALL; rw [Nat.cast_pow]; rfl
  have e2 : (FLT_LIMIT : Rat) = 2 ^ 128 - 2 ^ 103 := by
    unfold FLT_LIMIT
    rw [Nat.cast_sub (Nat.pow_le_pow_right (by norm_num) (by norm_num)), Nat.cast_pow, Nat.cast_pow]; rfl
  rw [e1, e2] at h1
  generalize ((2 : Rat) ^ 128 - 2 ^ 103) = B at *
  have hS : (0 : Rat) < 2 ^ 126 := by positivity
  generalize ((2 : Rat) ^ 126) = S at *
  rw [div_le_iff₀ hS] at h2
  rcases h1 with h1 | h1 | h1
  · have : |v * S| < 1 := abs_lt.2 h1
    rw [abs_mul, abs_of_pos hS] at this
    linarith
  · linarith [le_abs_self v]
  · linarith [neg_le_abs v]

/-- A text that does not begin with one of the letters of `inf` and `nan` is not a word. -/
theorem strtodWord_none {l : List Char} (h : ∀ c, l.head? = some c → c.toLower ≠ 'i' ∧ c.toLower ≠ 'n') : strtodWord l = none := by
  have key : ∀ x w, (x = 'i' ∨ x = 'n') → dropWord (x :: w) l = none := by
    intro x w hx
    unfold dropWord
    rw [if_neg]
    intro he
    cases l with
    | nil => simp at he
    | cons c r =>
      simp only [List.length_cons, List.take_succ_cons, List.map_cons, List.cons.injEq] at he
      obtain ⟨h1, h2⟩ := h c rfl
      rcases hx with rfl | rfl
      · exact h1 he.1
      · exact h2 he.1
  unfold strtodWord
  rw [key _ _ (Or.inl rfl), key _ _ (Or.inl rfl), key _ _ (Or.inr rfl)]

theorem strtodHex_none {l : List Char} (h : ∀ c r, l = '0' :: c :: r → c ≠ 'x' ∧ c ≠ 'X') : strtodHex l = none := by
  unfold strtodHex
  split
  · rename_i c r
    obtain ⟨h1, h2⟩ := h c r rfl
    rw [if_neg (by simp [h1, h2])]
  · rfl

theorem toLower_eq {c : Char} (a : Char) {b : Char} (hb : b.toNat = a.toNat + 32) (ha : a.toNat ≤ 90) (h : c.toLower = b) : c = b ∨ c = a := by
  unfold Char.toLower at h
  split at h
  · rename_i hr
    right
    have := congrArg Char.toNat h
    have h90 : c.toNat ≤ 90 := by simpa using UInt32.le_iff_toNat_le.1 hr.2
    have : c.toNat + 32 = b.toNat := by
      rw [← this]
      simp only [Char.toNat, UInt32.toNat_add]
      simp only [Char.toNat] at h90
      have : ('a'.val - 'A'.val).toNat = 32 := rfl
      omega
    apply Char.ext
    apply UInt32.toNat_inj.1
    simp only [Char.toNat] at *
    omega
  · exact Or.inl h

theorem isDigit_toLower {c : Char} (h : c.isDigit = true) : c.toLower = c := by
  unfold Char.toLower
  simp only [Char.isDigit, Bool.and_eq_true, decide_eq_true_eq, ge_iff_le] at h
  rw [dif_neg]
  rintro ⟨h1, -⟩
  have := UInt32.le_iff_toNat_le.1 h.2
  have h3 := UInt32.le_iff_toNat_le.1 h1
  simp at this h3
  omega

/-- The parser of the C library reads a well formed numeral to its exact value, stopping right
after it, whatever follows (as long as what follows cannot continue the number). -/
theorem strtod_shape (n : Numeral) (hn : n.Shape) (rest : List Char) (hr : stopsNumber rest) :
    strtod (n.text ++ rest) = some (n.value, rest, dblErange n.value) := by
  have hbody : ∀ c, (n.ip ++ (n.fracText ++ (n.expText ++ rest))).head? = some c →
      c.isDigit = true ∨ c = '.' := by
    intro c hc
    by_cases hi : n.ip = []
    · right
      have hfd := hn.nonempty.resolve_left (not_not.2 hi)
      unfold Numeral.fracText at hc
      unfold Numeral.fracDigits at hfd
      match hf : n.frac with
      | none => rw [hf] at hfd; exact absurd rfl hfd
      | some ds => rw [hi, hf] at hc; simp at hc; exact hc.symm
    · left; exact hn.ip c (head_digits_append hi hc)
  have hsign := takeSign_text n.sign (n.ip ++ (n.fracText ++ (n.expText ++ rest))) (fun c hc => by
    rcases hbody c hc with h | h
    · exact isDigit_not_sign c h
    · subst h; decide)
  have hsp : (n.text ++ rest).dropWhile isSpace
      = signText n.sign ++ (n.ip ++ (n.fracText ++ (n.expText ++ rest))) := by
    unfold Numeral.text
    simp only [List.append_assoc]
    apply dropWhile_blanks
    intro c hc
    match hs : n.sign with
    | none =>
      rw [hs] at hc
      rcases hbody c hc with h | h
      · exact isDigit_not_space c h
      · subst h; decide
    | some true => rw [hs] at hc; simp [signText] at hc; subst hc; decide
    | some false => rw [hs] at hc; simp [signText] at hc; subst hc; decide
  obtain ⟨hw1, hw2⟩ := takeWhile_digits n.ip (n.fracText ++ (n.expText ++ rest)) hn.ip
    (fracText_head n rest hr)
  have hword : strtodWord (n.ip ++ (n.fracText ++ (n.expText ++ rest))) = none := by
    refine strtodWord_none (fun c hc => ?_)
    rcases hbody c hc with h | h
    · rw [isDigit_toLower h]
      constructor <;> (rintro rfl; revert h; decide)
    · subst h; decide
  have hhex : strtodHex (n.ip ++ (n.fracText ++ (n.expText ++ rest))) = none := by
    refine strtodHex_none (fun c r he => ?_)
    have hx : ∀ c : Char, c.isDigit = true ∨ c = '.' ∨ c = 'E' → c ≠ 'x' ∧ c ≠ 'X' := by
      rintro c (h | rfl | rfl)
      · constructor <;> (rintro rfl; revert h; decide)
      · decide
      · decide
    rcases hi : n.ip with _ | ⟨d, _ | ⟨d', ds⟩⟩
    · have hfd := hn.nonempty.resolve_left (not_not.2 hi)
      unfold Numeral.fracDigits at hfd
      rcases hf : n.frac with _ | fs
      · rw [hf] at hfd; exact absurd rfl hfd
      · rw [hi] at he
        simp [Numeral.fracText, hf] at he
    · rw [hi] at he
      simp only [List.cons_append, List.nil_append, List.cons.injEq] at he
      rcases hf : n.frac with _ | fs
      · rcases hx' : n.exp with _ | ⟨s, es⟩
        · simp [Numeral.fracText, Numeral.expText, hf, hx'] at he
          exact (hr c (by rw [he.2]; rfl)).2.2.2.2
        · simp [Numeral.fracText, Numeral.expText, hf, hx'] at he
          exact hx c (Or.inr (Or.inr he.2.1.symm))
      · simp [Numeral.fracText, hf] at he
        exact hx c (Or.inr (Or.inl he.2.1.symm))
    · have h2 := hn.ip
      rw [hi] at he h2
      simp only [List.cons_append, List.cons.injEq] at he
      exact hx c (Or.inl (by rw [← he.2.1]; exact h2 d' (by simp)))
  unfold strtod
  simp only [hsp, hsign, hword, hhex]
  unfold strtodDec
  simp only [hw1, hw2, takeFrac_text n hn rest hr, takeExp_text n hn rest hr]
  have hne : ¬ (n.ip = [] ∧ n.fracDigits = []) := by
    rintro ⟨h1, h2⟩; rcases hn.nonempty with h | h <;> contradiction
  rw [if_neg hne, scale10_eq]
  simp only
  have hval : (digitsVal (n.ip ++ n.fracDigits) : Rat) * (10 : Rat) ^ (n.expVal - n.fracDigits.length)
      = (Numeral.digVal n.ip + Numeral.digVal n.fracDigits / 10 ^ n.fracDigits.length) * (10 : Rat) ^ n.expVal := by
    rw [digVal_eq _ hn.ip, digVal_eq _ hn.frac, digitsVal, Nat.ofDigitChars_append,
      Nat.ofDigitChars_eq_ofDigitChars_zero]
    rw [zpow_sub₀ (by norm_num), zpow_natCast]
    push_cast
    field_simp
  unfold Numeral.value
  rw [mul_assoc, ← hval]
  generalize (digitsVal (n.ip ++ n.fracDigits) : Rat) * (10 : Rat) ^ (n.expVal - n.fracDigits.length) = v
  match n.sign with
  | none => simp [signVal]
  | some true => simp [signVal, dblErange_neg]
  | some false => simp [signVal]

/-- A well formed numeral is read exactly, without range error. -/
theorem strtod_numeral (n : Numeral) (hn : n.WF) (rest : List Char) (hr : stopsNumber rest) :
    strtod (n.text ++ rest) = some (n.value, rest, false) := by
  rw [strtod_shape n hn.toShape rest hr, dblErange_fits hn.fits]

theorem ofDigits_lt {l : List Char} (h : allDigits l) : Nat.ofDigitChars 10 l 0 < 10 ^ l.length := by
  have key : ∀ (l : List Char) (a : Nat), allDigits l → Nat.ofDigitChars 10 l a < (a + 1) * 10 ^ l.length := by
    intro l
    induction l with
    | nil => intro a _; simp
    | cons c l ih =>
      intro a hl
      have hc := hl c (by simp)
      have h9 : c.toNat - '0'.toNat ≤ 9 := by
        simp only [Char.isDigit, Bool.and_eq_true, decide_eq_true_eq, ge_iff_le] at hc
        have := UInt32.le_iff_toNat_le.1 hc.2
        have h3 : c.toNat ≤ 57 := this
        have : '0'.toNat = 48 := rfl
        omega
      rw [Nat.ofDigitChars_cons]
      have := ih (10 * a + (c.toNat - '0'.toNat)) (fun d hd => hl d (by simp [hd]))
      have h2 : 10 * a + (c.toNat - '0'.toNat) + 1 ≤ (a + 1) * 10 := by omega
      calc _ < _ := this
        _ ≤ ((a + 1) * 10) * 10 ^ l.length := Nat.mul_le_mul_right _ h2
        _ = _ := by rw [List.length_cons, pow_succ]; ring
  simpa using key l 0 h

set_option exponentiation.threshold 2000 in
/-- Numerals of moderate size fit: at most 100 digits before and after the point, an exponent of at most
two digits. -/
theorem fits_of_shape {n : Numeral} (hn : n.Shape) (h1 : n.ip.length ≤ 100) (h2 : n.fracDigits.length ≤ 100)
    (h3 : ∀ s ds, n.exp = some (s, ds) → ds.length ≤ 2) : FitsDouble n.value := by
  by_cases h0 : n.value = 0
  · exact Or.inl h0
  right
  have he : -99 ≤ n.expVal ∧ n.expVal ≤ 99 := by
    unfold Numeral.expVal
    have hd : ∀ s ds, n.exp = some (s, ds) → Nat.ofDigitChars 10 ds 0 ≤ 99 := by
      intro s ds h
      have a := ofDigits_lt (hn.exp s ds h).1
      have b : 10 ^ ds.length ≤ 10 ^ 2 := Nat.pow_le_pow_right (by norm_num) (h3 s ds h)
      omega
    split
    · omega
    · rename_i ds h
      have := hd _ _ h
      omega
    · rename_i s ds _ h
      have := hd _ _ h
      omega
  unfold Numeral.value at *
  rw [digVal_eq _ hn.ip, digVal_eq _ hn.frac] at *
  have hA := ofDigits_lt hn.ip
  have hB := ofDigits_lt hn.frac
  generalize Nat.ofDigitChars 10 n.ip 0 = A at *
  generalize Nat.ofDigitChars 10 n.fracDigits 0 = B at *
  generalize n.fracDigits.length = f at *
  generalize n.expVal = e at *
  have hs : |signVal n.sign| = 1 := by
    rcases n.sign with _ | _ | _ <;> simp [signVal]
  have hp : (0 : Rat) < 10 ^ e := zpow_pos (by norm_num) e
  have hf : (0 : Rat) < 10 ^ f := by positivity
  have hm0 : (0 : Rat) ≤ (A : Rat) + (B : Rat) / 10 ^ f := by positivity
  rw [abs_mul, abs_mul, hs, one_mul, abs_of_pos hp, abs_of_nonneg hm0]
  have hA' : (A : Rat) + 1 ≤ 10 ^ 100 := by
    have : A + 1 ≤ 10 ^ 100 := le_trans hA (Nat.pow_le_pow_right (by norm_num) h1)
    exact_mod_cast this
  have hB' : (B : Rat) / 10 ^ f < 1 := by
    rw [div_lt_one hf]; exact_mod_cast hB
  have hlo : (1 : Rat) / 10 ^ f ≤ (A : Rat) + (B : Rat) / 10 ^ f := by
    have hN : 1 ≤ A * 10 ^ f + B := by
      by_contra hc
      have hz : A * 10 ^ f + B = 0 := by omega
      have hB0 : B = 0 := by omega
      have hA0 : A = 0 := by
        have : A * 10 ^ f = 0 := by omega
        rcases Nat.mul_eq_zero.1 this with h | h
        · exact h
        · exact absurd h (by simp)
      apply h0; simp [hA0, hB0]
    have : (1 : Rat) ≤ A * 10 ^ f + B := by exact_mod_cast hN
    rw [div_le_iff₀ hf, add_mul, div_mul_cancel₀ _ hf.ne']
    exact this
  have hf100 : (1 : Rat) / 10 ^ 100 ≤ 1 / 10 ^ f := by
    apply one_div_le_one_div_of_le hf
    exact pow_le_pow_right₀ (by norm_num) h2
  have e1 : (1 : Rat) / 10 ^ 99 ≤ 10 ^ e := by
    have : (10 : Rat) ^ (-99 : Int) ≤ 10 ^ e := zpow_le_zpow_right₀ (by norm_num) he.1
    refine le_trans (le_of_eq ?_) this
    rw [zpow_neg, one_div]; norm_cast
  have e2 : (10 : Rat) ^ e ≤ 10 ^ 99 := by
    have : (10 : Rat) ^ e ≤ 10 ^ (99 : Int) := zpow_le_zpow_right₀ (by norm_num) he.2
    exact_mod_cast this
  constructor
  · calc (1 : Rat) / 2 ^ 1022 ≤ (1 / 10 ^ 100) * (1 / 10 ^ 99) := by norm_num
      _ ≤ _ := mul_le_mul (le_trans hf100 hlo) e1 (by positivity) hm0
  · calc _ ≤ (10 : Rat) ^ 100 * 10 ^ 99 := mul_le_mul (by linarith) e2 hp.le (by positivity)
      _ < 2 ^ 1024 - 2 ^ 970 := by norm_num

theorem numeral_wf_of {n : Numeral} (h1 : allDigits n.ip) (h2 : allDigits n.fracDigits) (h3 : n.ip ≠ [] ∨ n.fracDigits ≠ [])
    (h4 : ∀ s ds, n.exp = some (s, ds) → allDigits ds ∧ ds ≠ []) (h5 : n.ip.length ≤ 100) (h6 : n.fracDigits.length ≤ 100)
    (h7 : ∀ s ds, n.exp = some (s, ds) → ds.length ≤ 2) : n.WF :=
  ⟨⟨h1, h2, h3, h4⟩, fits_of_shape ⟨h1, h2, h3, h4⟩ h5 h6 h7⟩

end Ggnss
