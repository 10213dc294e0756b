import Verif.Model.Str
import Verif.Lemmas.Base
import Verif.Spec.Numeral
import Verif.Lemmas.Num
/-!
# C07, C08, C09, C15: string utilities

Arrays are written `s ++ NUL :: rest`: a C string `s`, its terminator and whatever follows.
-/
namespace Ggnss

/-! ## Specification -/

/-- The part of the string the trimming functions look at: all of it, or its first `stop` chars. -/
def considered (s : List Char) : Option Nat → List Char
  | none => s
  | some st => s.take st

/-- `t` is `s` without its trailing blanks. -/
def IsRightTrim (s t : List Char) : Prop :=
  ∃ k, s = t ++ List.replicate k ' ' ∧ t.getLast? ≠ some ' '

/-- `t` is `s` without its leading blanks, of which there were `k`. -/
def IsLeftTrim (s t : List Char) (k : Nat) : Prop :=
  s = List.replicate k ' ' ++ t ∧ t.head? ≠ some ' '

/-- `t` is the part of `s` before its first blank. -/
def IsFirstWord (s t : List Char) : Prop :=
  ' ' ∉ t ∧ (s = t ∨ ∃ u, s = t ++ ' ' :: u)

/-! ## C07 -/

theorem considered_eq_take (s : List Char) (stop : Option Nat) :
    considered s stop = s.take (effLen s.length stop) := by
  unfold considered effLen
  cases stop with
  | none => simp
  | some st =>
    simp only
    split
    · rfl
    · rw [List.take_of_length_le (by omega), List.take_of_length_le (by omega)]

theorem effLen_le (n : Nat) (stop : Option Nat) : effLen n stop ≤ n := by
  unfold effLen; cases stop with
  | none => simp
  | some st => simp only; split <;> omega

theorem rtrimLoop_spec (s rest : List Char) (n : Nat) (hn : n ≤ s.length) :
    ∃ e, rtrimLoop (s ++ rest) n = .ok e ∧ e ≤ n ∧ IsRightTrim (s.take n) (s.take e) := by
  induction n with
  | zero => exact ⟨0, rfl, by omega, 0, by simp, by simp⟩
  | succ n ih =>
    have hlt : n < s.length := by omega
    rw [rtrimLoop, getAt_append_left hlt]
    simp only [Res.bind_ok, Res.pure_eq]
    split
    · rename_i hc
      obtain ⟨e, h1, h2, k, h3, h4⟩ := ih (by omega)
      refine ⟨e, h1, by omega, k + 1, ?_, h4⟩
      rw [List.take_add_one, List.getElem?_eq_getElem hlt, hc, h3]
      simp [List.replicate_succ']
    · rename_i hc
      refine ⟨n + 1, rfl, by omega, 0, by simp, ?_⟩
      rw [List.take_add_one, List.getElem?_eq_getElem hlt, Option.toList_some, List.getLast?_concat]
      simpa using hc

/-- C07: the end-search right trim removes exactly the trailing blanks of the considered part and
reports the length of what is left, whatever follows the string in memory. -/
theorem C07_rtrim_end (s rest : List Char) (hs : IsCStr s) (stop : Option Nat) :
    ∃ t, rtrimEnd (s ++ NUL :: rest) stop = .ok (t, t.length) ∧ IsRightTrim (considered s stop) t := by
  unfold rtrimEnd
  rw [cstrOf_append hs]
  simp only [Res.bind_ok, Res.pure_eq]
  rw [considered_eq_take]
  have hle := effLen_le s.length stop
  split
  · rename_i h0
    refine ⟨[], rfl, 0, ?_, by simp⟩
    rw [h0]; simp
  · obtain ⟨e, h1, h2, h3⟩ := rtrimLoop_spec s (NUL :: rest) _ hle
    rw [h1]
    refine ⟨s.take e, ?_, h3⟩
    simp only [Res.bind_ok]
    rw [List.take_append_of_le_length (by omega), List.length_take_of_le (by omega)]

/-- The right trim is unique, so C07_rtrim_end determines the result. -/
theorem IsRightTrim.unique {s t u : List Char} (ht : IsRightTrim s t) (hu : IsRightTrim s u) :
    t = u := by
  obtain ⟨k, h1, h2⟩ := ht
  obtain ⟨l, h3, h4⟩ := hu
  have key : ∀ (t u : List Char) (k l : Nat), t ++ List.replicate k ' ' = u ++ List.replicate l ' ' →
      k ≤ l → t.getLast? ≠ some ' ' → t = u := by
    intro t u k l h hkl ht
    obtain ⟨m, rfl⟩ := Nat.exists_eq_add_of_le hkl
    rw [Nat.add_comm k m, ← List.replicate_append_replicate, ← List.append_assoc] at h
    have := List.append_cancel_right h
    cases m with
    | zero => simpa using this
    | succ m =>
      rw [this, List.replicate_succ', ← List.append_assoc] at ht
      simp at ht
  rcases Nat.le_total k l with h | h
  · exact key t u k l (h1 ▸ h3) h h2
  · exact (key u t l k (h3 ▸ h1) h h4).symm

theorem findIdx_firstWord (l : List Char) : IsFirstWord l (l.take (l.findIdx (· = ' '))) := by
  induction l with
  | nil => exact ⟨by simp, Or.inl rfl⟩
  | cons c l ih =>
    rw [List.findIdx_cons]
    by_cases hc : c = ' '
    · subst hc; simp; exact ⟨by simp, Or.inr ⟨l, rfl⟩⟩
    · simp only [hc, decide_false, cond_false, List.take_succ_cons]
      obtain ⟨h1, h2⟩ := ih
      refine ⟨by simp [Ne.symm hc, h1], ?_⟩
      rcases h2 with h2 | ⟨u, h2⟩
      · exact Or.inl (by rw [← h2])
      · exact Or.inr ⟨u, by rw [List.cons_append, ← h2]⟩

/-- C07: the default right trim returns the text before the first blank of the considered part. -/
theorem C07_rtrim_default (s rest : List Char) (hs : IsCStr s) (stop : Option Nat) :
    ∃ t, rtrimStart (s ++ NUL :: rest) stop = .ok (t, t.length) ∧ IsFirstWord (considered s stop) t := by
  unfold rtrimStart
  rw [cstrOf_append hs]
  simp only [Res.bind_ok, Res.pure_eq]
  rw [considered_eq_take]
  have hle := effLen_le s.length stop
  split
  · rename_i h0; refine ⟨[], rfl, by simp, Or.inl (by rw [h0]; rfl)⟩
  · have hw := findIdx_firstWord (s.take (effLen s.length stop))
    have hidx : (s.take (effLen s.length stop)).findIdx (· = ' ') ≤ effLen s.length stop := by
      have := @List.findIdx_le_length _ (fun x => decide (x = ' ')) (s.take (effLen s.length stop))
      rwa [List.length_take_of_le hle] at this
    rw [List.take_append_of_le_length hle]
    refine ⟨_, ?_, hw⟩
    rw [List.take_append_of_le_length (by omega), List.take_take, List.length_take_of_le (by omega),
      Nat.min_eq_left hidx]

theorem findIdx_leftTrim (l : List Char) :
    IsLeftTrim l (l.drop (l.findIdx (fun c => !(c = ' ')))) (l.findIdx (fun c => !(c = ' '))) := by
  induction l with
  | nil => exact ⟨by simp, by simp⟩
  | cons c l ih =>
    rw [List.findIdx_cons]
    by_cases hc : c = ' '
    · subst hc
      simp only [decide_true, Bool.not_true, cond_false, List.drop_succ_cons]
      refine ⟨?_, ih.2⟩
      rw [List.replicate_succ, List.cons_append, ← ih.1]
    · simp only [hc, decide_false, Bool.not_false, cond_true, List.drop_zero]
      exact ⟨by simp, by simpa using hc⟩

/-- C07: the left trim removes exactly the leading blanks and reports their number. -/
theorem C07_ltrim (s rest : List Char) (hs : IsCStr s) (stop : Option Nat) :
    ∃ t k, ltrim (s ++ NUL :: rest) stop = .ok (t, k) ∧ IsLeftTrim (considered s stop) t k := by
  unfold ltrim
  rw [cstrOf_append hs]
  simp only [Res.bind_ok, Res.pure_eq]
  rw [considered_eq_take]
  have hle := effLen_le s.length stop
  split
  · rename_i h0; exact ⟨[], 0, rfl, by rw [h0]; simp, by simp⟩
  · have hw := findIdx_leftTrim (s.take (effLen s.length stop))
    rw [List.take_append_of_le_length hle]
    refine ⟨_, _, rfl, ?_⟩
    generalize hk : (s.take (effLen s.length stop)).findIdx (fun c => !(c = ' ')) = k at *
    have hidx : k ≤ effLen s.length stop := by
      have := @List.findIdx_le_length _ (fun c => !decide (c = ' ')) (s.take (effLen s.length stop))
      rw [List.length_take_of_le hle, hk] at this; exact this
    have : ((s ++ NUL :: rest).drop k).take (effLen s.length stop - k)
        = (s.take (effLen s.length stop)).drop k := by
      rw [List.drop_append_of_le_length (by omega), List.take_append_of_le_length (by simp; omega),
        List.drop_take]
    rw [this]; exact hw

theorem isEmptyLoop_spec (s rest : List Char) (i n : Nat) (h : i + n ≤ s.length) :
    isEmptyLoop (s ++ rest) i n = .ok (decide (∀ c ∈ (s.drop i).take n, c = ' ')) := by
  induction n generalizing i with
  | zero => simp [isEmptyLoop]
  | succ n ih =>
    have hlt : i < s.length := by omega
    rw [isEmptyLoop, getAt_append_left hlt, List.drop_eq_getElem_cons hlt]
    simp only [Res.bind_ok, Res.pure_eq, List.take_succ_cons, List.mem_cons, forall_eq_or_imp]
    by_cases hc : s[i] = ' '
    · simp only [hc, ne_eq, not_true_eq_false, if_false, true_and]
      exact ih (i + 1) (by omega)
    · simp [hc]

/-- C07: `string_is_empty` is true exactly when every considered char is a blank. -/
theorem C07_is_empty (s rest : List Char) (hs : IsCStr s) (stop : Option Nat) :
    stringIsEmpty (s ++ NUL :: rest) stop = .ok (decide (∀ c ∈ considered s stop, c = ' ')) := by
  unfold stringIsEmpty
  rw [cstrOf_append hs]
  simp only [Res.bind_ok]
  rw [isEmptyLoop_spec _ _ _ _ (by have := effLen_le s.length stop; omega), considered_eq_take]
  simp

example : rtrimEnd (c!"AB C  " ++ NUL :: c!"xy") none = .ok (c!"AB C", 4) := by decide
example : rtrimStart (c!"AB C  " ++ NUL :: c!"xy") none = .ok (c!"AB", 2) := by decide
example : ltrim (c!"  AB C" ++ NUL :: c!"xy") (some 5) = .ok (c!"AB ", 2) := by decide
example : stringIsEmpty (c!"   X" ++ [NUL]) (some 3) = .ok true := by decide

/-! ## C08 -/

/-- C08: every 'D'/'d' of the string becomes 'E', nothing else changes, neither the length nor the
bytes after the terminator. -/
theorem C08_for2cpp (s rest : List Char) (hs : IsCStr s) :
    ∃ s', for2cpp (s ++ NUL :: rest) = .ok (s' ++ NUL :: rest) ∧ s'.length = s.length ∧
      ∀ i (h : i < s.length) (h' : i < s'.length),
        ((s[i] = 'D' ∨ s[i] = 'd') → s'[i] = 'E') ∧ (¬(s[i] = 'D' ∨ s[i] = 'd') → s'[i] = s[i]) := by
  induction s with
  | nil => exact ⟨[], by simp [for2cpp], rfl, by simp⟩
  | cons c s ih =>
    obtain ⟨h1, h2⟩ := hs.cons
    obtain ⟨s', h3, h4, h5⟩ := ih h2
    refine ⟨(if c = 'D' ∨ c = 'd' then 'E' else c) :: s', ?_, by simp [h4], ?_⟩
    · simp only [List.cons_append, for2cpp, h1, if_false, h3, Res.bind_ok, Res.pure_eq]
    · intro i h h'
      cases i with
      | zero =>
        simp only [List.getElem_cons_zero]
        exact ⟨fun hd => by simp [hd], fun hd => by simp [hd]⟩
      | succ i =>
        simp only [List.getElem_cons_succ]
        exact h5 i (by simpa using h) (by simpa using h')

/-- C08: idempotent. -/
theorem C08_idempotent (buf buf' : List Char) (h : for2cpp buf = .ok buf') :
    for2cpp buf' = .ok buf' := by
  induction buf generalizing buf' with
  | nil => simp [for2cpp] at h
  | cons c cs ih =>
    unfold for2cpp at h
    split at h
    · rename_i hc; injection h with h; subst h; simp [for2cpp, hc]
    · rename_i hc
      rw [Res.bind_eq_ok] at h
      obtain ⟨r, h1, h2⟩ := h
      injection h2 with h2; subst h2
      have := ih r h1
      have hne : (if c = 'D' ∨ c = 'd' then 'E' else c) ≠ NUL := by split <;> [decide; exact hc]
      rw [for2cpp, if_neg hne, this]
      simp only [Res.bind_ok, Res.pure_eq]
      congr 2
      split <;> simp_all

example : for2cpp (c!"-0.1D-03 2d0" ++ NUL :: c!"D") = .ok (c!"-0.1E-03 2E0" ++ NUL :: c!"D") := by decide

/-! ## C09 -/

theorem char2double_shape (M : Nat) (fields : List Numeral) (rest : List Char)
    (hwf : ∀ n ∈ fields, n.Shape ∧ n.text.length = M)
    (hsep : ∀ n ∈ fields, 0 < n.blanks ∨ n.sign ≠ none)
    (hrest : stopsNumber rest) (hnul : NUL ∈ rest) (e0 : Bool) :
    char2double e0 M fields.length ((fields.map Numeral.text).flatten ++ rest)
      = .ok (!(e0 || fields.any (fun n => dblErange n.value)), fields.map Numeral.value) := by
  induction fields generalizing e0 with
  | nil => simp [char2double]
  | cons n fs ih =>
    have hn := hwf n (by simp)
    have hstop : stopsNumber ((fs.map Numeral.text).flatten ++ rest) := by
      cases fs with
      | nil => simpa using hrest
      | cons m fs' =>
        intro c hc
        have hs := hsep m (by simp)
        simp only [List.map_cons, List.flatten_cons, List.append_assoc] at hc
        unfold Numeral.text at hc
        rcases hs with hb | hb
        · obtain ⟨k, hk⟩ : ∃ k, m.blanks = k + 1 := ⟨m.blanks - 1, by omega⟩
          rw [hk, List.replicate_succ] at hc
          simp at hc; subst hc; decide
        · cases hk : m.blanks with
          | succ k => rw [hk, List.replicate_succ] at hc; simp at hc; subst hc; decide
          | zero =>
            rw [hk] at hc
            match hsg : m.sign with
            | none => exact absurd hsg hb
            | some true => rw [hsg] at hc; simp [signText] at hc; subst hc; decide
            | some false => rw [hsg] at hc; simp [signText] at hc; subst hc; decide
    have hm : NUL ∈ n.text ++ ((fs.map Numeral.text).flatten ++ rest) := by simp [hnul]
    simp only [List.length_cons, char2double, List.map_cons, List.flatten_cons, List.append_assoc, strtodA, hm,
      if_true, Res.bind_ok, strtod_shape n hn.1 _ hstop]
    rw [← hn.2, List.drop_left, hn.2, ih (fun m hm => hwf m (by simp [hm])) (fun m hm => hsep m (by simp [hm]))]
    rw [List.any_cons, Bool.or_assoc]
    rfl

/-- C09 (partial): N columns of width M, each filled by a well formed numeral and each starting with
a blank or a sign (as the D19.12 / F14.6 columns of the formats do), are decoded each to its own
value, whatever follows the last column.  Missing from the full statement: columns that are blank
or that are not separated, for which the code does not isolate the field (next theorem). -/
theorem C09_fields_partial (M : Nat) (fields : List Numeral) (rest : List Char)
    (hwf : ∀ n ∈ fields, n.WF ∧ n.text.length = M)
    (hsep : ∀ n ∈ fields, 0 < n.blanks ∨ n.sign ≠ none)
    (hrest : stopsNumber rest) (hnul : NUL ∈ rest) :
    char2double false M fields.length ((fields.map Numeral.text).flatten ++ rest)
      = .ok (true, fields.map Numeral.value) := by
  rw [char2double_shape M fields rest (fun n hn => ⟨(hwf n hn).1.toShape, (hwf n hn).2⟩) hsep hrest hnul]
  have : fields.any (fun n => dblErange n.value) = false := by
    rw [List.any_eq_false]
    intro n hn
    rw [dblErange_fits (hwf n hn).1.fits]; decide
  rw [this]; rfl

/-- C09: a line of such columns with a number that does not fit a `double` (too large, or too small but
not zero) in one of them is refused. -/
theorem C09_range_refused (e0 : Bool) (M : Nat) (fields : List Numeral) (rest : List Char)
    (hwf : ∀ n ∈ fields, n.Shape ∧ n.text.length = M)
    (hsep : ∀ n ∈ fields, 0 < n.blanks ∨ n.sign ≠ none)
    (hrest : stopsNumber rest) (hnul : NUL ∈ rest) {n : Numeral} (hn : n ∈ fields) (hbad : ¬ FitsDouble n.value) :
    ∃ vs, char2double e0 M fields.length ((fields.map Numeral.text).flatten ++ rest) = .ok (false, vs) := by
  rw [char2double_shape M fields rest hwf hsep hrest hnul]
  have : fields.any (fun n => dblErange n.value) = true :=
    List.any_eq_true.2 ⟨n, hn, (dblErange_iff _).2 hbad⟩
  rw [this, Bool.or_true]
  exact ⟨_, rfl⟩

/-- `1E999` after `k` blanks. -/
def hugeNum (k : Nat) : Numeral := ⟨k, none, ['1'], none, some (none, ['9', '9', '9'])⟩

set_option exponentiation.threshold 2000 in
/-- The hypotheses can be met: `1E999` does not fit. -/
theorem hugeNum_bad (k : Nat) : (hugeNum k).Shape ∧
    ¬ FitsDouble (hugeNum k).value := by
  refine ⟨⟨by show allDigits ['1']; decide, by show allDigits []; decide, Or.inl (by show ['1'] ≠ []; decide), ?_⟩, ?_⟩
  · intro s ds h
    simp only [hugeNum, Option.some.injEq, Prod.mk.injEq] at h
    rw [← h.2]; decide
  · have hv : (hugeNum k).value = 10 ^ 999 := by
      simp only [hugeNum, Numeral.value, signVal, Numeral.fracDigits, Numeral.expVal, Option.getD_none]
      rw [digVal_eq _ (by decide), digVal_eq _ (by decide), show Nat.ofDigitChars 10 ['1'] 0 = 1 by decide,
        show Nat.ofDigitChars 10 ['9', '9', '9'] 0 = 999 by decide]
      norm_num
    rw [hv]
    rintro (h | ⟨_, h⟩)
    · exact absurd h (by positivity)
    · rw [abs_of_pos (by positivity)] at h
      have h1 : (2 : Rat) ^ 1024 ≤ 10 ^ 999 := by
        calc (2 : Rat) ^ 1024 ≤ 2 ^ (3 * 999) := pow_le_pow_right₀ (by norm_num) (by norm_num)
          _ = (2 ^ 3) ^ 999 := pow_mul _ _ _
          _ ≤ 10 ^ 999 := pow_le_pow_left₀ (by norm_num) (by norm_num) _
      have h2 : (0 : Rat) < 2 ^ 970 := by positivity
      linarith

/-- The full statement is false: with a blank first column the number of the second column is
reported for both columns, with status `true`. -/
theorem C09_blank_field_takes_neighbour :
    char2double false 4 2 (c!"     7.5" ++ [NUL]) = .ok (true, [7.5, 7.5]) := by
  have h1 := strtod_numeral ⟨5, none, ['7'], some ['5'], none⟩
    (numeral_wf_of (by simp [allDigits]) (by simp [allDigits, Numeral.fracDigits]) (by simp) (by simp) (by simp)
      (by simp [Numeral.fracDigits]) (by simp)) [NUL]
    (by intro c hc; simp at hc; subst hc; decide)
  have h2 := strtod_numeral ⟨1, none, ['7'], some ['5'], none⟩
    (numeral_wf_of (by simp [allDigits]) (by simp [allDigits, Numeral.fracDigits]) (by simp) (by simp) (by simp)
      (by simp [Numeral.fracDigits]) (by simp)) [NUL]
    (by intro c hc; simp at hc; subst hc; decide)
  have e : ∀ b, Numeral.value ⟨b, none, ['7'], some ['5'], none⟩ = 7.5 := by
    intro b
    simp [Numeral.value, signVal, Numeral.digVal, Numeral.fracDigits, Numeral.expVal]; norm_num
  rw [e] at h1 h2
  have h1' : strtod (c!"     7.5" ++ [NUL]) = some (7.5, [NUL], false) := h1
  have h2' : strtod (c!" 7.5" ++ [NUL]) = some (7.5, [NUL], false) := h2
  have hm1 : NUL ∈ c!"     7.5" ++ [NUL] := by decide
  have hm2 : NUL ∈ c!" 7.5" ++ [NUL] := by decide
  have hd : (c!"     7.5" ++ [NUL]).drop 4 = c!" 7.5" ++ [NUL] := rfl
  simp only [char2double, strtodA, if_pos hm1, if_pos hm2, h1', h2', hd, Res.bind_ok, Res.pure_eq, Bool.not_false, Bool.or_false]

/-- A field with a blank first char and a full numeral, as in RINEX navigation data. -/
def exNumeral : Numeral := ⟨1, none, ['0'], some c!"123456789012", some (some true, c!"03")⟩
example : exNumeral.WF ∧ exNumeral.text = c!" 0.123456789012E-03" ∧ exNumeral.text.length = 19 ∧
    0 < exNumeral.blanks := by
  refine ⟨numeral_wf_of (by decide +kernel) (by decide +kernel) (by simp [exNumeral]) ?_ (by decide) (by decide) ?_, rfl, rfl, by decide⟩
  · intro s ds h; simp [exNumeral] at h; obtain ⟨_, rfl⟩ := h; exact ⟨by decide +kernel, by simp⟩
  · intro s ds h; simp [exNumeral] at h; obtain ⟨_, rfl⟩ := h; decide

/-! ## C15 -/

/-- C15: the window, for every two digit year. -/
theorem C15_window (y : Int) :
    (0 ≤ y ∧ y ≤ 79 → 2000 ≤ fourDigitYear y ∧ fourDigitYear y ≤ 2079) ∧
    (80 ≤ y ∧ y ≤ 99 → 1980 ≤ fourDigitYear y ∧ fourDigitYear y ≤ 1999) ∧
    fourDigitYear y % 100 = y % 100 := by
  unfold fourDigitYear; split <;> omega

/-- C15: injective on two digit years, and every year of the window is reached. -/
theorem C15_bijective (Y : Int) (h : 1980 ≤ Y ∧ Y ≤ 2079) :
    (∃ y, 0 ≤ y ∧ y ≤ 99 ∧ fourDigitYear y = Y) ∧
    (∀ y z, 0 ≤ y ∧ y ≤ 99 → 0 ≤ z ∧ z ≤ 99 → fourDigitYear y = Y → fourDigitYear z = Y → y = z) := by
  constructor
  · by_cases h2 : Y ≤ 1999
    · exact ⟨Y - 1900, by omega, by omega, by unfold fourDigitYear; split <;> omega⟩
    · exact ⟨Y - 2000, by omega, by omega, by unfold fourDigitYear; split <;> omega⟩
  · intro y z hy hz h1 h2
    unfold fourDigitYear at *; split at h1 <;> split at h2 <;> omega

example : fourDigitYear 79 = 2079 ∧ fourDigitYear 80 = 1980 := by decide

end Ggnss
