import Verif.Model.ObsRead
import Verif.Spec.ObsExact
import Verif.Props.Bern
import Verif.Props.AntexSat
import Verif.Lemmas.Term
/-!
# C40: observation fields
-/
namespace Ggnss

theorem digVal_snoc (l : List Char) (c : Char) : Numeral.digVal (l ++ [c]) = 10 * Numeral.digVal l + ((c.toNat : Rat) - 48) := by
  simp [Numeral.digVal, List.foldl_append]

theorem flagNum_digit {c : Char} (h : c.isDigit = true) : (flagNum c : Rat) = (c.toNat : Rat) - 48 := by
  have hc : c ≠ ' ' := by rintro rfl; revert h; decide
  have h48 : 48 ≤ c.toNat := by
    simp only [Char.isDigit, Bool.and_eq_true, decide_eq_true_eq] at h
    have := UInt32.le_iff_toNat_le.1 h.1
    exact this
  unfold flagNum
  rw [if_neg hc]
  push_cast [h48]
  rfl

theorem flagDigit_eq {c : Char} (h : IsFlag c) : flagDigit c = (flagNum c : Int) := by
  rcases h with rfl | h
  · rfl
  · have hc : c ≠ ' ' := by rintro rfl; revert h; decide
    simp only [Char.isDigit, Bool.and_eq_true, decide_eq_true_eq] at h
    have h1 : 48 ≤ c.toNat := UInt32.le_iff_toNat_le.1 h.1
    have h2 : c.toNat ≤ 57 := UInt32.le_iff_toNat_le.1 h.2
    unfold flagDigit flagNum scharVal
    rw [if_neg hc, if_neg hc, if_pos (by omega)]
    omega

/-- The number the code sees: flag digits directly behind the decimals belong to it. -/
def ObsField.seen (f : ObsField) : Numeral :=
  { f.num with frac := some (f.num.fracDigits ++ if f.lli = ' ' then [] else f.lli :: (if f.ssi = ' ' then [] else [f.ssi])) }

def ObsField.unseen (f : ObsField) : List Char :=
  if f.lli = ' ' then [f.lli, f.ssi] else if f.ssi = ' ' then [f.ssi] else []

theorem ObsField.WF.frac_text {f : ObsField} (h : f.WF) : f.num.fracText = '.' :: f.num.fracDigits := by
  have := h.point
  unfold Numeral.fracText Numeral.fracDigits
  cases hf : f.num.frac with
  | none => simp [hf] at this
  | some d => simp

theorem ObsField.WF.seen_text {f : ObsField} (h : f.WF) : f.seen.text ++ f.unseen = f.text := by
  have h1 := h.frac_text
  have h2 : f.num.expText = [] := by simp [Numeral.expText, h.noexp]
  have h3 : f.seen.expText = [] := by simp [Numeral.expText, ObsField.seen, h.noexp]
  unfold ObsField.text Numeral.text
  rw [h1, h2, h3]
  unfold ObsField.unseen
  simp only [ObsField.seen, Numeral.fracText]
  by_cases hl : f.lli = ' '
  · simp [hl]
  · by_cases hs : f.ssi = ' ' <;> simp [hl, hs]

theorem digit_of_flag {c : Char} (h : IsFlag c) (hc : c ≠ ' ') : c.isDigit = true := h.resolve_left hc

theorem ObsField.WF.seen_shape {f : ObsField} (h : f.WF) : f.seen.Shape := by
  have hn := h.num
  refine ⟨hn.ip, ?_, ?_, ?_⟩
  · unfold ObsField.seen Numeral.fracDigits
    simp only [Option.getD_some]
    intro c hc
    rcases List.mem_append.1 hc with hc | hc
    · exact hn.frac c hc
    · by_cases hl : f.lli = ' '
      · simp [hl] at hc
      · by_cases hs : f.ssi = ' '
        · simp [hl, hs] at hc; rw [hc]; exact digit_of_flag h.lli hl
        · simp [hl, hs] at hc
          rcases hc with rfl | rfl
          · exact digit_of_flag h.lli hl
          · exact digit_of_flag h.ssi hs
  · rcases hn.nonempty with h1 | h1
    · exact Or.inl h1
    · right
      unfold ObsField.seen
      simp only [Numeral.fracDigits, Option.getD_some]
      intro h0
      exact h1 (List.append_eq_nil_iff.1 h0).1
  · intro s ds hx
    simp [ObsField.seen, h.noexp] at hx

theorem ObsField.WF.seen_wf {f : ObsField} (h : f.WF) : f.seen.WF := by
  have hw := h.width
  unfold Numeral.text at hw
  rw [h.frac_text] at hw
  simp only [List.length_append, List.length_replicate, List.length_cons] at hw
  refine ⟨h.seen_shape, fits_of_shape h.seen_shape ?_ ?_ (by intro s ds hx; simp [ObsField.seen, h.noexp] at hx)⟩
  · show f.num.ip.length ≤ 100
    omega
  · have : f.seen.fracDigits = f.num.fracDigits ++ if f.lli = ' ' then [] else f.lli :: (if f.ssi = ' ' then [] else [f.ssi]) := rfl
    rw [this, List.length_append]
    have : (if f.lli = ' ' then [] else f.lli :: (if f.ssi = ' ' then [] else [f.ssi])).length ≤ 2 := by
      split
      · simp
      · split <;> simp
    omega

theorem ObsField.WF.seen_value {f : ObsField} (h : f.WF) : f.seen.value = f.num.value + signVal f.num.sign * f.spill := by
  have e1 : f.seen.expVal = 0 := by simp [Numeral.expVal, ObsField.seen, h.noexp]
  have e2 : f.num.expVal = 0 := by simp [Numeral.expVal, h.noexp]
  unfold Numeral.value
  rw [e1, e2]
  have hsg : f.seen.sign = f.num.sign := rfl
  have hip : f.seen.ip = f.num.ip := rfl
  rw [hsg, hip]
  have hfr : f.seen.fracDigits = f.num.fracDigits ++ if f.lli = ' ' then [] else f.lli :: (if f.ssi = ' ' then [] else [f.ssi]) := rfl
  rw [hfr]
  unfold ObsField.spill
  generalize f.num.fracDigits = ds
  by_cases hl : f.lli = ' '
  · simp [hl]
  · have hl' := digit_of_flag h.lli hl
    by_cases hs : f.ssi = ' '
    · simp only [hl, hs, if_true, if_false, digVal_snoc, flagNum_digit hl', List.length_append, List.length_singleton]
      have : (10 : Rat) ^ ds.length ≠ 0 := by positivity
      field_simp
      ring
    · have hs' := digit_of_flag h.ssi hs
      simp only [hl, hs, if_false, flagNum_digit hl', flagNum_digit hs']
      rw [show ds ++ [f.lli, f.ssi] = (ds ++ [f.lli]) ++ [f.ssi] by simp, digVal_snoc, digVal_snoc]
      simp only [List.length_append, List.length_singleton]
      have : (10 : Rat) ^ ds.length ≠ 0 := by positivity
      field_simp
      ring

theorem ObsField.WF.unseen_stops {f : ObsField} (_h : f.WF) : stopsNumber (f.unseen ++ [NUL]) := by
  intro c hc
  unfold ObsField.unseen at hc
  by_cases hl : f.lli = ' '
  · rw [if_pos hl] at hc
    simp [hl] at hc
    subst hc; decide
  · rw [if_neg hl] at hc
    by_cases hs : f.ssi = ' '
    · rw [if_pos hs] at hc
      simp [hs] at hc
      subst hc; decide
    · rw [if_neg hs] at hc
      simp at hc
      subst hc; decide

theorem IsFlag.ne_nul {c : Char} (h : IsFlag c) : c ≠ NUL := by
  rintro rfl
  revert h; decide

theorem allDigits_nul {ds : List Char} (h : allDigits ds) : NUL ∉ ds := by
  intro hm
  have := h _ hm
  revert this; decide

theorem signText_nul (s : Option Bool) : NUL ∉ signText s := by
  rcases s with _ | _ | _ <;> decide

theorem ObsField.WF.cstr {f : ObsField} (h : f.WF) : NUL ∉ f.text := by
  have h1 := h.frac_text
  have h2 : f.num.expText = [] := by simp [Numeral.expText, h.noexp]
  unfold ObsField.text Numeral.text
  rw [h1, h2]
  have a := h.lli.ne_nul
  have b := h.ssi.ne_nul
  have c := allDigits_nul h.num.ip
  have d := allDigits_nul h.num.frac
  have e := signText_nul f.num.sign
  simp only [List.append_nil, List.mem_append, List.mem_cons, List.mem_replicate, List.not_mem_nil, or_false, not_or]
  refine ⟨⟨by rintro ⟨-, h⟩; revert h; decide, e, c, by decide, d⟩, Ne.symm a, Ne.symm b⟩

theorem ObsField.WF.length {f : ObsField} (h : f.WF) : f.text.length = 16 := by
  simp [ObsField.text, h.width]

theorem ObsField.WF.nonblank {f : ObsField} (h : f.WF) : ¬ ∀ c ∈ f.text.take 14, c = ' ' := by
  have hw := h.width
  have : f.text.take 14 = f.num.text := by
    unfold ObsField.text; rw [List.take_append_of_le_length (by omega), List.take_of_length_le (by omega)]
  rw [this]
  intro hb
  have h1 := h.frac_text
  have : '.' ∈ f.num.text := by unfold Numeral.text; rw [h1]; simp
  have := hb _ this
  revert this; decide

/-- What the code makes of a well-formed field. -/
theorem rawResolve_field {f : ObsField} (h : f.WF) (o : RawRnxObs) :
    rawResolve (f.text ++ [NUL]) o 0 = .ok (0, ⟨f.num.value + signVal f.num.sign * f.spill, flagNum f.lli, flagNum f.ssi⟩, 0) := by
  unfold rawResolve
  rw [C07_is_empty _ _ h.cstr, Res.bind_ok, if_neg ?_]
  swap
  · have := h.nonblank
    exact fun hd => this (of_decide_eq_true hd)
  have hs : strtodA (f.text ++ [NUL]) = .ok (some (f.seen.value, f.unseen ++ [NUL], false)) := by
    unfold strtodA
    rw [if_pos (by simp), ← h.seen_text, List.append_assoc, strtod_numeral _ h.seen_wf _ h.unseen_stops]
  rw [hs, Res.bind_ok]
  simp only
  rw [if_neg (by simp)]
  have hw := h.width
  rw [getAt_append_left (by rw [h.length]; decide), getAt_append_left (by rw [h.length]; decide)]
  have e1 : f.text[14]'(by rw [h.length]; decide) = f.lli := by
    simp only [ObsField.text]; rw [List.getElem_append_right (by omega)]; simp [hw]
  have e2 : f.text[15]'(by rw [h.length]; decide) = f.ssi := by
    simp only [ObsField.text]; rw [List.getElem_append_right (by omega)]; simp [hw]
  simp only [Res.bind_ok, Res.pure_eq, e1, e2, flagDigit_eq h.lli, flagDigit_eq h.ssi, h.seen_value]

theorem rawResolve_blank {x : List Char} (hc : NUL ∉ x) (h : ∀ c ∈ x.take 14, c = ' ') (o : RawRnxObs) (errno : Int) :
    rawResolve (x ++ [NUL]) o errno = .ok (0, { o with val := MISSING }, errno) := by
  unfold rawResolve
  rw [C07_is_empty _ _ hc, Res.bind_ok, if_pos]
  · rfl
  · exact decide_eq_true h

/-- **C40** (exact behaviour).  A well-formed field of 16 chars (copied to a terminated array) is
accepted, its two flag columns are decoded (blank is 0), and the value is the number in the 14 value
columns *plus* what the flag digits make of it when they are read as further decimals. -/
theorem C40_decoded (f : ObsField) (h : f.WF) (o : RawRnxObs) :
    rawResolve (f.text ++ [NUL]) o 0 =
      .ok (0, ⟨f.num.value + signVal f.num.sign * f.spill, flagNum f.lli, flagNum f.ssi⟩, 0) := rawResolve_field h o

/-- **C40**, partial: exactly the number in the value columns and the two flags, provided the LLI
column is blank (or the flags are zeros).  Missing: fields with an LLI digit, where the property
fails (`C40_flags_spill`), and blank values with flags (`C40_blank_value`). -/
theorem C40_field_partial (f : ObsField) (h : f.WF)
    (hl : f.lli = ' ' ∨ (f.lli = '0' ∧ (f.ssi = ' ' ∨ f.ssi = '0'))) (o : RawRnxObs) :
    rawResolve (f.text ++ [NUL]) o 0 = .ok (0, ⟨f.num.value, flagNum f.lli, flagNum f.ssi⟩, 0) := by
  have : f.spill = 0 := by
    unfold ObsField.spill
    rcases hl with h1 | ⟨h1, h2 | h2⟩
    · rw [if_pos h1]
    · rw [h1, h2, if_neg (by decide), if_pos rfl, show flagNum '0' = 0 from rfl]; simp
    · rw [h1, h2, if_neg (by decide), if_neg (by decide), show flagNum '0' = 0 from rfl]; simp
  rw [rawResolve_field h o, this]
  simp

theorem flagNum_le {c : Char} (h : IsFlag c) : flagNum c ≤ 9 := by
  rcases h with rfl | h
  · decide
  · have hc : c ≠ ' ' := by rintro rfl; revert h; decide
    simp only [Char.isDigit, Bool.and_eq_true, decide_eq_true_eq] at h
    have h2 : c.toNat ≤ 57 := UInt32.le_iff_toNat_le.1 h.2
    unfold flagNum; rw [if_neg hc]; omega

/-- **C40**: whatever the flags, the value is off by less than one unit of the last decimal shown
(0.001 for F14.3). -/
theorem C40_spill_bound (f : ObsField) (h : f.WF) : 0 ≤ f.spill ∧ f.spill < 1 / 10 ^ f.num.fracDigits.length := by
  have a : (flagNum f.lli : Rat) ≤ 9 := by exact_mod_cast flagNum_le h.lli
  have b : (flagNum f.ssi : Rat) ≤ 9 := by exact_mod_cast flagNum_le h.ssi
  have a0 : (0 : Rat) ≤ flagNum f.lli := by positivity
  have b0 : (0 : Rat) ≤ flagNum f.ssi := by positivity
  unfold ObsField.spill
  generalize f.num.fracDigits.length = k
  have hk : (0 : Rat) < 10 ^ k := by positivity
  split
  · exact ⟨le_refl _, by positivity⟩
  · split
    · refine ⟨by positivity, ?_⟩
      rw [add_zero, pow_succ, div_lt_div_iff₀ (by positivity) hk]
      nlinarith
    · refine ⟨by positivity, ?_⟩
      rw [pow_succ, pow_add, div_add_div _ _ (by positivity) (by positivity), div_lt_div_iff₀ (by positivity) hk]
      nlinarith [mul_pos hk hk, mul_pos (mul_pos hk hk) hk]

/-- **C40** disagreement: a non-zero LLI digit always changes the value. -/
theorem C40_flags_spill (f : ObsField) (h : f.WF) (hl : f.lli ≠ ' ') (h0 : f.lli ≠ '0') (o : RawRnxObs) :
    ∃ v, rawResolve (f.text ++ [NUL]) o 0 = .ok (0, v, 0) ∧ v.val ≠ f.num.value := by
  refine ⟨_, rawResolve_field h o, ?_⟩
  have hd := digit_of_flag h.lli hl
  have hp : 0 < flagNum f.lli := by
    simp only [Char.isDigit, Bool.and_eq_true, decide_eq_true_eq] at hd
    have h1 : 48 ≤ f.lli.toNat := UInt32.le_iff_toNat_le.1 hd.1
    have h2 : f.lli.toNat ≠ 48 := by
      intro h2
      exact h0 (by rw [← Char.ofNat_toNat f.lli, h2])
    unfold flagNum; rw [if_neg hl]; omega
  have hs : 0 < f.spill := by
    unfold ObsField.spill
    rw [if_neg hl]
    have : (0 : Rat) < flagNum f.lli := by exact_mod_cast hp
    split <;> positivity
  have hsg : signVal f.num.sign ≠ 0 := by
    rcases f.num.sign with _ | _ | _ <;> simp [signVal]
  simp only [ne_eq, add_eq_left, mul_eq_zero, not_or]
  exact ⟨hsg, hs.ne'⟩

/-- **C40**: blank value columns give the missing-value marker; the flag columns are not looked at, the
flags of the object stay what they were. -/
theorem C40_blank_value (x : List Char) (hc : NUL ∉ x) (h : ∀ c ∈ x.take 14, c = ' ') (o : RawRnxObs) (errno : Int) :
    rawResolve (x ++ [NUL]) o errno = .ok (0, ⟨missingMark, o.lli, o.ssi⟩, errno) := rawResolve_blank hc h o errno

/-- **C40** (any field).  Whatever 16 chars (and terminator) are given, the call ends with status 0 or 1. -/
theorem C40_any_field (x : List Char) (hx : x.length = 17) (h16 : x[16]? = some NUL) (o : RawRnxObs) (errno : Int) :
    ∃ st o' e', rawResolve x o errno = .ok (st, o', e') ∧ (st = 0 ∨ st = 1) := by
  have hn : NUL ∈ x := List.mem_iff_getElem?.2 ⟨16, h16⟩
  have hx' : x = x.take 16 ++ [NUL] := by
    obtain ⟨h1, h2⟩ := List.getElem?_eq_some_iff.1 h16
    conv_lhs => rw [← List.take_append_drop 16 x]
    congr 1
    rw [List.drop_eq_getElem_cons h1, h2, List.drop_of_length_le (by omega)]
  obtain ⟨y, z, rfl, hy⟩ := nul_split hn
  unfold rawResolve
  rw [C07_is_empty _ _ hy, Res.bind_ok]
  split
  · exact ⟨_, _, _, rfl, Or.inl rfl⟩
  · unfold strtodA
    rw [if_pos hn, Res.bind_ok]
    split
    · exact ⟨_, _, _, rfl, Or.inr rfl⟩
    · split
      · exact ⟨_, _, _, rfl, Or.inr rfl⟩
      · rw [getAt_lt (by omega), getAt_lt (by omega)]
        exact ⟨_, _, _, rfl, Or.inl rfl⟩

/-! ## Concrete cases -/

/-- `  20532121.416 7`: pseudorange, no LLI, SSI 7. -/
def exField1 : ObsField := ⟨⟨2, none, c!"20532121", some c!"416", none⟩, ' ', '7'⟩
/-- ` 107896543.12319`: phase with LLI 1 and SSI 9. -/
def exField2 : ObsField := ⟨⟨1, none, c!"107896543", some c!"123", none⟩, '1', '9'⟩

example : exField1.text = c!"  20532121.416 7" := by decide
example : exField2.text = c!" 107896543.12319" := by decide

theorem fieldWF {f : ObsField} (h : (decide (allDigits f.num.ip) && decide (allDigits f.num.fracDigits) && !f.num.ip.isEmpty &&
    f.num.exp.isNone && f.num.frac.isSome && decide (f.num.text.length = 14) && decide (IsFlag f.lli) && decide (IsFlag f.ssi)) = true) :
    f.WF := by
  simp only [Bool.and_eq_true, decide_eq_true_eq] at h
  obtain ⟨⟨⟨⟨⟨⟨⟨h1, h2⟩, h3⟩, h4⟩, h5⟩, h6⟩, h7⟩, h8⟩ := h
  have h4' : f.num.exp = none := by simpa using h4
  exact ⟨⟨h1, h2, Or.inl (by simpa using h3), by intro s ds hx; rw [h4'] at hx; cases hx⟩, h4', h5, h6, h7, h8⟩

theorem exField1_wf : exField1.WF := fieldWF (by decide)
theorem exField2_wf : exField2.WF := fieldWF (by decide)

example (o : RawRnxObs) : rawResolve (exField1.text ++ [NUL]) o 0 = .ok (0, ⟨20532121416 / 1000, 0, 7⟩, 0) := by
  rw [C40_field_partial exField1 exField1_wf (Or.inl rfl) o]
  have : exField1.num.value = 20532121416 / 1000 := by
    have h1 : Numeral.digVal c!"20532121" = 20532121 := by
      rw [digVal_eq _ (by decide), show Nat.ofDigitChars 10 c!"20532121" 0 = 20532121 by decide]; norm_num
    have h2 : Numeral.digVal c!"416" = 416 := by
      rw [digVal_eq _ (by decide), show Nat.ofDigitChars 10 c!"416" 0 = 416 by decide]; norm_num
    simp only [Numeral.value, exField1, signVal, Numeral.fracDigits, Option.getD_some, h1, h2, Numeral.expVal]
    norm_num
  rw [this]
  rfl

/-- The phase of `exField2` is 107896543.123; 107896543.12319 is returned. -/
example (o : RawRnxObs) : ∃ v, rawResolve (exField2.text ++ [NUL]) o 0 = .ok (0, v, 0) ∧ v.val ≠ exField2.num.value :=
  C40_flags_spill exField2 exField2_wf (by decide) (by decide) o
example : exField2.spill = 19 / 100000 := by
  simp only [ObsField.spill, exField2, Numeral.fracDigits, Option.getD_some, show flagNum '1' = 1 from rfl, show flagNum '9' = 9 from rfl]
  rw [if_neg (by decide), if_neg (by decide)]
  norm_num

end Ggnss
