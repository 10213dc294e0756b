import Verif.Spec.BadField
import Verif.Props.ObsCollect
/-!
# C43: epoch headers
-/
namespace Ggnss

theorem ofDigitChars_lt : ∀ (ds : List Char) (a : Nat), allDigits ds → Nat.ofDigitChars 10 ds a < (a + 1) * 10 ^ ds.length := by
  intro ds
  induction ds with
  | nil => intro a _; simp [Nat.ofDigitChars]
  | cons c ds ih =>
    intro a hd
    have hc := hd c (by simp)
    simp only [Char.isDigit, Bool.and_eq_true, decide_eq_true_eq] at hc
    have hc2 : c.toNat ≤ 57 := UInt32.le_iff_toNat_le.1 hc.2
    have e : Nat.ofDigitChars 10 (c :: ds) a = Nat.ofDigitChars 10 ds (10 * a + (c.toNat - 48)) := by
      simp [Nat.ofDigitChars]
    rw [e]
    have h1 := ih (10 * a + (c.toNat - 48)) (fun x hx => hd x (by simp [hx]))
    have h2 : (10 * a + (c.toNat - 48) + 1) * 10 ^ ds.length ≤ ((a + 1) * 10) * 10 ^ ds.length :=
      Nat.mul_le_mul_right _ (by omega)
    simp only [List.length_cons, pow_succ]
    calc _ < _ := h1
      _ ≤ _ := h2
      _ = _ := by ring

theorem IntCols.lt {w v : Nat} {txt : List Char} (h : IntCols w txt v) (hw : w ≤ 9) : v < 1000000000 := by
  obtain ⟨h0, k, ds, h1, h2, h3, h4⟩ := h
  have hl : ds.length ≤ 9 := by
    have := congrArg List.length h1; simp at this; omega
  rw [← h4]
  have h5 := ofDigitChars_lt ds 0 h2
  have h6 : (10 : Nat) ^ ds.length ≤ 10 ^ 9 := Nat.pow_le_pow_right (by omega) hl
  omega

theorem IntCols.int32 {w v : Nat} {txt : List Char} (h : IntCols w txt v) (hw : w ≤ 9) : toInt32 (v : Int) = v :=
  toInt32_nat (by have := h.lt hw; omega)

/-- An integer in columns, followed by a non-digit. -/
theorem strtol_cols {w v : Nat} {txt rest : List Char} (h : IntCols w txt v) (hw : w ≤ 9) (hr : ∀ c, rest.head? = some c → c.isDigit = false)
    (hn : NUL ∈ rest) : strtolA (txt ++ rest) = .ok (some ((v : Int), rest, false)) := by
  have hv := h.lt hw
  obtain ⟨h0, k, ds, h1, h2, h3, h4⟩ := h
  unfold strtolA
  rw [if_pos (by simp [hn])]
  unfold strtol
  have hs : ∀ c, (ds ++ rest).head? = some c → isSpace c = false := fun c hc => isDigit_not_space c (h2 c (head_digits_append h3 hc))
  rw [h1, List.append_assoc, dropWhile_blanks k _ hs]
  rw [takeSign_other _ (fun c hc => isDigit_not_sign c (h2 c (head_digits_append h3 hc)))]
  obtain ⟨t1, t2⟩ := takeWhile_digits ds rest h2 hr
  simp only [t1, t2, h3, if_false, Bool.false_eq_true, digitsVal, h4]
  rw [if_neg (by unfold LONG_MAX; omega), if_neg (by unfold LONG_MIN; omega)]

theorem epochInts_cols {n w v : Nat} {txt rest : List Char} (h : IntCols w txt v) (hw : w ≤ 9) (hn : NUL ∈ rest)
    {l : List Int} {e : List Char} (hr : epochInts n rest 0 = .ok (some (l, e))) :
    epochInts (n + 1) (txt ++ ' ' :: rest) 0 = .ok (some ((v : Int) :: l, e)) := by
  have h32 := h.int32 hw
  unfold epochInts
  rw [strtol_cols h hw (by simp) (by simp [hn]), Res.bind_ok]
  generalize (v : Int) = w at *
  simp only [List.drop_succ_cons, List.drop_zero, hr, Res.bind_ok, h32]
  simp

theorem IntCols.cstr {w v : Nat} {txt : List Char} (h : IntCols w txt v) : NUL ∉ txt := by
  obtain ⟨h0, k, ds, h1, h2, h3, h4⟩ := h
  rw [h1]
  have := allDigits_nul h2
  simp only [List.mem_append, List.mem_replicate, not_or, this, not_false_eq_true, and_true]
  rintro ⟨_, hh⟩; revert hh; decide

theorem numeral_nul {n : Numeral} (h : n.WF) : NUL ∉ n.text := by
  unfold Numeral.text Numeral.fracText Numeral.expText
  have c := allDigits_nul h.ip
  have d := allDigits_nul h.frac
  have e := signText_nul n.sign
  simp only [List.mem_append, List.mem_replicate, not_or, c, e, not_false_eq_true, true_and]
  refine ⟨by rintro ⟨_, hh⟩; revert hh; decide, ?_, ?_⟩
  · cases hf : n.frac with
    | none => simp
    | some ds =>
      have : NUL ∉ ds := by simpa [Numeral.fracDigits, hf] using d
      simp only [List.mem_cons, this, or_false]; decide
  · cases he : n.exp with
    | none => simp
    | some p =>
      obtain ⟨s, ds⟩ := p
      have := allDigits_nul (h.exp s ds he).1
      simp only [List.mem_cons, List.mem_append, this, signText_nul s, or_false]; decide

/-- All of a well-formed header line but the number of satellites. -/
structure EpochText.SaysBut (e : EpochText) (y mo d h mi : Nat) (sec : Rat) (flag : Nat) (clock : Option Rat) : Prop where
  year : IntCols 4 e.year y
  month : IntCols 2 e.month mo
  day : IntCols 2 e.day d
  hour : IntCols 2 e.hour h
  min : IntCols 2 e.min mi
  seconds : ∃ n : Numeral, n.WF ∧ n.text = e.sec ∧ n.text.length = 10 ∧ n.value = sec
  flagDigit : e.flag.isDigit = true
  flagIs : flagNum e.flag = flag
  nsatLen : e.nsat.length = 3
  nsatNul : NUL ∉ e.nsat
  tailBlank : ∀ c, e.tail.head? = some c → c = ' '
  clockIs : ClockIs e.tail clock
  cstr : NUL ∉ e.tail

theorem resolveEpoch_line {mjdOf : Int → Int → Int → Res Int} {e : EpochText} {y mo d h mi flag : Nat} {sec : Rat} {clock : Option Rat}
    (hs : e.SaysBut y mo d h mi sec flag clock) {mjd : Int} (hm : mjdOf y mo d = .ok mjd) (tail : List Char)
    {p : Option (Int × List Char × Bool)} {ns : Int} (hp : strtolA (e.nsat ++ (e.tail ++ NUL :: tail)) = .ok p) (hperr : strtolErr p = false)
    (hpval : toInt32 (strtolVal p) = ns)
    (hpend : (strtolEnd (e.nsat ++ (e.tail ++ NUL :: tail)) p).length ≤ (e.nsat ++ (e.tail ++ NUL :: tail)).length) :
    resolveEpoch mjdOf (e.line ++ NUL :: tail) 0 = .ok (.inr ⟨mjd, (h : Rat) * 3600 + mi * 60 + sec, flag, ns, clock⟩) := by
  obtain ⟨n, hn1, hn2, hn3, hn4⟩ := hs.seconds
  have hnsec : NUL ∉ e.sec := hn2 ▸ numeral_nul hn1
  have hfl : e.flag ≠ NUL := IsFlag.ne_nul (Or.inr hs.flagDigit)
  have ly := hs.year.1
  have lmo := hs.month.1
  have ld := hs.day.1
  have lh := hs.hour.1
  have lmi := hs.min.1
  have lns := hs.nsatLen
  have lsec : e.sec.length = 10 := by rw [← hn2]; exact hn3
  have hcl : NUL ∉ e.line := by
    unfold EpochText.line
    have a1 := hs.year.cstr
    have a2 := hs.month.cstr
    have a3 := hs.day.cstr
    have a4 := hs.hour.cstr
    have a5 := hs.min.cstr
    have a6 := hs.nsatNul
    have a7 := hs.cstr
    have a8 : NUL ≠ ' ' := by decide
    have a9 : NUL ≠ '>' := by decide
    simp [a1, a2, a3, a4, a5, a6, a7, hnsec, Ne.symm hfl]
    exact ⟨a9, a8⟩
  have hlen : e.line.length = 35 + e.tail.length := by
    unfold EpochText.line
    simp only [List.length_cons, List.length_append, ly, lmo, ld, lh, lmi, lns, lsec]
    omega
  have hflag : scharVal e.flag - 48 = (flag : Int) := by
    have := flagDigit_eq (c := e.flag) (Or.inr hs.flagDigit)
    rw [hs.flagIs] at this
    unfold flagDigit at this
    rwa [if_neg (by intro hc; have := hs.flagDigit; rw [hc] at this; revert this; decide)] at this
  -- the pieces of the buffer
  set secRest := ' ' :: ' ' :: e.flag :: (e.nsat ++ e.tail) ++ NUL :: tail with hsecRest
  have hints : epochInts 5 ((e.line ++ NUL :: tail).drop 2) 0 = .ok (some ([(y : Int), mo, d, h, mi], e.sec ++ secRest)) := by
    have hdrop : (e.line ++ NUL :: tail).drop 2 =
        e.year ++ ' ' :: (e.month ++ ' ' :: (e.day ++ ' ' :: (e.hour ++ ' ' :: (e.min ++ ' ' :: (e.sec ++ secRest))))) := by
      unfold EpochText.line; simp [hsecRest]
    rw [hdrop]
    apply epochInts_cols hs.year (by decide) (by simp [hsecRest])
    apply epochInts_cols hs.month (by decide) (by simp [hsecRest])
    apply epochInts_cols hs.day (by decide) (by simp [hsecRest])
    apply epochInts_cols hs.hour (by decide) (by simp [hsecRest])
    apply epochInts_cols hs.min (by decide) (by simp [hsecRest])
    rfl
  have hstop : stopsNumber secRest := by
    intro c hc
    simp [hsecRest] at hc
    subst hc; decide
  have hsec : strtodA (e.sec ++ secRest) = .ok (some (sec, secRest, false)) := by
    unfold strtodA
    rw [if_pos (by simp [hsecRest]), ← hn2, strtod_numeral n hn1 _ hstop, hn4]
  have hpre : ∃ pre, pre.length = 31 ∧ e.line = pre ++ e.flag :: (e.nsat ++ e.tail) := by
    refine ⟨'>' :: ' ' :: (e.year ++ ' ' :: (e.month ++ ' ' :: (e.day ++ ' ' :: (e.hour ++ ' ' :: (e.min ++ ' ' :: (e.sec ++ [' ', ' '])))))), ?_, ?_⟩
    · simp [ly, lmo, ld, lh, lmi, lsec]
    · unfold EpochText.line; simp
  obtain ⟨pre, hpl, hpre⟩ := hpre
  have h31 : getAt (e.line ++ NUL :: tail) 31 = .ok e.flag := by
    apply getAt_left
    rw [hpre, List.getElem?_append_right (by omega)]
    simp [hpl]
  have h32 : (e.line ++ NUL :: tail).drop 32 = e.nsat ++ (e.tail ++ NUL :: tail) := by
    rw [hpre, show 32 = pre.length + 1 by omega]
    simp
  have h41 : 6 < e.tail.length → (e.line ++ NUL :: tail).drop 41 = e.tail.drop 6 ++ NUL :: tail := by
    intro h6
    have : (e.line ++ NUL :: tail).drop 41 = ((e.line ++ NUL :: tail).drop 32).drop 9 := by rw [List.drop_drop]
    rw [this, h32, List.drop_append, lns]
    simp only [show 9 - 3 = 6 by rfl]
    rw [List.drop_of_length_le (by omega), List.nil_append, drop_line (by omega)]
  have hsum : ((h : Rat) * 60 + mi) * 60 + sec = (h : Rat) * 3600 + mi * 60 + sec := by ring
  unfold resolveEpoch
  rw [cstrOf_append hcl, Res.bind_ok, getAt_left (l := e.line) (c := '>') (i := 0) rfl, Res.bind_ok]
  rw [if_neg (by rw [hlen]; simp), hints, Res.bind_ok]
  simp only [hm, Res.bind_ok, hsec, h31, hp, strtodVal, strtodErr, h32, hpval, hperr, Bool.false_eq_true, if_false]
  have hpend' : (e.sec ++ secRest).length ≠ (strtolEnd (e.nsat ++ (e.tail ++ NUL :: tail)) p).length := by
    have := hpend
    simp only [List.length_append, List.length_cons] at this
    simp only [hsecRest, List.length_append, List.length_cons, lns, lsec]
    omega
  rw [if_neg (by simp), if_neg (by simpa using hpend')]
  have hck := hs.clockIs
  have hflag' : ((flag : Nat) : Int) = scharVal e.flag - 48 := hflag.symm
  cases hck with
  | absent h6 =>
    rw [if_neg (by rw [hlen]; omega)]
    simp [hflag', ← hsum]
  | blank h6 hb =>
    rw [if_pos (by rw [hlen]; omega), h41 h6]
    have hbl : stringIsEmpty (e.tail.drop 6 ++ NUL :: tail) none = .ok true := by
      rw [C07_is_empty _ _ (fun hm => hs.cstr (List.mem_of_mem_drop hm))]
      congr 1
      exact decide_eq_true hb
    rw [hbl, Res.bind_ok]
    unfold strtodA
    rw [if_pos (by simp), Res.bind_ok]
    simp only [if_true]
    rw [if_neg (by simpa using hpend')]
    simp [hflag', ← hsum]
  | number c rest hc1 hc2 hc3 h6 =>
    rw [if_pos (by rw [hlen]; omega), h41 h6]
    have hbl : ∃ b, stringIsEmpty (e.tail.drop 6 ++ NUL :: tail) none = .ok b ∧ b = false := by
      rw [C07_is_empty _ _ (fun hm => hs.cstr (List.mem_of_mem_drop hm))]
      refine ⟨_, rfl, decide_eq_false ?_⟩
      intro hb
      have hdig : ∃ x ∈ e.tail.drop 6, x.isDigit = true := by
        rw [hc2]
        have ht : ∀ x, (x ∈ c.ip ∨ x ∈ c.fracDigits) → x ∈ c.text := by
          intro x hx
          unfold Numeral.text
          rcases hx with hx | hx
          · simp [hx]
          · have : x ∈ c.fracText := by
              unfold Numeral.fracText; unfold Numeral.fracDigits at hx
              cases hf : c.frac with
              | none => simp [hf] at hx
              | some ds => simp [hf] at hx; simp [hx]
            simp [this]
        rcases hc1.nonempty with hne | hne
        · obtain ⟨x, xs, hx⟩ := List.exists_cons_of_ne_nil hne
          exact ⟨x, by simp [ht x (Or.inl (by rw [hx]; simp))], hc1.ip x (by rw [hx]; simp)⟩
        · obtain ⟨x, xs, hx⟩ := List.exists_cons_of_ne_nil hne
          exact ⟨x, by simp [ht x (Or.inr (by rw [hx]; simp))], hc1.frac x (by rw [hx]; simp)⟩
      obtain ⟨x, hx, hxd⟩ := hdig
      rw [hb x hx] at hxd
      revert hxd; decide
    obtain ⟨b, hbl, rfl⟩ := hbl
    rw [hbl, Res.bind_ok]
    have hck : strtodA (e.tail.drop 6 ++ NUL :: tail) = .ok (some (c.value, rest ++ NUL :: tail, false)) := by
      unfold strtodA
      rw [if_pos (by simp), hc2, List.append_assoc, strtod_numeral c hc1 _ (head_append_nul rest tail _ hc3 (by decide))]
    rw [hck, Res.bind_ok]
    have hrl : rest.length ≤ e.tail.length := by
      have := congrArg List.length hc2
      simp at this; omega
    simp only [Bool.false_eq_true, if_false, strtodEnd, strtodErr]
    rw [if_neg (by simp [hsecRest, lns, lsec]; omega)]
    simp [hflag', ← hsum]


/-- **C43**.  A well-formed epoch header line is decoded into exactly what its columns say: date,
second of day, flag, number of satellites and receiver clock offset (`none`: the line has no such
columns).  `tail` is the rest of the buffer behind the line.  `mjd` is the day of the date by the
calendar of ggdatetime. -/
theorem C43_header {mjdOf : Int → Int → Int → Res Int} {e : EpochText} {y mo d h mi flag nsat : Nat} {sec : Rat} {clock : Option Rat}
    (hs : e.Says y mo d h mi sec flag nsat clock) {mjd : Int} (hm : mjdOf y mo d = .ok mjd) (tail : List Char) :
    resolveEpoch mjdOf (e.line ++ NUL :: tail) 0 = .ok (.inr ⟨mjd, (h : Rat) * 3600 + mi * 60 + sec, flag, nsat, clock⟩) := by
  have hb : e.SaysBut y mo d h mi sec flag clock := ⟨hs.year, hs.month, hs.day, hs.hour, hs.min, hs.seconds, hs.flagDigit, hs.flagIs,
    hs.nsatIs.1, hs.nsatIs.cstr, hs.tailBlank, hs.clockIs, hs.cstr⟩
  have hns : strtolA (e.nsat ++ (e.tail ++ NUL :: tail)) = .ok (some ((nsat : Int), e.tail ++ NUL :: tail, false)) := by
    apply strtol_cols hs.nsatIs (by decide) _ (by simp)
    intro c hc
    cases ht : e.tail with
    | nil => rw [ht] at hc; simp at hc; subst hc; decide
    | cons a as =>
      rw [ht] at hc; simp at hc
      have := hs.tailBlank a (by rw [ht]; rfl)
      subst hc; rw [this]; decide
  exact resolveEpoch_line hb hm tail hns rfl (hs.nsatIs.int32 (by decide)) (by simp [strtolEnd])

/-- **C43** disagreement: blank satellite-count columns are not reported, the epoch is taken to have no
satellites (its data lines are then read as epoch headers). -/
theorem C43_count_unread {mjdOf : Int → Int → Int → Res Int} {e : EpochText} {y mo d h mi flag : Nat} {sec : Rat}
    (hs : e.SaysBut y mo d h mi sec flag none) {mjd : Int} (hm : mjdOf y mo d = .ok mjd) (hn : e.nsat = c!"   ") (ht : e.tail = [])
    (tail : List Char) :
    resolveEpoch mjdOf (e.line ++ NUL :: tail) 0 = .ok (.inr ⟨mjd, (h : Rat) * 3600 + mi * 60 + sec, flag, 0, none⟩) := by
  have hp : strtolA (e.nsat ++ (e.tail ++ NUL :: tail)) = .ok none := by
    unfold strtolA
    rw [if_pos (by simp), hn, ht]
    rfl
  exact resolveEpoch_line hs hm tail hp rfl rfl (by simp [strtolEnd])

/-- **C43**: a line that does not start with `>` or has fewer than 35 chars is refused with status 1. -/
theorem C43_not_a_header {mjdOf : Int → Int → Int → Res Int} {l : List Char} (hl : NUL ∉ l) (h : l.head? ≠ some '>' ∨ l.length < 35)
    (tail : List Char) (errno : Int) : resolveEpoch mjdOf (l ++ NUL :: tail) errno = .ok (.inl (1, errno)) := by
  unfold resolveEpoch
  rw [cstrOf_append hl, Res.bind_ok]
  have h0 : getAt (l ++ NUL :: tail) 0 = .ok ((l ++ NUL :: tail)[0]'(by simp)) := getAt_lt (by simp)
  rw [h0, Res.bind_ok, if_pos]
  · rfl
  · rcases h with h | h
    · left
      cases l with
      | nil => simp; decide
      | cons c cs => simpa using h
    · exact Or.inr h

theorem strtol_noInt {t tail : List Char} (h : NoInt t) : strtol (t ++ NUL :: tail) = none := by
  obtain ⟨k, s, rest, rfl, hr⟩ := h
  have hr' := head_append_nul rest tail (fun c => c.isDigit = false ∧ (s = none → isSpace c = false ∧ c ≠ '-' ∧ c ≠ '+')) hr (by simp [NUL, isSpace, Char.isDigit])
  unfold strtol
  have hs : ∀ c, (signText s ++ (rest ++ NUL :: tail)).head? = some c → isSpace c = false := by
    intro c hc
    rcases s with _ | _ | _
    · exact ((hr' c hc).2 rfl).1
    · simp [signText] at hc; subst hc; decide
    · simp [signText] at hc; subst hc; decide
  have e : List.replicate k ' ' ++ (signText s ++ rest) ++ NUL :: tail = List.replicate k ' ' ++ (signText s ++ (rest ++ NUL :: tail)) := by simp
  have hts : takeSign (signText s ++ (rest ++ NUL :: tail)) = (s == some true, rest ++ NUL :: tail) := by
    match s with
    | none => exact takeSign_text none _ (fun c hc => ((hr' c hc).2 rfl).2)
    | some true => rfl
    | some false => rfl
  rw [e, dropWhile_blanks k _ hs, hts]
  have ht : (rest ++ NUL :: tail).takeWhile Char.isDigit = [] := by
    cases hx : rest ++ NUL :: tail with
    | nil => rfl
    | cons c cs =>
      rw [List.takeWhile_cons, if_neg]
      have := (hr' c (by rw [hx]; rfl)).1
      simp [this]
  simp [ht]

/-- **C43**: an unreadable year, month, day, hour or minute (the ones before it being readable) is
reported by status 2. -/
theorem C43_date_unread {mjdOf : Int → Int → Int → Res Int} {l : List Char} (hl : NUL ∉ l) (h0 : l.head? = some '>') (h35 : 35 ≤ l.length)
    (pre : List (List Char × Nat)) (hpre : ∀ p ∈ pre, ∃ w ≤ 9, IntCols w p.1 p.2) (hp5 : pre.length < 5) {t : List Char} (ht : NoInt t)
    (hdrop : l.drop 2 = (pre.map (fun p => p.1 ++ [' '])).flatten ++ t) (tail : List Char) :
    resolveEpoch mjdOf (l ++ NUL :: tail) 0 = .ok (.inl (2, 0)) := by
  have hints : ∀ (pre : List (List Char × Nat)) (n : Nat), (∀ p ∈ pre, ∃ w ≤ 9, IntCols w p.1 p.2) → pre.length < n →
      epochInts n ((pre.map (fun p => p.1 ++ [' '])).flatten ++ t ++ NUL :: tail) 0 = .ok none := by
    intro pre
    induction pre with
    | nil =>
      intro n _ hn
      obtain ⟨m, rfl⟩ : ∃ m, n = m + 1 := ⟨n - 1, by simp at hn; omega⟩
      unfold epochInts
      have : strtolA (t ++ NUL :: tail) = .ok none := by
        unfold strtolA; rw [if_pos (by simp), strtol_noInt ht]
      simp only [List.map_nil, List.flatten_nil, List.nil_append, this, Res.bind_ok]
      rfl
    | cons p pre ih =>
      intro n hp hn
      obtain ⟨m, rfl⟩ : ∃ m, n = m + 1 := ⟨n - 1, by simp at hn; omega⟩
      obtain ⟨w, hw, hi⟩ := hp p (by simp)
      have h1 := ih m (fun q hq => hp q (by simp [hq])) (by simp at hn; omega)
      have e : ((p :: pre).map (fun p => p.1 ++ [' '])).flatten ++ t ++ NUL :: tail =
          p.1 ++ ' ' :: ((pre.map (fun p => p.1 ++ [' '])).flatten ++ t ++ NUL :: tail) := by simp
      rw [e]
      unfold epochInts
      rw [strtol_cols hi hw (by simp) (by simp), Res.bind_ok]
      simp only [List.drop_succ_cons, List.drop_zero, h1, Res.bind_ok]
      simp
  unfold resolveEpoch
  rw [cstrOf_append hl, Res.bind_ok]
  have hg : getAt (l ++ NUL :: tail) 0 = .ok '>' := getAt_left (by rw [← List.head?_eq_getElem?]; exact h0)
  rw [hg, Res.bind_ok, if_neg (by simp; omega), drop_line (by omega), hdrop, hints pre 5 hpre hp5]
  rfl

/-- **C43** disagreement: a malformed header can make the parser run past the terminator of the line
into the rest of the buffer and beyond it (undefined behaviour): a `>`, 33 blanks and a digit in a
buffer of 36 bytes. -/
theorem C43_malformed_undefined (mjdOf : Int → Int → Int → Res Int) :
    resolveEpoch mjdOf ('>' :: (List.replicate 33 ' ' ++ ['1']) ++ [NUL]) 0 = .ub := by rfl

end Ggnss
