import Verif.Props.ObsEpoch
import Verif.Props.ObsSafe
import Verif.Lemmas.Env
import Verif.Props.ObsHeadBad
/-!
# Numbers that cannot be read or do not fit: epoch headers (C43) and observation fields (C40)
-/
namespace Ggnss

theorem strtol_tooLong {t : List Char} (h : TooLong t) (tail : List Char) : ∃ v r, strtol (t ++ NUL :: tail) = some (v, r, true) := by
  obtain ⟨k, sg, ds, rest, rfl, h1, h2, h3, h4⟩ := h
  have h5 : ds ≠ [] := by rintro rfl; revert h4; decide
  rw [List.append_assoc, strtol_spec (by intro c hc; rw [(List.mem_replicate.1 hc).2]; decide) h1 h2 h5 (head_append_nul rest tail _ h3 (by decide)) _ rfl]
  refine ⟨_, _, by rw [decide_eq_true (by unfold LONG_MIN LONG_MAX; split <;> omega)]⟩

/-- **C43**: a year, month, day, hour or minute beyond the range of `long` (the ones before it being readable) is reported by status 2. -/
theorem C43_date_range {mjdOf : Int → Int → Int → Res Int} {l : List Char} (hl : NUL ∉ l) (h0 : l.head? = some '>') (h35 : 35 ≤ l.length)
    (pre : List (List Char × Nat)) (hpre : ∀ p ∈ pre, ∃ w ≤ 9, IntCols w p.1 p.2) (hp5 : pre.length < 5) {t : List Char} (ht : TooLong t)
    (hdrop : l.drop 2 = (pre.map (fun p => p.1 ++ [' '])).flatten ++ t) (tail : List Char) :
    resolveEpoch mjdOf (l ++ NUL :: tail) 0 = .ok (.inl (2, 0)) := by
  have hints : ∀ (pre : List (List Char × Nat)) (n : Nat), (∀ p ∈ pre, ∃ w ≤ 9, IntCols w p.1 p.2) → pre.length < n →
      epochInts n ((pre.map (fun p => p.1 ++ [' '])).flatten ++ t ++ NUL :: tail) 0 = .ok none := by
    intro pre
    induction pre with
    | nil =>
      intro n _ hn
      obtain ⟨n, rfl⟩ : ∃ k, n = k + 1 := ⟨n - 1, by omega⟩
      obtain ⟨v, r, e⟩ := strtol_tooLong ht tail
      unfold epochInts strtolA
      rw [if_pos (by simp)]
      simp [e]
    | cons p ps ih =>
      intro n hp hn
      obtain ⟨n, rfl⟩ : ∃ k, n = k + 1 := ⟨n - 1, by omega⟩
      obtain ⟨w, hw, hc⟩ := hp p (by simp)
      have e := ih n (fun q hq => hp q (by simp [hq])) (by simp at hn; omega)
      have hr := strtol_cols hc hw (rest := ' ' :: ((ps.map (fun p => p.1 ++ [' '])).flatten ++ t ++ NUL :: tail))
        (by intro c hcc; simp at hcc; subst hcc; decide) (by simp)
      unfold epochInts
      have es : ((p :: ps).map (fun p => p.1 ++ [' '])).flatten ++ t ++ NUL :: tail =
          p.1 ++ ' ' :: ((ps.map (fun p => p.1 ++ [' '])).flatten ++ t ++ NUL :: tail) := by simp
      generalize (p.2 : Int) = v at *
      rw [es, hr, Res.bind_ok]
      simp only [List.drop_succ_cons, List.drop_zero, e, Res.bind_ok]
      simp
  unfold resolveEpoch
  rw [cstrOf_append hl, Res.bind_ok]
  have hg : getAt (l ++ NUL :: tail) 0 = .ok '>' := by
    cases l with
    | nil => simp at h0
    | cons c cs => simp at h0; subst h0; rfl
  rw [hg, Res.bind_ok, if_neg (by simp; omega), drop_line (by omega), hdrop, hints pre 5 hpre hp5]
  rfl

theorem resolve_ints {mjdOf : Int → Int → Int → Res Int} {l : List Char} (hl : NUL ∉ l) (h0 : l.head? = some '>') (h35 : 35 ≤ l.length)
    {cy cm cd ch cmi t : List Char} {y mo d h mi : Nat} (h1 : IntCols 4 cy y) (h2 : IntCols 2 cm mo) (h3 : IntCols 2 cd d) (h4 : IntCols 2 ch h)
    (h5 : IntCols 2 cmi mi) (hdrop : l.drop 2 = cy ++ ' ' :: (cm ++ ' ' :: (cd ++ ' ' :: (ch ++ ' ' :: (cmi ++ ' ' :: t))))) {mjd : Int}
    (hm : mjdOf y mo d = .ok mjd) (tail : List Char) {rs : Option (Rat × List Char × Bool)} (hrs : strtodA (t ++ NUL :: tail) = .ok rs)
    (hbad : strtodErr rs = true ∨ rs = none) : resolveEpoch mjdOf (l ++ NUL :: tail) 0 = .ok (.inl (3, 0)) := by
  have hints : epochInts 5 ((l ++ NUL :: tail).drop 2) 0 = .ok (some ([(y : Int), mo, d, h, mi], t ++ NUL :: tail)) := by
    have e : (l ++ NUL :: tail).drop 2 = cy ++ ' ' :: (cm ++ ' ' :: (cd ++ ' ' :: (ch ++ ' ' :: (cmi ++ ' ' :: (t ++ NUL :: tail))))) := by
      rw [drop_line (by omega), hdrop]; simp
    rw [e]
    apply epochInts_cols h1 (by decide) (by simp)
    apply epochInts_cols h2 (by decide) (by simp)
    apply epochInts_cols h3 (by decide) (by simp)
    apply epochInts_cols h4 (by decide) (by simp)
    apply epochInts_cols h5 (by decide) (by simp)
    rfl
  unfold resolveEpoch
  rw [cstrOf_append hl, Res.bind_ok]
  have hg : getAt (l ++ NUL :: tail) 0 = .ok '>' := by
    cases l with
    | nil => simp at h0
    | cons c cs => simp at h0; subst h0; rfl
  rw [hg, Res.bind_ok, if_neg (by simp; omega), hints, Res.bind_ok]
  simp only [hm, Res.bind_ok, hrs]
  rw [if_pos (by rcases hbad with h | h <;> simp [h])]
  rfl

/-- **C43**: seconds that do not fit a `double` are reported by status 3. -/
theorem C43_seconds_range {mjdOf : Int → Int → Int → Res Int} {l : List Char} (hl : NUL ∉ l) (h0 : l.head? = some '>') (h35 : 35 ≤ l.length)
    {cy cm cd ch cmi rest : List Char} {y mo d h mi : Nat} (h1 : IntCols 4 cy y) (h2 : IntCols 2 cm mo) (h3 : IntCols 2 cd d) (h4 : IntCols 2 ch h)
    (h5 : IntCols 2 cmi mi) {n : Numeral} (hn : n.Shape) (hst : stopsNumber rest) (hbig : ¬ FitsDouble n.value)
    (hdrop : l.drop 2 = cy ++ ' ' :: (cm ++ ' ' :: (cd ++ ' ' :: (ch ++ ' ' :: (cmi ++ ' ' :: (n.text ++ rest)))))) {mjd : Int}
    (hm : mjdOf y mo d = .ok mjd) (tail : List Char) : resolveEpoch mjdOf (l ++ NUL :: tail) 0 = .ok (.inl (3, 0)) := by
  refine resolve_ints hl h0 h35 h1 h2 h3 h4 h5 hdrop hm tail (rs := some (n.value, rest ++ NUL :: tail, true)) ?_ (Or.inl rfl)
  unfold strtodA
  rw [if_pos (by simp), List.append_assoc, strtod_shape n hn _ (head_append_nul rest tail _ hst (by decide)), (dblErange_iff _).2 hbig]

/-- **C43**: seconds that are not a number are reported by status 3. -/
theorem C43_seconds_unread {mjdOf : Int → Int → Int → Res Int} {l : List Char} (hl : NUL ∉ l) (h0 : l.head? = some '>') (h35 : 35 ≤ l.length)
    {cy cm cd ch cmi rest : List Char} {y mo d h mi k : Nat} {x : Char} (h1 : IntCols 4 cy y) (h2 : IntCols 2 cm mo) (h3 : IntCols 2 cd d)
    (h4 : IntCols 2 ch h) (h5 : IntCols 2 cmi mi) (hx1 : isSpace x = false) (hx2 : x.isDigit = false) (hx3 : x ∉ c!"+-.iInN")
    (hdrop : l.drop 2 = cy ++ ' ' :: (cm ++ ' ' :: (cd ++ ' ' :: (ch ++ ' ' :: (cmi ++ ' ' :: (List.replicate k ' ' ++ x :: rest))))))
    {mjd : Int} (hm : mjdOf y mo d = .ok mjd) (tail : List Char) : resolveEpoch mjdOf (l ++ NUL :: tail) 0 = .ok (.inl (3, 0)) := by
  refine resolve_ints hl h0 h35 h1 h2 h3 h4 h5 hdrop hm tail (rs := none) ?_ (Or.inr rfl)
  unfold strtodA
  rw [if_pos (by simp), List.append_assoc, List.cons_append, strtod_notNumber hx1 hx2 hx3]

/-- **C43**: a number of satellites beyond the range of `long` is reported by status 4. -/
theorem C43_count_range {mjdOf : Int → Int → Int → Res Int} {l : List Char} (hl : NUL ∉ l) (h0 : l.head? = some '>') (h35 : 35 ≤ l.length)
    {cy cm cd ch cmi rest : List Char} {y mo d h mi : Nat} (h1 : IntCols 4 cy y) (h2 : IntCols 2 cm mo) (h3 : IntCols 2 cd d) (h4 : IntCols 2 ch h)
    (h5 : IntCols 2 cmi mi) {n : Numeral} (hn : n.WF) (hst : stopsNumber rest)
    (hdrop : l.drop 2 = cy ++ ' ' :: (cm ++ ' ' :: (cd ++ ' ' :: (ch ++ ' ' :: (cmi ++ ' ' :: (n.text ++ rest)))))) (hbig : TooLong (l.drop 32))
    {mjd : Int} (hm : mjdOf y mo d = .ok mjd) (tail : List Char) : resolveEpoch mjdOf (l ++ NUL :: tail) 0 = .ok (.inl (4, 0)) := by
  have hints : epochInts 5 ((l ++ NUL :: tail).drop 2) 0 = .ok (some ([(y : Int), mo, d, h, mi], n.text ++ rest ++ NUL :: tail)) := by
    have e : (l ++ NUL :: tail).drop 2 = cy ++ ' ' :: (cm ++ ' ' :: (cd ++ ' ' :: (ch ++ ' ' :: (cmi ++ ' ' :: (n.text ++ rest ++ NUL :: tail))))) := by
      rw [drop_line (by omega), hdrop]; simp
    rw [e]
    apply epochInts_cols h1 (by decide) (by simp)
    apply epochInts_cols h2 (by decide) (by simp)
    apply epochInts_cols h3 (by decide) (by simp)
    apply epochInts_cols h4 (by decide) (by simp)
    apply epochInts_cols h5 (by decide) (by simp)
    rfl
  have hsec : strtodA (n.text ++ rest ++ NUL :: tail) = .ok (some (n.value, rest ++ NUL :: tail, false)) := by
    unfold strtodA
    rw [if_pos (by simp), List.append_assoc, strtod_numeral n hn _ (head_append_nul rest tail _ hst (by decide))]
  obtain ⟨v, r, hcnt⟩ := strtol_tooLong hbig tail
  unfold resolveEpoch
  rw [cstrOf_append hl, Res.bind_ok]
  have hg : getAt (l ++ NUL :: tail) 0 = .ok '>' := by
    cases l with
    | nil => simp at h0
    | cons c cs => simp at h0; subst h0; rfl
  rw [hg, Res.bind_ok, if_neg (by simp; omega), hints, Res.bind_ok]
  simp only [hm, Res.bind_ok, hsec, strtodErr, Bool.false_eq_true]
  rw [if_neg (by simp), getAt_lt (by simp; omega), Res.bind_ok, drop_line (by omega)]
  unfold strtolA
  rw [if_pos (by simp), hcnt, Res.bind_ok]
  simp only [strtolErr, if_true]
  rw [if_pos (Or.inl (by decide))]
  rfl

theorem strtodEnd_le {l : List Char} (p : Option (Rat × List Char × Bool)) (h : strtod l = p) : (strtodEnd l p).length ≤ l.length := by
  cases p with
  | none => exact Nat.le_refl _
  | some v =>
    obtain ⟨v, r, er⟩ := v
    exact strtod_le h

/-- The receiver clock columns (42 on) hold something: what becomes of the line. -/
theorem resolveEpoch_clock {mjdOf : Int → Int → Int → Res Int} {e : EpochText} {y mo d h mi flag nsat : Nat} {sec : Rat}
    (hs : ({ e with tail := [] } : EpochText).Says y mo d h mi sec flag nsat none) {mjd : Int} (hm : mjdOf y mo d = .ok mjd) (tail : List Char)
    (h6 : 6 < e.tail.length) (hb : e.tail.head? = some ' ') (hnul : NUL ∉ e.tail) (hnb : ¬ ∀ c ∈ e.tail.drop 6, c = ' ')
    {ck : Option (Rat × List Char × Bool)} (hck : strtod (e.tail.drop 6 ++ NUL :: tail) = ck) :
    resolveEpoch mjdOf (e.line ++ NUL :: tail) 0 =
      .ok (if strtodErr ck = true then .inl (5, 0) else .inr ⟨mjd, (h : Rat) * 3600 + mi * 60 + sec, flag, nsat, some (strtodVal ck)⟩) := by
  obtain ⟨n, hn1, hn2, hn3, hn4⟩ := hs.seconds
  simp only at hn2
  have hnsec : NUL ∉ e.sec := hn2 ▸ numeral_nul hn1
  have hfl : e.flag ≠ NUL := IsFlag.ne_nul (Or.inr hs.flagDigit)
  have ly := hs.year.1
  have lmo := hs.month.1
  have ld := hs.day.1
  have lh := hs.hour.1
  have lmi := hs.min.1
  have lns := hs.nsatIs.1
  simp only at ly lmo ld lh lmi lns
  have lsec : e.sec.length = 10 := by rw [← hn2]; exact hn3
  have hcl : NUL ∉ e.line := by
    unfold EpochText.line
    have a1 := hs.year.cstr
    have a2 := hs.month.cstr
    have a3 := hs.day.cstr
    have a4 := hs.hour.cstr
    have a5 := hs.min.cstr
    have a6 := hs.nsatIs.cstr
    simp only at a1 a2 a3 a4 a5 a6
    have a8 : NUL ≠ ' ' := by decide
    have a9 : NUL ≠ '>' := by decide
    simp [a1, a2, a3, a4, a5, a6, hnul, hnsec, Ne.symm hfl]
    exact ⟨a9, a8⟩
  have hlen : e.line.length = 35 + e.tail.length := by
    unfold EpochText.line
    simp only [List.length_cons, List.length_append, ly, lmo, ld, lh, lmi, lns, lsec]
    omega
  have hfd : e.flag.isDigit = true := hs.flagDigit
  have hflag : scharVal e.flag - 48 = (flag : Int) := by
    have := flagDigit_eq (c := e.flag) (Or.inr hfd)
    rw [show flagNum e.flag = flag from hs.flagIs] at this
    unfold flagDigit at this
    rwa [if_neg (by intro hc; rw [hc] at hfd; revert hfd; decide)] at this
  set secRest := ' ' :: ' ' :: e.flag :: (e.nsat ++ e.tail) ++ NUL :: tail with hsecRest
  have hints : epochInts 5 ((e.line ++ NUL :: tail).drop 2) 0 = .ok (some ([(y : Int), mo, d, h, mi], e.sec ++ secRest)) := by
    have hdrop : (e.line ++ NUL :: tail).drop 2 =
        e.year ++ ' ' :: (e.month ++ ' ' :: (e.day ++ ' ' :: (e.hour ++ ' ' :: (e.min ++ ' ' :: (e.sec ++ secRest))))) := by
      unfold EpochText.line; simp [hsecRest]
    rw [hdrop]
    apply epochInts_cols hs.year (by decide) (by simp [hsecRest])
    apply epochInts_cols hs.month (by decide) (by simp [hsecRest])
    apply epochInts_cols hs.day (by decide) (by simp [hsecRest])
    apply epochInts_cols hs.hour (by decide) (by simp [hsecRest])
    apply epochInts_cols hs.min (by decide) (by simp [hsecRest])
    rfl
  have hstop : stopsNumber secRest := by
    intro c hc
    simp [hsecRest] at hc
    subst hc; decide
  have hsec : strtodA (e.sec ++ secRest) = .ok (some (sec, secRest, false)) := by
    unfold strtodA
    rw [if_pos (by simp [hsecRest]), ← hn2, strtod_numeral n hn1 _ hstop, hn4]
  obtain ⟨pre, hpl, hpre⟩ : ∃ pre, pre.length = 31 ∧ e.line = pre ++ e.flag :: (e.nsat ++ e.tail) := by
    refine ⟨'>' :: ' ' :: (e.year ++ ' ' :: (e.month ++ ' ' :: (e.day ++ ' ' :: (e.hour ++ ' ' :: (e.min ++ ' ' :: (e.sec ++ [' ', ' '])))))), ?_, ?_⟩
    · simp [ly, lmo, ld, lh, lmi, lsec]
    · unfold EpochText.line; simp
  have h31 : getAt (e.line ++ NUL :: tail) 31 = .ok e.flag := by
    apply getAt_left
    rw [hpre, List.getElem?_append_right (by omega)]
    simp [hpl]
  have h32 : (e.line ++ NUL :: tail).drop 32 = e.nsat ++ (e.tail ++ NUL :: tail) := by
    rw [hpre, show 32 = pre.length + 1 by omega]
    simp
  have h41 : (e.line ++ NUL :: tail).drop 41 = e.tail.drop 6 ++ NUL :: tail := by
    have : (e.line ++ NUL :: tail).drop 41 = ((e.line ++ NUL :: tail).drop 32).drop 9 := by rw [List.drop_drop]
    rw [this, h32, List.drop_append, lns]
    simp only [show 9 - 3 = 6 by rfl]
    rw [List.drop_of_length_le (by omega), List.nil_append, drop_line (by omega)]
  have hns : strtolA (e.nsat ++ (e.tail ++ NUL :: tail)) = .ok (some ((nsat : Int), e.tail ++ NUL :: tail, false)) := by
    apply strtol_cols hs.nsatIs (by decide) _ (by simp)
    intro c hc
    cases ht : e.tail with
    | nil => rw [ht] at h6; simp at h6
    | cons a as =>
      rw [ht] at hc hb; simp at hc hb
      subst hc; rw [hb]; decide
  have hval : toInt32 (nsat : Int) = nsat := hs.nsatIs.int32 (by decide)
  have hbl : stringIsEmpty (e.tail.drop 6 ++ NUL :: tail) none = .ok false := by
    rw [C07_is_empty _ _ (fun hm => hnul (List.mem_of_mem_drop hm))]
    exact congrArg Res.ok (decide_eq_false hnb)
  have hcka : strtodA (e.tail.drop 6 ++ NUL :: tail) = .ok ck := by
    unfold strtodA; rw [if_pos (by simp), hck]
  have hend := strtodEnd_le ck hck
  have hsum : ((h : Rat) * 60 + mi) * 60 + sec = (h : Rat) * 3600 + mi * 60 + sec := by ring
  have hflag' : ((flag : Nat) : Int) = scharVal e.flag - 48 := hflag.symm
  unfold resolveEpoch
  rw [cstrOf_append hcl, Res.bind_ok, getAt_left (l := e.line) (c := '>') (i := 0) rfl, Res.bind_ok]
  rw [if_neg (by rw [hlen]; simp), hints, Res.bind_ok]
  simp only [hm, Res.bind_ok, hsec, h31, hns, strtodVal, strtodErr, h32, strtolErr, strtolVal, hval, Bool.false_eq_true, if_false]
  rw [if_neg (by simp), if_neg (by simp [strtolEnd, hsecRest, lns, lsec]; omega), if_pos (by rw [hlen]; omega), h41, hbl, Res.bind_ok, hcka, Res.bind_ok]
  have hl2 : (e.sec ++ secRest).length ≠ (strtodEnd (e.tail.drop 6 ++ NUL :: tail) ck).length := by
    simp only [List.length_append, List.length_cons, List.length_drop] at hend
    simp only [hsecRest, List.length_append, List.length_cons, lns, lsec]
    omega
  simp only [Bool.false_eq_true, if_false]
  rcases ck with _ | ⟨v, r, er⟩
  · rw [if_neg (by rintro (⟨_, hx⟩ | hx); exact absurd hx (by simp); exact hl2 hx)]
    simp [hflag', ← hsum, Res.noexcept, Res.pure_eq]
  · cases er with
    | true => rw [if_pos (Or.inl ⟨by simp, rfl⟩)]; rfl
    | false =>
      rw [if_neg (by rintro (⟨_, hx⟩ | hx); exact absurd hx (by simp); exact hl2 hx)]
      simp [hflag', ← hsum, Res.noexcept, Res.pure_eq]

/-- **C43**: a receiver clock offset that does not fit a `double` is reported by status 5. -/
theorem C43_clock_range {mjdOf : Int → Int → Int → Res Int} {e : EpochText} {y mo d h mi flag nsat : Nat} {sec : Rat}
    (hs : ({ e with tail := [] } : EpochText).Says y mo d h mi sec flag nsat none) {mjd : Int} (hm : mjdOf y mo d = .ok mjd) (tail : List Char)
    (h6 : 6 < e.tail.length) (hb : e.tail.head? = some ' ') (hnul : NUL ∉ e.tail) {n : Numeral} {rest : List Char} (hn : n.Shape)
    (htxt : e.tail.drop 6 = n.text ++ rest) (hst : stopsNumber rest) (hbig : ¬ FitsDouble n.value) :
    resolveEpoch mjdOf (e.line ++ NUL :: tail) 0 = .ok (.inl (5, 0)) := by
  have hnb : ¬ ∀ c ∈ e.tail.drop 6, c = ' ' := by
    intro hb
    obtain ⟨x, hx, hxd⟩ : ∃ x ∈ e.tail.drop 6, x.isDigit = true := by
      rw [htxt]
      have ht : ∀ x, (x ∈ n.ip ∨ x ∈ n.fracDigits) → x ∈ n.text := by
        intro x hx
        unfold Numeral.text
        rcases hx with hx | hx
        · simp [hx]
        · have : x ∈ n.fracText := by
            unfold Numeral.fracText; unfold Numeral.fracDigits at hx
            cases hf : n.frac with
            | none => simp [hf] at hx
            | some ds => simp [hf] at hx; simp [hx]
          simp [this]
      rcases hn.nonempty with hne | hne
      · obtain ⟨x, xs, hx⟩ := List.exists_cons_of_ne_nil hne
        exact ⟨x, by simp [ht x (Or.inl (by rw [hx]; simp))], hn.ip x (by rw [hx]; simp)⟩
      · obtain ⟨x, xs, hx⟩ := List.exists_cons_of_ne_nil hne
        exact ⟨x, by simp [ht x (Or.inr (by rw [hx]; simp))], hn.frac x (by rw [hx]; simp)⟩
    rw [hb x hx] at hxd
    revert hxd; decide
  have hck : strtod (e.tail.drop 6 ++ NUL :: tail) = some (n.value, rest ++ NUL :: tail, true) := by
    rw [htxt, List.append_assoc, strtod_shape n hn _ (head_append_nul rest tail _ hst (by decide)), (dblErange_iff _).2 hbig]
  rw [resolveEpoch_clock hs hm tail h6 hb hnul hnb hck]
  rfl

/-- **C43** disagreement: a receiver clock offset that is not a number is not reported; the clock is taken to be 0. -/
theorem C43_clock_unread {mjdOf : Int → Int → Int → Res Int} {e : EpochText} {y mo d h mi flag nsat : Nat} {sec : Rat}
    (hs : ({ e with tail := [] } : EpochText).Says y mo d h mi sec flag nsat none) {mjd : Int} (hm : mjdOf y mo d = .ok mjd) (tail : List Char)
    {k : Nat} {x : Char} {rest : List Char} (hb : e.tail.head? = some ' ') (hnul : NUL ∉ e.tail)
    (htxt : e.tail.drop 6 = List.replicate k ' ' ++ x :: rest) (hx1 : isSpace x = false) (hx2 : x.isDigit = false) (hx3 : x ∉ c!"+-.iInN") :
    resolveEpoch mjdOf (e.line ++ NUL :: tail) 0 = .ok (.inr ⟨mjd, (h : Rat) * 3600 + mi * 60 + sec, flag, nsat, some 0⟩) := by
  have h6 : 6 < e.tail.length := by
    by_contra hno
    rw [List.drop_eq_nil_of_le (by omega)] at htxt
    simp at htxt
  have hnb : ¬ ∀ c ∈ e.tail.drop 6, c = ' ' := by
    intro hh
    have := hh x (by rw [htxt]; simp)
    rw [this] at hx1; revert hx1; decide
  have hck : strtod (e.tail.drop 6 ++ NUL :: tail) = none := by
    rw [htxt, List.append_assoc, List.cons_append, strtod_notNumber hx1 hx2 hx3]
  rw [resolveEpoch_clock hs hm tail h6 hb hnul hnb hck]
  rfl

/-- **C40**: a value that does not fit a `double` is refused with status 1 — the text of the value is the longest number from the first column
on, which may go on into the flag columns. -/
theorem C40_range_refused {x : List Char} (hx : NUL ∉ x) {n : Numeral} {rest : List Char} (hn : n.Shape) (htxt : x = n.text ++ rest)
    (hst : stopsNumber rest) (hbig : ¬ FitsDouble n.value) (hb : n.blanks < 14) (o : RawRnxObs) :
    rawResolve (x ++ [NUL]) o 0 = .ok (1, { o with val := n.value }, 0) := by
  have hck : strtodA (x ++ [NUL]) = .ok (some (n.value, rest ++ [NUL], true)) := by
    unfold strtodA
    rw [if_pos (by simp), htxt, List.append_assoc, strtod_shape n hn _ (head_append_nul rest [] _ hst (by decide)), (dblErange_iff _).2 hbig]
  unfold rawResolve
  rw [C07_is_empty _ _ hx, Res.bind_ok, if_neg]
  · rw [hck]; rfl
  · intro hall
    have hall := of_decide_eq_true hall
    have hbody : ∃ c r, signText n.sign ++ (n.ip ++ (n.fracText ++ n.expText)) = c :: r ∧ c ≠ ' ' := by
      rcases hs : n.sign with _ | _ | _
      · simp only [signText, List.nil_append]
        rcases hip : n.ip with _ | ⟨d, ds⟩
        · rcases hn.nonempty with h | h
          · exact absurd hip h
          · unfold Numeral.fracText; unfold Numeral.fracDigits at h
            cases hf : n.frac with
            | none => simp [hf] at h
            | some ds => exact ⟨'.', _, rfl, by decide⟩
        · refine ⟨d, _, rfl, ?_⟩
          rintro rfl
          have := hn.ip ' ' (by rw [hip]; simp)
          revert this; decide
      · exact ⟨_, _, rfl, by decide⟩
      · exact ⟨_, _, rfl, by decide⟩
    obtain ⟨c, r, hc, hne⟩ := hbody
    have hmem : c ∈ x.take 14 := by
      rw [htxt]; unfold Numeral.text
      rw [hc]
      apply List.mem_iff_getElem?.2
      refine ⟨n.blanks, ?_⟩
      rw [List.getElem?_take_of_lt hb, List.append_assoc, List.getElem?_append_right (by simp)]
      simp
    exact hne (hall c hmem)

end Ggnss
