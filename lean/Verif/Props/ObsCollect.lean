import Verif.Props.ObsField
/-!
# C39: values collected from a satellite's data line
-/
namespace Ggnss

theorem MISSING_eq : MISSING = missingMark := rfl

theorem fieldCols_full {l : List Char} {i : Nat} (h : (fieldCols l i).length = 16) : 3 + 16 * i + 16 ≤ l.length := by
  unfold fieldCols at h; simp at h; omega

/-- The local array of 17 bytes. -/
def IsTbuf (t : List Char) : Prop := t.length = 17 ∧ t[16]? = some NUL

theorem IsTbuf.copy {t x : List Char} (h : IsTbuf t) (hx : x.length = 16) : memcpyAt t 0 x = .ok (x ++ [NUL]) := by
  obtain ⟨h1, h2⟩ := h
  rw [memcpyAt_ok (by omega)]
  obtain ⟨h3, h4⟩ := List.getElem?_eq_some_iff.1 h2
  rw [hx, List.drop_eq_getElem_cons (by omega)]
  simp [h4, h1]

theorem IsTbuf.new {x : List Char} (hx : x.length = 16) : IsTbuf (x ++ [NUL]) := by
  refine ⟨by simp [hx], ?_⟩
  rw [List.getElem?_append_right (by omega)]
  simp [hx]

theorem collectParts_got {l buf : List Char} (hl : NUL ∉ l) : ∀ (prs : IdPairs) (xs : List (Option Rat × Rat)) (ds : List Int),
    List.Forall₂ (fun (pr : Nat × Rat) (x : (Option Rat × Rat) × Int) => Got l pr.1 x.1.1 x.2 ∧ x.1.2 = pr.2) prs (xs.zip ds) → xs.length = ds.length →
    ∀ (v : Rat) (st : Int) (t : List Char) (o : RawRnxObs), IsTbuf t →
    ∃ t' o', collectParts (fillLine buf l) l.length prs v st t o 0 = .ok (.inr (codeSum xs v, st - ds.sum, t', o', 0)) ∧ IsTbuf t' := by
  intro prs
  induction prs with
  | nil =>
    intro xs ds h hlen v st t o ht
    cases xs with
    | nil =>
      cases ds with
      | nil => exact ⟨t, o, by simp [collectParts, codeSum], ht⟩
      | cons => simp at hlen
    | cons => cases ds with
      | nil => simp at hlen
      | cons => cases h
  | cons pr prs ih =>
    intro xs ds h hlen v st t o ht
    cases xs with
    | nil => simp at h
    | cons x xs =>
    cases ds with
    | nil => simp at h
    | cons d ds =>
    rw [List.zip_cons_cons] at h
    obtain ⟨⟨hg, hc⟩, hrest⟩ := List.forall₂_cons.1 h
    obtain ⟨x, c⟩ := x
    simp only at hg hc
    subst hc
    have ih' := fun v st t o (ht : IsTbuf t) => ih xs ds hrest (by simpa using hlen) v st t o ht
    unfold collectParts
    simp only
    cases hg with
    | short hs =>
      rw [if_neg (by omega)]
      obtain ⟨t', o', e, ht'⟩ := ih' MISSING st t { o with val := MISSING } ht
      refine ⟨t', o', ?_, ht'⟩
      rw [e]; simp [codeSum, MISSING_eq]
    | blank hf hb =>
      rw [if_pos (by omega)]
      have hx : ((fillLine buf l).drop (pr.1 * 16 + 3)).take 16 = fieldCols l pr.1 := by
        unfold fieldCols
        rw [drop_take_fill (by omega)]
        congr 2; omega
      have hlen16 : (fieldCols l pr.1).length = 16 := by unfold fieldCols; simp; omega
      have hcs : NUL ∉ fieldCols l pr.1 := fun hm => hl (List.mem_of_mem_drop (List.mem_of_mem_take hm))
      rw [hx, ht.copy hlen16, Res.bind_ok, rawResolve_blank hcs hb, Res.bind_ok]
      rw [if_neg (by simp), if_neg (by simp)]
      obtain ⟨t', o', e, ht'⟩ := ih' MISSING (st - 1) _ { o with val := MISSING } (IsTbuf.new hlen16)
      refine ⟨t', o', ?_, ht'⟩
      rw [e]; simp [codeSum, MISSING_eq]; ring
    | value f hw ht1 hm =>
      have hlen16 : (fieldCols l pr.1).length = 16 := by rw [ht1]; exact hw.length
      have hf := fieldCols_full hlen16
      rw [if_pos (by omega)]
      have hx : ((fillLine buf l).drop (pr.1 * 16 + 3)).take 16 = fieldCols l pr.1 := by
        unfold fieldCols
        rw [drop_take_fill (by omega)]
        congr 2; omega
      rw [hx, ht.copy hlen16, Res.bind_ok, ht1, rawResolve_field hw, Res.bind_ok]
      simp only []
      rw [if_neg (by simp), if_pos (show f.num.value + signVal f.num.sign * f.spill ≠ MISSING from hm)]
      obtain ⟨t', o', e, ht'⟩ := ih' (v + (f.num.value + signVal f.num.sign * f.spill) * pr.2) st _ _ (ht1 ▸ IsTbuf.new hlen16)
      refine ⟨t', o', ?_, ht'⟩
      rw [e]; simp [codeSum, ObsField.readValue]
    | marker f hw ht1 hm =>
      have hlen16 : (fieldCols l pr.1).length = 16 := by rw [ht1]; exact hw.length
      have hf := fieldCols_full hlen16
      rw [if_pos (by omega)]
      have hx : ((fillLine buf l).drop (pr.1 * 16 + 3)).take 16 = fieldCols l pr.1 := by
        unfold fieldCols
        rw [drop_take_fill (by omega)]
        congr 2; omega
      rw [hx, ht.copy hlen16, Res.bind_ok, ht1, rawResolve_field hw, Res.bind_ok]
      simp only []
      rw [if_neg (by simp), if_neg (show ¬ (f.num.value + signVal f.num.sign * f.spill ≠ MISSING) from not_not.2 hm)]
      obtain ⟨t', o', e, ht'⟩ := ih' MISSING (st - 1) _ _ (ht1 ▸ IsTbuf.new hlen16)
      refine ⟨t', o', ?_, ht'⟩
      rw [e]; simp [codeSum, MISSING_eq]; ring

theorem Got.nonneg {l : List Char} {i : Nat} {x : Option Rat} {d : Int} (h : Got l i x d) : 0 ≤ d := by
  cases h <;> decide

theorem GotAll.split {l : List Char} : ∀ {prs : IdPairs} {xs : List (Option Rat × Rat)}, GotAll l prs xs →
    ∃ ds : List Int, List.Forall₂ (fun (pr : Nat × Rat) (x : (Option Rat × Rat) × Int) => Got l pr.1 x.1.1 x.2 ∧ x.1.2 = pr.2) prs (xs.zip ds) ∧
      xs.length = ds.length ∧ 0 ≤ ds.sum := by
  intro prs
  induction prs with
  | nil => intro xs h; cases h; exact ⟨[], .nil, rfl, by simp⟩
  | cons p prs ih =>
    intro xs h
    obtain ⟨x, xs, ⟨⟨d, hd, hg⟩, hc⟩, hr, rfl⟩ := List.forall₂_cons_left_iff.1 h
    obtain ⟨ds, h1, h2, h3⟩ := ih hr
    exact ⟨d :: ds, by rw [List.zip_cons_cons]; exact .cons ⟨hg, hc⟩ h1, by simp [h2], by simp; omega⟩

theorem collectObs_got {l buf : List Char} (hl : NUL ∉ l) : ∀ (sysobs : List IdPairs) (xss : List (List (Option Rat × Rat))),
    List.Forall₂ (GotAll l) sysobs xss →
    ∀ (k : Nat) (vals : List Rat) (st : Int) (t : List Char) (o : RawRnxObs), IsTbuf t → k + sysobs.length ≤ vals.length →
    ∃ st', st' ≤ st ∧ collectObs (fillLine buf l) l.length sysobs k vals st t o 0 =
      .ok (st', vals.take k ++ xss.map (codeSum · 0) ++ vals.drop (k + sysobs.length), 0) := by
  intro sysobs
  induction sysobs with
  | nil =>
    intro xss h k vals st t o ht hk
    cases h
    exact ⟨st, le_refl _, by simp [collectObs]⟩
  | cons prs sysobs ih =>
    intro xss h k vals st t o ht hk
    obtain ⟨xs, xss, hg, hr, rfl⟩ := List.forall₂_cons_left_iff.1 h
    obtain ⟨ds, h1, h2, h3⟩ := hg.split
    obtain ⟨t', o', e, ht'⟩ := collectParts_got (buf := buf) hl prs xs ds h1 h2 0 st t o ht
    unfold collectObs
    rw [e, Res.bind_ok]
    simp only [List.length_cons] at hk
    simp only
    unfold valStore
    rw [if_pos (by omega), Res.bind_ok]
    obtain ⟨st', hst, e2⟩ := ih xss hr (k + 1) (vals.set k (codeSum xs 0)) (st - ds.sum) t' o' ht' (by simp; omega)
    refine ⟨st', by omega, ?_⟩
    rw [e2]
    have a1 : (vals.set k (codeSum xs 0)).take (k + 1) = vals.take k ++ [codeSum xs 0] := by
      rw [List.take_add_one, List.take_set_of_le (by omega)]
      congr 1
      rw [List.getElem?_set_self (by omega)]; rfl
    have a2 : (vals.set k (codeSum xs 0)).drop (k + 1 + sysobs.length) = vals.drop (k + (sysobs.length + 1)) := by
      rw [List.drop_set_of_lt (by omega)]; congr 1; omega
    rw [a1, a2]
    simp

/-- The function after the satellite number. -/
theorem satEpochCollect_eq {raw0 : RawRnxObs} {buf l : List Char} {sysobs : List IdPairs} {vals : List Rat} {errno e' prn : Int} {c1 c2 : Char}
    {p : Option (Int × List Char × Bool)} {r : Int × List Rat × Int}
    (h1 : getAt buf 1 = .ok c1) (h2 : getAt buf 2 = .ok c2) (hp : strtolA (c1 :: c2 :: List.replicate 15 NUL) = .ok p)
    (he : (if strtolErr p then ERANGE else errno) = e') (hprn : toInt32 (strtolVal p) = prn)
    (hno : ¬ ((e' ≠ 0 ∨ p = none) ∨ prn < 1 ∨ prn > 99)) (hc : cstrOf buf = .ok l)
    (hr : collectObs buf l.length sysobs 0 vals 0 (c1 :: c2 :: List.replicate 15 NUL) raw0 e' = .ok r) :
    satEpochCollect raw0 buf sysobs vals errno = .ok (r.1, prn, r.2.1, r.2.2) := by
  unfold satEpochCollect
  simp only [h1, h2, Res.bind_ok, hp, he, hprn]
  rw [if_neg hno, hc, Res.bind_ok, hr]
  rfl

theorem satEpochCollect_got {l buf : List Char} {prn : Nat} (hl : NUL ∉ l) (hp : NatAt ((l.drop 1).take 2) 0 prn) (h1 : 1 ≤ prn)
    (h99 : prn ≤ 99) (hl3 : 3 ≤ l.length) {sysobs : List IdPairs} {xss : List (List (Option Rat × Rat))}
    (hx : List.Forall₂ (GotAll l) sysobs xss) (vals : List Rat) (hv : sysobs.length ≤ vals.length) (raw0 : RawRnxObs) :
    ∃ st, st ≤ 0 ∧ satEpochCollect raw0 (fillLine buf l) sysobs vals 0 =
      .ok (st, prn, xss.map (codeSum · 0) ++ vals.drop sysobs.length, 0) := by
  match l, hl3 with
  | a :: b :: c :: l', _ =>
    simp only [List.drop_succ_cons, List.drop_zero, List.take_succ_cons, List.take_zero] at hp
    obtain ⟨r, hr⟩ := strtol_nat (tail := List.replicate 14 NUL) hp
    obtain ⟨st, hst, e⟩ := collectObs_got (buf := buf) hl sysobs xss hx 0 vals 0 (b :: c :: List.replicate 15 NUL) raw0
      ⟨by simp, by simp⟩ (by omega)
    refine ⟨st, hst, ?_⟩
    have hr' : strtolA (b :: c :: List.replicate 15 NUL) = .ok (some ((prn : Int), r, false)) := hr
    have := satEpochCollect_eq (getAt_fill (l := a :: b :: c :: l') (i := 1) rfl) (getAt_fill (l := a :: b :: c :: l') (i := 2) rfl) hr'
      (errno := 0) (e' := 0) (prn := prn) rfl (toInt32_nat (by omega)) (by simp; omega) (cstrOf_fill hl) e
    simpa using this

/-- **C39** (exact behaviour).  For a data line with a satellite number in columns 1-2 (0-based), the
values stored are, observable by observable, those of `codeSum` over what is read for the parts;
the status is not positive, values of the vector beyond the requested ones are not touched. -/
theorem C39_collected {l : List Char} {prn : Nat} (hl : NUL ∉ l) (hp : NatAt ((l.drop 1).take 2) 0 prn) (h1 : 1 ≤ prn)
    (h99 : prn ≤ 99) (hl3 : 3 ≤ l.length) {sysobs : List IdPairs} {xss : List (List (Option Rat × Rat))}
    (hx : List.Forall₂ (GotAll l) sysobs xss) (vals : List Rat) (hv : sysobs.length ≤ vals.length) (buf : List Char) (raw0 : RawRnxObs) :
    ∃ st, st ≤ 0 ∧ satEpochCollect raw0 (fillLine buf l) sysobs vals 0 =
      .ok (st, prn, xss.map (codeSum · 0) ++ vals.drop sysobs.length, 0) :=
  satEpochCollect_got hl hp h1 h99 hl3 hx vals hv raw0

/-! ## From the line to what the code reads -/

theorem fieldText_eq {l : List Char} {i : Nat} (h : 3 + 16 * i + 16 ≤ l.length) : fieldText l i = fieldCols l i := by
  unfold fieldText fieldCols
  simp only [List.length_take, List.length_drop]
  rw [show 16 - min 16 (l.length - (3 + 16 * i)) = 0 by omega]
  simp

theorem PlainReading.got {l : List Char} {i : Nat} {x : Option Rat} (h : PlainReading l i x) : ∃ d, 0 ≤ d ∧ Got l i x d := by
  obtain ⟨hr, hx⟩ := h
  cases hr with
  | missing hb =>
    by_cases hf : 3 + 16 * i + 16 ≤ l.length
    · rw [fieldText_eq hf] at hb
      exact ⟨1, by decide, .blank hf hb⟩
    · exact ⟨0, le_refl _, .short (by omega)⟩
  | value f hw ht =>
    obtain ⟨hf, hl, hm⟩ := hx (by simp)
    rw [fieldText_eq hf] at ht
    have hlli : f.lli = ' ' := by
      have : (fieldCols l i)[14]? = some ' ' := by
        unfold fieldCols
        rw [List.getElem?_take_of_lt (by decide), List.getElem?_drop]
        exact hl
      rw [ht] at this
      unfold ObsField.text at this
      rw [List.getElem?_append_right (by rw [hw.width])] at this
      simpa [hw.width] using this
    have hs : f.spill = 0 := by unfold ObsField.spill; rw [if_pos hlli]
    refine ⟨0, le_refl _, ?_⟩
    have hv : f.readValue = f.num.value := by simp [ObsField.readValue, hs]
    have := Got.value (l := l) (i := i) f hw ht (by rw [hv]; simpa using hm)
    rwa [hv] at this

theorem codeSum_none : ∀ (xs : List (Option Rat × Rat)), (∀ x ∈ xs, x.1 = none) → codeSum xs missingMark = missingMark := by
  intro xs
  induction xs with
  | nil => intro _; rfl
  | cons x xs ih =>
    intro h
    obtain ⟨x, c⟩ := x
    have := h (x, c) (by simp)
    simp only at this; subst this
    exact ih (fun y hy => h y (by simp [hy]))

theorem codeSum_ordered : ∀ (xs : List (Option Rat × Rat)) (v : Rat), xs.Pairwise (fun a b => a.1 = none → b.1 = none) →
    codeSum xs v = if xs.any (fun p => p.1.isNone) then missingMark else v + (xs.map (fun p => p.1.getD 0 * p.2)).sum := by
  intro xs
  induction xs with
  | nil => intro v _; simp [codeSum]
  | cons x xs ih =>
    intro v h
    obtain ⟨x, c⟩ := x
    obtain ⟨h1, h2⟩ := List.pairwise_cons.1 h
    cases x with
    | none =>
      simp only [codeSum]
      rw [codeSum_none xs (fun y hy => h1 y hy rfl)]
      simp
    | some x =>
      simp only [codeSum]
      rw [ih _ h2]
      simp only [List.any_cons, Option.isNone_some, Bool.false_or, List.map_cons, Option.getD_some, List.sum_cons]
      split
      · rfl
      · ring

theorem codeSum_combination {xs : List (Option Rat × Rat)} (h : xs.Pairwise (fun a b => a.1 = none → b.1 = none)) :
    codeSum xs 0 = combination xs := by
  rw [codeSum_ordered xs 0 h]; unfold combination; simp

theorem PartsRead.got {l : List Char} {prs : IdPairs} {xs : List (Option Rat × Rat)} (h : PartsRead l prs xs) : GotAll l prs xs :=
  List.Forall₂.imp (fun _ _ hh => ⟨hh.1.got, hh.2⟩) h

/-- **C39**, partial: the value collected for every observable is the linear combination of the field
values of its parts, and the missing-value marker when a part is missing; the satellite number is
that of the line; nothing else of the vector changes.  Missing: fields with LLI digits (C40),
fields whose flag columns were cut off with the trailing blanks of the line
(`C39_shortened_field`), and observables with a present part after a missing one
(`C39_value_after_missing`); in these cases the property fails. -/
theorem C39_satellite_partial {l : List Char} {prn : Nat} (hl : NUL ∉ l) (hp : NatAt ((l.drop 1).take 2) 0 prn) (h1 : 1 ≤ prn)
    (h99 : prn ≤ 99) (hl3 : 3 ≤ l.length) {sysobs : List IdPairs} {xss : List (List (Option Rat × Rat))}
    (hx : List.Forall₂ (PartsRead l) sysobs xss) (ho : ∀ xs ∈ xss, xs.Pairwise (fun a b => a.1 = none → b.1 = none))
    (vals : List Rat) (hv : sysobs.length ≤ vals.length) (buf : List Char) (raw0 : RawRnxObs) :
    ∃ st, st ≤ 0 ∧ satEpochCollect raw0 (fillLine buf l) sysobs vals 0 =
      .ok (st, prn, xss.map combination ++ vals.drop sysobs.length, 0) := by
  obtain ⟨st, hst, e⟩ := satEpochCollect_got (buf := buf) hl hp h1 h99 hl3 (List.Forall₂.imp (fun _ _ h => h.got) hx) vals hv raw0
  refine ⟨st, hst, ?_⟩
  rw [e]
  congr 5
  apply List.map_congr_left
  intro xs hxs
  exact codeSum_combination (ho xs hxs)

/-- **C39** for raw observables (one part each, coefficient 1): the field values themselves, the marker
for the missing ones. -/
theorem C39_raw_observables {l : List Char} {prn : Nat} (hl : NUL ∉ l) (hp : NatAt ((l.drop 1).take 2) 0 prn) (h1 : 1 ≤ prn)
    (h99 : prn ≤ 99) (hl3 : 3 ≤ l.length) {cols : List Nat} {xs : List (Option Rat)}
    (hx : List.Forall₂ (PlainReading l) cols xs) (vals : List Rat) (hv : cols.length ≤ vals.length) (buf : List Char) (raw0 : RawRnxObs) :
    ∃ st, st ≤ 0 ∧ satEpochCollect raw0 (fillLine buf l) (cols.map (fun i => [(i, 1)])) vals 0 =
      .ok (st, prn, xs.map (fun x => x.getD missingMark) ++ vals.drop cols.length, 0) := by
  have hx' : List.Forall₂ (PartsRead l) (cols.map (fun i => [(i, (1 : Rat))])) (xs.map (fun x => [(x, 1)])) := by
    rw [List.forall₂_map_left_iff, List.forall₂_map_right_iff]
    exact List.Forall₂.imp (fun _ _ h => .cons ⟨h, rfl⟩ .nil) hx
  obtain ⟨st, hst, e⟩ := C39_satellite_partial hl hp h1 h99 hl3 hx' (by simp) vals (by simpa using hv) buf raw0
  refine ⟨st, hst, ?_⟩
  rw [e]
  simp only [List.length_map, List.map_map]
  congr 5
  apply List.map_congr_left
  intro x _
  cases x <;> simp [combination]

/-- **C39** disagreement: a present part after a missing one is added to the missing-value marker. -/
theorem C39_value_after_missing {l : List Char} {prn : Nat} (hl : NUL ∉ l) (hp : NatAt ((l.drop 1).take 2) 0 prn) (h1 : 1 ≤ prn)
    (h99 : prn ≤ 99) (hl3 : 3 ≤ l.length) {i j : Nat} {x a b : Rat} (hi : PlainReading l i none) (hj : PlainReading l j (some x))
    (v : Rat) (buf : List Char) (raw0 : RawRnxObs) :
    ∃ st, st ≤ 0 ∧ satEpochCollect raw0 (fillLine buf l) [[(i, a), (j, b)]] [v] 0 = .ok (st, prn, [missingMark + x * b], 0) := by
  have hx : List.Forall₂ (PartsRead l) [[(i, a), (j, b)]] [[(none, a), (some x, b)]] :=
    .cons (.cons ⟨hi, rfl⟩ (.cons ⟨hj, rfl⟩ .nil)) .nil
  obtain ⟨st, hst, e⟩ := C39_collected hl hp h1 h99 hl3 (List.Forall₂.imp (fun _ _ h => h.got) hx) [v] (by simp) buf raw0
  exact ⟨st, hst, by rw [e]; simp [codeSum]⟩

/-- **C39** disagreement: a field at the end of a line, cut off behind its value (its flag columns being
blank), counts as missing. -/
theorem C39_shortened_field {l : List Char} {prn : Nat} (hl : NUL ∉ l) (hp : NatAt ((l.drop 1).take 2) 0 prn) (h1 : 1 ≤ prn)
    (h99 : prn ≤ 99) (hl3 : 3 ≤ l.length) {i : Nat} (hs : l.length < 3 + 16 * i + 16) (v : Rat) (buf : List Char) (raw0 : RawRnxObs) :
    ∃ st, st ≤ 0 ∧ satEpochCollect raw0 (fillLine buf l) [[(i, 1)]] [v] 0 = .ok (st, prn, [missingMark], 0) := by
  have hx : List.Forall₂ (GotAll l) [[(i, 1)]] [[(none, 1)]] := .cons (.cons ⟨⟨0, le_refl _, .short hs⟩, rfl⟩ .nil) .nil
  obtain ⟨st, hst, e⟩ := C39_collected hl hp h1 h99 hl3 hx [v] (by simp) buf raw0
  exact ⟨st, hst, by rw [e]; simp [codeSum]⟩

/-! ## All well-formed fields -/

/-- **C39** (the exact account covers every well-formed field): whenever the columns of observation `i`
have a meaning, there is something the code reads for it. -/
theorem C39_reading_total {l : List Char} {i : Nat} {y : Option Rat} (h : Reads l i y) : ∃ x d, 0 ≤ d ∧ Got l i x d := by
  by_cases hf : 3 + 16 * i + 16 ≤ l.length
  · cases h with
    | missing hb => rw [fieldText_eq hf] at hb; exact ⟨none, 1, by decide, .blank hf hb⟩
    | value f hw ht =>
      rw [fieldText_eq hf] at ht
      by_cases hm : f.readValue = missingMark
      · exact ⟨none, 1, by decide, .marker f hw ht hm⟩
      · exact ⟨some f.readValue, 0, le_refl _, .value f hw ht hm⟩
  · exact ⟨none, 0, le_refl _, .short (by omega)⟩

/-- Only one value can be read. -/
theorem ObsField.text_inj {f g : ObsField} (hf : f.WF) (hg : g.WF) (h : f.text = g.text) : f.readValue = g.readValue := by
  have a := rawResolve_field hf ⟨0, 0, 0⟩
  have b := rawResolve_field hg ⟨0, 0, 0⟩
  rw [h, b] at a
  simp only [Res.ok.injEq, Prod.mk.injEq, RawRnxObs.mk.injEq] at a
  exact a.2.1.1.symm

theorem Got.unique {l : List Char} {i : Nat} {x x' : Option Rat} {d d' : Int} (h : Got l i x d) (h' : Got l i x' d') : x = x' ∧ d = d' := by
  have full : ∀ {f : ObsField}, f.WF → fieldCols l i = f.text → 3 + 16 * i + 16 ≤ l.length := by
    intro f hw ht
    exact fieldCols_full (by rw [ht]; exact hw.length)
  have nb : ∀ {f : ObsField}, f.WF → fieldCols l i = f.text → ¬ ∀ c ∈ (fieldCols l i).take 14, c = ' ' := by
    intro f hw ht; rw [ht]; exact hw.nonblank
  cases h with
  | short hs =>
    cases h' with
    | short => exact ⟨rfl, rfl⟩
    | blank hf => omega
    | marker f hw ht => have := full hw ht; omega
    | value f hw ht => have := full hw ht; omega
  | blank hf hb =>
    cases h' with
    | short => omega
    | blank => exact ⟨rfl, rfl⟩
    | marker f hw ht => exact absurd hb (nb hw ht)
    | value f hw ht => exact absurd hb (nb hw ht)
  | marker f hw ht hm =>
    cases h' with
    | short hs => have := full hw ht; omega
    | blank _ hb => exact absurd hb (nb hw ht)
    | marker => exact ⟨rfl, rfl⟩
    | value g hw' ht' hm' => exact absurd (by rw [← ObsField.text_inj hw hw' (ht.symm.trans ht')]; exact hm) hm'
  | value f hw ht hm =>
    cases h' with
    | short hs => have := full hw ht; omega
    | blank _ hb => exact absurd hb (nb hw ht)
    | marker g hw' ht' hm' => exact absurd (by rw [ObsField.text_inj hw hw' (ht.symm.trans ht')]; exact hm') hm
    | value g hw' ht' hm' => rw [ObsField.text_inj hw hw' (ht.symm.trans ht')]; exact ⟨rfl, rfl⟩

theorem codeSum_present : ∀ (xs : List (Option Rat × Rat)) (v : Rat), (∀ x ∈ xs, x.1 ≠ none) →
    codeSum xs v = v + (xs.map (fun p => p.1.getD 0 * p.2)).sum := by
  intro xs
  induction xs with
  | nil => intro v _; simp [codeSum]
  | cons x xs ih =>
    intro v h
    obtain ⟨x, c⟩ := x
    cases x with
    | none => exact absurd rfl (h (none, c) (by simp))
    | some x =>
      simp only [codeSum]
      rw [ih _ (fun y hy => h y (by simp [hy]))]
      simp; ring

theorem codeSum_append : ∀ (xs ys : List (Option Rat × Rat)) (v : Rat), codeSum (xs ++ ys) v = codeSum ys (codeSum xs v) := by
  intro xs
  induction xs with
  | nil => intro ys v; rfl
  | cons x xs ih =>
    intro ys v
    obtain ⟨x, c⟩ := x
    cases x <;> simp [codeSum, ih]

/-- **C39** (what is stored when parts are missing): the missing-value marker plus the sum of the parts
behind the last missing one. -/
theorem C39_last_missing (ps qs : List (Option Rat × Rat)) (c : Rat) (h : ∀ q ∈ qs, q.1 ≠ none) :
    codeSum (ps ++ (none, c) :: qs) 0 = missingMark + (qs.map (fun p => p.1.getD 0 * p.2)).sum := by
  rw [codeSum_append]
  simp only [codeSum]
  exact codeSum_present qs _ h

/-- A complete field of the line with three decimals (F14.3) that the code does not take for a missing
one: column, value. -/
def FullField (l : List Char) (i : Nat) (y : Rat) : Prop :=
  ∃ f : ObsField, f.WF ∧ fieldText l i = f.text ∧ 3 + 16 * i + 16 ≤ l.length ∧ f.num.fracDigits.length = 3 ∧
    f.readValue ≠ missingMark ∧ y = f.num.value

theorem FullField.reads {l : List Char} {i : Nat} {y : Rat} (h : FullField l i y) : Reads l i (some y) := by
  obtain ⟨f, h1, h2, _, _, _, rfl⟩ := h
  exact .value f h1 h2

theorem FullField.got {l : List Char} {i : Nat} {y : Rat} (h : FullField l i y) : ∃ x, Got l i (some x) 0 ∧ |x - y| ≤ 1 / 1000 := by
  obtain ⟨f, h1, h2, h3, h4, h5, rfl⟩ := h
  rw [fieldText_eq h3] at h2
  refine ⟨f.readValue, .value f h1 h2 h5, ?_⟩
  obtain ⟨a, b⟩ := C40_spill_bound f h1
  rw [h4] at b
  unfold ObsField.readValue
  rw [add_sub_cancel_left, abs_mul, abs_of_nonneg a]
  have : |signVal f.num.sign| = 1 := by rcases f.num.sign with _ | _ | _ <;> simp [signVal]
  rw [this, one_mul]
  norm_num at b ⊢
  exact b.le

/-- **C39** (accuracy, whatever the flags): for an observable whose parts are all complete F14.3 fields,
the value collected differs from the linear combination of the field values by at most a
thousandth of the sum of the absolute coefficients. -/
theorem C39_near {l : List Char} {prs : IdPairs} {ys : List Rat} (h : List.Forall₂ (fun (pr : Nat × Rat) y => FullField l pr.1 y) prs ys) :
    ∃ xs, GotAll l prs xs ∧ |codeSum xs 0 - (List.zipWith (fun y (pr : Nat × Rat) => y * pr.2) ys prs).sum| ≤ (prs.map (fun pr => |pr.2|)).sum / 1000 := by
  have key : ∃ xs, GotAll l prs xs ∧ (∀ x ∈ xs, x.1 ≠ none) ∧
      |(xs.map (fun p => p.1.getD 0 * p.2)).sum - (List.zipWith (fun y (pr : Nat × Rat) => y * pr.2) ys prs).sum| ≤ (prs.map (fun pr => |pr.2|)).sum / 1000 := by
    induction h with
    | nil => exact ⟨[], .nil, by simp, by simp⟩
    | @cons pr y prs ys h1 _ ih =>
      obtain ⟨xs, g1, g2, g3⟩ := ih
      obtain ⟨x, k1, k2⟩ := h1.got
      refine ⟨(some x, pr.2) :: xs, .cons ⟨⟨0, le_refl _, k1⟩, rfl⟩ g1, by simpa using g2, ?_⟩
      simp only [List.map_cons, List.sum_cons, Option.getD_some, List.zipWith_cons_cons]
      have e : |x * pr.2 - y * pr.2| ≤ |pr.2| / 1000 := by
        rw [← sub_mul, abs_mul]
        have := mul_le_mul_of_nonneg_right k2 (abs_nonneg pr.2)
        linarith
      calc _ = |(x * pr.2 - y * pr.2) + ((xs.map (fun p => p.1.getD 0 * p.2)).sum - (List.zipWith (fun y (pr : Nat × Rat) => y * pr.2) ys prs).sum)| := by
              congr 1; ring
        _ ≤ _ := abs_add_le _ _
        _ ≤ _ := add_le_add e g3
        _ = _ := by ring
  obtain ⟨xs, g1, g2, g3⟩ := key
  exact ⟨xs, g1, by rw [codeSum_present xs 0 g2, zero_add]; exact g3⟩

end Ggnss
