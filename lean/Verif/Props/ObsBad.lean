import Verif.Props.ObsRange
import Verif.Props.ObsFile
import Verif.Props.AntexSat
import Verif.Spec.ObsBad
import Verif.Lemmas.BadField
/-!
# C82: malformed lines of an observation file
-/
namespace Ggnss

/-! ## Headers -/

/-- The calendar of the model as a partial function. -/
def Calendar (mjdOf : Int → Int → Int → Res Int) (dayOf : Nat → Nat → Nat → Option Int) : Prop :=
  ∀ y mo d day, dayOf y mo d = some day → mjdOf y mo d = .ok day

theorem resolve_badHead {mjdOf : Int → Int → Int → Res Int} {dayOf : Nat → Nat → Nat → Option Int} (hcal : Calendar mjdOf dayOf) {l : List Char}
    (hl : NUL ∉ l) {st : Int} (h : BadHead dayOf l st) (tail : List Char) : resolveEpoch mjdOf (l ++ NUL :: tail) 0 = .ok (.inl (st, 0)) := by
  cases h with
  | noHead h => exact C43_not_a_header hl h tail 0
  | date pre t h0 h35 hpre h5 hbad hd =>
    rcases hbad with hbad | hbad
    · exact C43_date_unread hl h0 h35 pre hpre h5 hbad hd tail
    · exact C43_date_range hl h0 h35 pre hpre h5 hbad hd tail
  | seconds y mo d day t h hday hbad =>
    obtain ⟨h0, h35, cy, cm, cd, ch, cmi, hh, mi, a1, a2, a3, a4, a5, hd⟩ := h
    refine resolve_ints hl h0 h35 a1 a2 a3 a4 a5 hd (hcal _ _ _ _ hday) tail (rs := strtod (t ++ NUL :: tail)) ?_ ?_
    · unfold strtodA; rw [if_pos (by simp)]
    · rcases strtod_badReal hbad tail with e | ⟨v, r, e⟩
      · exact Or.inr e
      · left; rw [e]; rfl
  | count y mo d day n rest h hday hn hst hbig =>
    obtain ⟨h0, h35, cy, cm, cd, ch, cmi, hh, mi, a1, a2, a3, a4, a5, hd⟩ := h
    exact C43_count_range hl h0 h35 a1 a2 a3 a4 a5 hn hst hd hbig (hcal _ _ _ _ hday) tail
  | clock e y mo d h mi sec flag nsat day he hs hday h6 hb hnul hbig =>
    obtain ⟨n, rest, hn, htxt, hst, hbig⟩ := hbig
    rw [he]
    exact C43_clock_range hs (hcal _ _ _ _ hday) tail h6 hb hnul hn htxt hst hbig

/-! ## Data lines -/

theorem rawResolve_any {x : List Char} (hx : x.length = 16) (hn : NUL ∉ x) (o : RawRnxObs) :
    ∃ st o', rawResolve (x ++ [NUL]) o 0 = .ok (st, o', 0) ∧ (st = 0 ∨ st = 1) := by
  unfold rawResolve
  rw [C07_is_empty _ _ hn, Res.bind_ok]
  split
  · exact ⟨_, _, rfl, Or.inl rfl⟩
  · unfold strtodA
    rw [if_pos (by simp), Res.bind_ok]
    split
    · exact ⟨_, _, rfl, Or.inr rfl⟩
    · split
      · exact ⟨_, _, rfl, Or.inr rfl⟩
      · rw [getAt_lt (by simp; omega), getAt_lt (by simp; omega)]
        exact ⟨_, _, rfl, Or.inl rfl⟩

theorem rawResolve_bad {x : List Char} (hn : NUL ∉ x) (hb : ¬ ∀ c ∈ x.take 14, c = ' ') (hr : BadReal x) (o : RawRnxObs) :
    ∃ o', rawResolve (x ++ [NUL]) o 0 = .ok (1, o', 0) := by
  unfold rawResolve
  rw [C07_is_empty _ _ hn, Res.bind_ok, if_neg (by intro h; exact hb (of_decide_eq_true h))]
  unfold strtodA
  rw [if_pos (by simp), Res.bind_ok]
  rcases strtod_badReal hr [] with e | ⟨v, r, e⟩
  · rw [e]; exact ⟨_, rfl⟩
  · rw [e]; exact ⟨_, rfl⟩

theorem fieldCols_copy {l buf t : List Char} {i : Nat} (h : 3 + 16 * i + 16 ≤ l.length) (ht : IsTbuf t) :
    memcpyAt t 0 (((fillLine buf l).drop (i * 16 + 3)).take 16) = .ok (fieldCols l i ++ [NUL]) ∧ (fieldCols l i).length = 16 := by
  have hx : ((fillLine buf l).drop (i * 16 + 3)).take 16 = fieldCols l i := by
    unfold fieldCols
    rw [drop_take_fill (by omega)]
    congr 2; omega
  have hlen16 : (fieldCols l i).length = 16 := by unfold fieldCols; simp; omega
  exact ⟨by rw [hx]; exact ht.copy hlen16, hlen16⟩

theorem collectParts_zero {l buf : List Char} (hl : NUL ∉ l) : ∀ (prs : IdPairs) (v : Rat) (st : Int) (t : List Char) (o : RawRnxObs), IsTbuf t →
    (∃ v' st' t' o', collectParts (fillLine buf l) l.length prs v st t o 0 = .ok (.inr (v', st', t', o', 0)) ∧ IsTbuf t' ∧
      ¬ ∃ pr ∈ prs, BadValue l pr.1) ∨ collectParts (fillLine buf l) l.length prs v st t o 0 = .ok (.inl 0) := by
  intro prs
  induction prs with
  | nil => intro v st t o ht; exact Or.inl ⟨v, st, t, o, rfl, ht, by simp⟩
  | cons pr prs ih =>
    intro v st t o ht
    unfold collectParts
    simp only
    by_cases hlen : 3 + 16 * pr.1 + 16 ≤ l.length
    · rw [if_pos (by omega)]
      obtain ⟨hcp, h16⟩ := fieldCols_copy (buf := buf) hlen ht
      have hcs : NUL ∉ fieldCols l pr.1 := fun hm => hl (List.mem_of_mem_drop (List.mem_of_mem_take hm))
      rw [hcp, Res.bind_ok]
      by_cases hbad : BadValue l pr.1
      · obtain ⟨o', e⟩ := rawResolve_bad hcs hbad.2.1 hbad.2.2 o
        rw [e, Res.bind_ok, if_pos (by simp)]
        exact Or.inr rfl
      · obtain ⟨r, o', e, hr⟩ := rawResolve_any h16 hcs o
        rw [e, Res.bind_ok]
        simp only
        rcases hr with rfl | rfl
        · rw [if_neg (by simp)]
          split
          · rcases ih (v + o'.val * pr.2) st _ o' (IsTbuf.new h16) with ⟨v', st', t', o'', k1, k2, k3⟩ | k
            · exact Or.inl ⟨v', st', t', o'', k1, k2, by simp only [List.mem_cons, exists_eq_or_imp, not_or]; exact ⟨hbad, k3⟩⟩
            · exact Or.inr k
          · rcases ih MISSING (st - 1) _ o' (IsTbuf.new h16) with ⟨v', st', t', o'', k1, k2, k3⟩ | k
            · exact Or.inl ⟨v', st', t', o'', k1, k2, by simp only [List.mem_cons, exists_eq_or_imp, not_or]; exact ⟨hbad, k3⟩⟩
            · exact Or.inr k
        · rw [if_pos (by decide)]
          exact Or.inr rfl
    · rw [if_neg (by omega)]
      rcases ih MISSING st t { o with val := MISSING } ht with ⟨v', st', t', o'', k1, k2, k3⟩ | k
      · exact Or.inl ⟨v', st', t', o'', k1, k2, by simp only [List.mem_cons, exists_eq_or_imp, not_or]; exact ⟨fun h => hlen h.1, k3⟩⟩
      · exact Or.inr k

theorem collectObs_bad {l buf : List Char} (hl : NUL ∉ l) : ∀ (sysobs : List IdPairs) (k : Nat) (vals : List Rat) (st : Int) (t : List Char)
    (o : RawRnxObs), IsTbuf t → k + sysobs.length ≤ vals.length → (∃ prs ∈ sysobs, ∃ pr ∈ prs, BadValue l pr.1) →
    ∃ vals', collectObs (fillLine buf l) l.length sysobs k vals st t o 0 = .ok (2, vals', 0) ∧ vals'.length = vals.length := by
  intro sysobs
  induction sysobs with
  | nil => intro k vals st t o _ _ h; simp at h
  | cons prs sysobs ih =>
    intro k vals st t o ht hk h
    unfold collectObs
    simp only [List.length_cons] at hk
    rcases collectParts_zero (buf := buf) hl prs 0 st t o ht with ⟨v', st', t', o', e, ht', hno⟩ | e
    · rw [e, Res.bind_ok]
      simp only
      unfold valStore
      rw [if_pos (by omega), Res.bind_ok]
      obtain ⟨q, hq, hqb⟩ := h
      have hq' : q ∈ sysobs := by
        rcases List.mem_cons.1 hq with rfl | h
        · exact absurd hqb hno
        · exact h
      obtain ⟨vals', e2, e3⟩ := ih (k + 1) (vals.set k v') st' t' o' ht' (by simp; omega) ⟨q, hq', hqb⟩
      exact ⟨vals', e2, by simpa using e3⟩
    · rw [e, Res.bind_ok]
      exact ⟨vals, rfl, rfl⟩

/-- The satellite number in the buffer is no satellite number. -/
theorem noSat_number {l buf : List Char} (hne : l ≠ []) (h : NoSatNumber ((l.drop 1).take 2)) (h3 : 3 ≤ (fillLine buf l).length) :
    ∃ c1 c2 p, getAt (fillLine buf l) 1 = .ok c1 ∧ getAt (fillLine buf l) 2 = .ok c2 ∧ strtolA (c1 :: c2 :: List.replicate 15 NUL) = .ok p ∧
      strtolErr p = false ∧ (p = none ∨ toInt32 (strtolVal p) < 1) := by
  match l, hne with
  | [a], _ =>
    have h3' : 2 < (fillLine buf [a]).length := by omega
    refine ⟨NUL, _, none, rfl, getAt_lt h3', ?_, rfl, Or.inl rfl⟩
    rfl
  | [a, b], _ =>
    refine ⟨b, NUL, strtol (b :: NUL :: List.replicate 15 NUL), rfl, rfl, by unfold strtolA; rw [if_pos (by simp)], ?_⟩
    rcases h with h | h | ⟨d, _, h⟩
    · have : strtol ([b] ++ NUL :: List.replicate 15 NUL) = none := strtol_noInt h
      rw [List.singleton_append] at this
      rw [this]; exact ⟨rfl, Or.inl rfl⟩
    · obtain ⟨r, hr⟩ := strtol_nat (tail := List.replicate 15 NUL) h
      have e : strtol (b :: NUL :: List.replicate 15 NUL) = some (0, r, false) := by
        unfold strtolA at hr
        rw [if_pos (by simp)] at hr
        simpa using hr
      rw [e]; exact ⟨rfl, Or.inr (show toInt32 0 < 1 by decide)⟩
    · simp at h
  | a :: b :: c :: l', _ =>
    refine ⟨b, c, strtol (b :: c :: List.replicate 15 NUL), rfl, rfl, by unfold strtolA; rw [if_pos (by simp)], ?_⟩
    simp only [List.drop_succ_cons, List.drop_zero, List.take_succ_cons, List.take_zero] at h
    rcases h with h | h | ⟨d, hd, h⟩
    · have : strtol ([b, c] ++ NUL :: List.replicate 14 NUL) = none := strtol_noInt h
      have e : strtol (b :: c :: List.replicate 15 NUL) = none := this
      rw [e]; exact ⟨rfl, Or.inl rfl⟩
    · obtain ⟨r, hr⟩ := strtol_nat (tail := List.replicate 14 NUL) h
      have e : strtol (b :: c :: List.replicate 15 NUL) = some (0, r, false) := by
        unfold strtolA at hr
        rw [if_pos (by simp)] at hr
        simpa using hr
      rw [e]; exact ⟨rfl, Or.inr (show toInt32 0 < 1 by decide)⟩
    · simp only [List.cons.injEq, and_true] at h
      obtain ⟨rfl, rfl⟩ := h
      have hsp := strtol_spec (ws := []) (by simp) (sg := ['-']) (by simp) (ds := [c]) (by simpa using hd) (by simp)
        (rest := List.replicate 15 NUL) (by simp; decide) _ rfl
      have hn9 : Nat.ofDigitChars 10 [c] 0 < 10 := by
        have := ofDigitChars_lt [c] 0 (by intro x hx; rw [List.mem_singleton.1 hx]; exact hd)
        simpa using this
      generalize hN : Nat.ofDigitChars 10 [c] 0 = N at hsp hn9
      simp only [if_true] at hsp
      have hmm : max LONG_MIN (min LONG_MAX (-(N : Int))) = -(N : Int) := by unfold LONG_MIN LONG_MAX; omega
      have hdd : decide (-(N : Int) < LONG_MIN ∨ LONG_MAX < -(N : Int)) = false := by
        apply decide_eq_false; unfold LONG_MIN LONG_MAX; omega
      rw [hmm, hdd] at hsp
      have e : strtol ('-' :: c :: List.replicate 15 NUL) = some (-(N : Int), List.replicate 15 NUL, false) := by simpa using hsp
      rw [e]
      refine ⟨rfl, Or.inr ?_⟩
      have : ∀ N : Nat, N < 10 → toInt32 (-(N : Int)) < 1 := by decide
      exact this N hn9

theorem collectLoop_split {raw0 : RawRnxObs} {mmap : ReadMap} {b : Nat} : ∀ (a i : Nat) (ov : List SatVals) (buf : List Char) (s : Stream) (e : Int)
    (i' : Nat) (ov' : List SatVals) (buf' : List Char) (s' : Stream) (e' : Int),
    collectLoop raw0 mmap a i ov buf s e = .ok ⟨0, i', ov', buf', s', e'⟩ →
    collectLoop raw0 mmap (a + b) i ov buf s e = collectLoop raw0 mmap b i' ov' buf' s' e' := by
  intro a
  induction a with
  | zero =>
    intro i ov buf s e i' ov' buf' s' e' h
    simp only [collectLoop, Res.ok.injEq, CollectOut.mk.injEq, true_and] at h
    obtain ⟨rfl, rfl, rfl, rfl, rfl⟩ := h
    rw [Nat.zero_add]
  | succ a ih =>
    intro i ov buf s e i' ov' buf' s' e' h
    rw [show a + 1 + b = (a + b) + 1 by omega]
    unfold collectLoop at h
    rw [collectLoop]
    simp only at h ⊢
    cases hc : getAt (fillLine buf (s.getline buf.length).1) 0 with
    | ok c =>
      rw [hc, Res.bind_ok] at h
      rw [Res.bind_ok]
      cases hs : charToSatsys c with
      | ok sys =>
        rw [hs] at h
        simp only at h ⊢
        cases hm : mmap.lookup sys with
        | none =>
          rw [hm] at h
          simp only at h ⊢
          exact ih _ _ _ _ _ _ _ _ _ _ h
        | some sysobs =>
          rw [hm] at h
          simp only at h ⊢
          cases ho : ov[i]? with
          | none => rw [ho] at h; cases h
          | some x =>
            rw [ho] at h
            simp only at h ⊢
            cases hr : satEpochCollect raw0 (fillLine buf (s.getline buf.length).1) sysobs x.2 e with
            | ok r =>
              rw [hr, Res.bind_ok] at h
              rw [Res.bind_ok]
              split at h
              · simp at h
              · rename_i hgt
                rw [if_neg hgt]
                exact ih _ _ _ _ _ _ _ _ _ _ h
            | ub => rw [hr] at h; cases h
            | _ => rw [hr] at h; simp [bind, Res.bind] at h
      | _ => rw [hs] at h; simp at h
    | ub => rw [hc] at h; cases h
    | _ => rw [hc] at h; simp [bind, Res.bind] at h

/-- A malformed line stops the collection of the epoch. -/
theorem collectLoop_badLine {raw0 : RawRnxObs} {mmap : ReadMap} {m i : Nat} {ov : List SatVals} {buf : List Char} {s : Stream} {l t : List Char}
    (hbad : BadLine mmap l) (hl : LineFits (buf.length - 1) l) (h3 : 3 ≤ buf.length) (hg : s.good = true) (hr : s.rest = linesText [l] ++ t)
    (hi : i < ov.length) (hroom : Room mmap ov) :
    ∃ ov', collectLoop raw0 mmap (m + 1) i ov buf s 0 = .ok ⟨1, i, ov', fillLine buf l, s.past [l], 0⟩ ∧ ov'.length = ov.length ∧
      (∃ vals, ov'[i]? = some (ov[i].1, vals) ∧ vals.length = ov[i].2.length) ∧ (∀ j, j ≠ i → ov'[j]? = ov[j]?) := by
  have hgl := getline_past (n := buf.length) hg hr hl.1 hl.2.2
  have hbl : (fillLine buf l).length = buf.length := by have := hl.2.2; simp [fillLine]; omega
  have same : ∃ vals, ov[i]? = some (ov[i].1, vals) ∧ vals.length = ov[i].2.length := ⟨ov[i].2, List.getElem?_eq_getElem hi, rfl⟩
  have setv : ∀ vals : List Rat, vals.length = ov[i].2.length → (ov.set i (ov[i].1, vals)).length = ov.length ∧
      (∃ v, (ov.set i (ov[i].1, vals))[i]? = some (ov[i].1, v) ∧ v.length = ov[i].2.length) ∧ (∀ j, j ≠ i → (ov.set i (ov[i].1, vals))[j]? = ov[j]?) := by
    intro vals hv
    refine ⟨by simp, ⟨vals, List.getElem?_set_self hi, hv⟩, ?_⟩
    intro j hj
    exact List.getElem?_set_ne (Ne.symm hj)
  unfold collectLoop
  rw [hgl]
  simp only
  cases hbad with
  | system h =>
    have h0 : 0 < (fillLine buf l).length := by omega
    rw [getAt_lt h0, Res.bind_ok]
    have hc : ∀ sys, charToSatsys ((fillLine buf l)[0]) ≠ .ok sys := by
      apply charToSatsys_none
      intro sys hs
      cases l with
      | nil => cases sys <;> simp [fillLine, satsysToChar] at hs <;> revert hs <;> decide
      | cons c cs =>
        apply h sys
        simpa [fillLine] using hs
    cases hs : charToSatsys ((fillLine buf l)[0]) with
    | ok sys => exact absurd hs (hc sys)
    | _ => exact ⟨ov, rfl, rfl, same, fun _ _ => rfl⟩
  | number sys sysobs h1 h2 h =>
    rw [getAt_fill (l := l) (i := 0) (by rw [← List.head?_eq_getElem?]; exact h1), Res.bind_ok, charToSatsys_letter]
    simp only [h2, List.getElem?_eq_getElem hi]
    obtain ⟨c1, c2, p, k1, k2, k3, k4, k5⟩ := noSat_number (buf := buf) (by rintro rfl; simp at h1) h (by omega)
    have : satEpochCollect raw0 (fillLine buf l) sysobs ov[i].2 0 = .ok (1, toInt32 (strtolVal p), ov[i].2, 0) := by
      unfold satEpochCollect
      simp only [k1, k2, k3, Res.bind_ok, k4, Bool.false_eq_true, if_false]
      rw [if_pos (by rcases k5 with h | h; exact Or.inl (Or.inr h); exact Or.inr (Or.inl h))]
      rfl
    rw [this, Res.bind_ok]
    simp only
    rw [if_pos (by decide)]
    obtain ⟨a1, a2, a3⟩ := setv ov[i].2 rfl
    exact ⟨_, rfl, a1, a2, a3⟩
  | value sys sysobs prn h1 h2 h3' hp hp1 hp99 hb =>
    rw [getAt_fill (l := l) (i := 0) (by rw [← List.head?_eq_getElem?]; exact h1), Res.bind_ok, charToSatsys_letter]
    simp only [h2, List.getElem?_eq_getElem hi]
    have hv := hroom ov[i] (List.getElem_mem hi) _ (lookup_mem h2)
    simp only at hv
    obtain ⟨vals', e, hlen⟩ : ∃ vals', satEpochCollect raw0 (fillLine buf l) sysobs ov[i].2 0 = .ok (2, prn, vals', 0) ∧
        vals'.length = ov[i].2.length := by
      match l, h3' with
      | a :: b :: c :: l', _ =>
        simp only [List.drop_succ_cons, List.drop_zero, List.take_succ_cons, List.take_zero] at hp
        obtain ⟨r, hr⟩ := strtol_nat (tail := List.replicate 14 NUL) hp
        obtain ⟨vals', e, hlen⟩ := collectObs_bad (buf := buf) hl.2.1 sysobs 0 ov[i].2 0 (b :: c :: List.replicate 15 NUL) raw0
          ⟨by simp, by simp⟩ (by omega) hb
        have hr' : strtolA (b :: c :: List.replicate 15 NUL) = .ok (some ((prn : Int), r, false)) := hr
        have := satEpochCollect_eq (getAt_fill (l := a :: b :: c :: l') (i := 1) rfl) (getAt_fill (l := a :: b :: c :: l') (i := 2) rfl) hr'
          (errno := 0) (e' := 0) (prn := prn) rfl (toInt32_nat (by omega)) (by simp; omega) (cstrOf_fill hl.2.1) e
        exact ⟨vals', by simpa using this, hlen⟩
    rw [e, Res.bind_ok]
    simp only
    rw [if_pos (by decide)]
    obtain ⟨a1, a2, a3⟩ := setv vals' hlen
    exact ⟨_, rfl, a1, a2, a3⟩

/-! ## Calls -/

/-- **C82**: a line that is no readable epoch header.  The call returns 20 plus the number of the defect and
no satellites; the vector is left alone; the stream stands behind the line. -/
theorem C82_header {mjdOf : Int → Int → Int → Res Int} {dayOf : Nat → Nat → Nat → Option Int} (hcal : Calendar mjdOf dayOf) {l : List Char} {st : Int}
    (h : BadHead dayOf l st) (raw0 : RawRnxObs) (mmap : ReadMap) (ov : List SatVals) {buf : List Char} (hl : LineFits (buf.length - 1) l) {s : Stream}
    {t : List Char} (hg : s.good = true) (hr : s.rest = linesText [l] ++ t) :
    ∃ buf', readNextEpoch mjdOf raw0 mmap ov buf s 0 = .ok ⟨20 + st, 0, none, ov, buf', s.past [l], 0⟩ ∧ (2 ≤ buf.length → buf'.length = buf.length) := by
  have hgl := getline_past (n := buf.length) hg hr hl.1 hl.2.2
  have hbl : 2 ≤ buf.length → (fillLine buf l).length = buf.length := by intro h2; have := hl.2.2; simp [fillLine]; omega
  refine ⟨fillLine buf l, ?_, hbl⟩
  have hpk : ∃ c, s.peek = (some c, s) := by
    rw [linesText_one] at hr
    cases l with
    | nil => exact ⟨'\n', Stream.peek_cons hg (by rw [hr]; rfl)⟩
    | cons c cs => exact ⟨c, Stream.peek_cons hg (by rw [hr]; rfl)⟩
  obtain ⟨c, hpk⟩ := hpk
  unfold readNextEpoch
  rw [hpk]
  simp only
  rw [hgl]
  simp only
  have := resolve_badHead hcal hl.2.1 h (buf.drop (l.length + 1))
  rw [show fillLine buf l = l ++ NUL :: buf.drop (l.length + 1) from rfl, this, Res.bind_ok]
  rfl

/-- An epoch with a good header, good data lines `lines`, and then a malformed one that still belongs to it. -/
structure BrokenBlock where
  head : EpochText
  lines : List (List Char)
  bad : List Char

def BrokenBlock.text (b : BrokenBlock) : List Char := linesText (b.head.line :: (b.lines ++ [b.bad]))

/-- What its good part says. -/
structure BrokenSees (mjdOf : Int → Int → Int → Res Int) (mmap : ReadMap) (n : Nat) (b : BrokenBlock) (h : EpochHead) (out : List SatVals) : Prop where
  head : ∃ y mo d hh mi flag nsat : Nat, ∃ sec : Rat, b.head.Says y mo d hh mi sec flag nsat h.clock ∧ mjdOf y mo d = .ok h.mjd ∧
    h.sec = hh * 3600 + mi * 60 + sec ∧ h.flag = flag ∧ h.numSats = nsat ∧ b.lines.length < nsat
  gives : EpochGot mmap b.lines out
  bad : BadLine mmap b.bad
  fit : LineFits (n - 1) b.head.line ∧ (∀ l ∈ b.lines, LineFits (n - 1) l) ∧ LineFits (n - 1) b.bad

/-- **C82**: a malformed data line.  The call returns 31, the header, and the number of satellites before
the malformed line; these are in the first slots of the vector; nothing else has changed but the values
in the slot after them; the stream stands behind the malformed line. -/
theorem C82_data_line {mjdOf : Int → Int → Int → Res Int} {mmap : ReadMap} {b : BrokenBlock} {h : EpochHead} {out : List SatVals}
    (raw0 : RawRnxObs) {ov : List SatVals} {buf : List Char} (hb : BrokenSees mjdOf mmap buf.length b h out) (hn : 3 ≤ buf.length)
    {s : Stream} {t : List Char} (hg : s.good = true) (hr : s.rest = b.text ++ t) (hov : out.length < ov.length) (hroom : Room mmap ov) :
    ∃ ov' buf', readNextEpoch mjdOf raw0 mmap ov buf s 0 =
        .ok ⟨31, out.length, some h, ov', buf', s.past (b.head.line :: (b.lines ++ [b.bad])), 0⟩ ∧
      HoldsUpTo ov ov' out ∧ buf'.length = buf.length ∧ Room mmap ov' := by
  obtain ⟨y, mo, d, hh, mi, flag, nsat, sec, hs, hm, hsec, hfl, hns, hnl⟩ := hb.head
  obtain ⟨f1, f2, f3⟩ := hb.fit.1
  have hhead : h = ⟨h.mjd, (hh : Rat) * 3600 + mi * 60 + sec, flag, nsat, h.clock⟩ := by
    cases h; simp_all
  unfold BrokenBlock.text at hr
  have hgl := getline_past (n := buf.length) hg hr f1 f3
  have hbl : (fillLine buf b.head.line).length = buf.length := by simp [fillLine]; omega
  have hpk : s.peek = (some '>', s) := by
    apply Stream.peek_cons hg
    rw [hr, linesText_cons]; rfl
  have hres : resolveEpoch mjdOf (fillLine buf b.head.line) 0 = .ok (.inr h) := by
    unfold fillLine; rw [C43_header hs hm, ← hhead]
  have hr1 := rest_cons hr
  rw [linesText_append, List.append_assoc] at hr1
  obtain ⟨ov1, buf1, e1, e2, e3, e4, e5⟩ := collectLoop_got (raw0 := raw0) hb.gives hb.fit.2.1 0 ov (fillLine buf b.head.line) (s.past [b.head.line])
    hbl (by omega) hg hr1 (by omega) hroom
  have hroom1 : Room mmap ov1 := by
    have hH : Holds ov ov1 out := ⟨e3, fun j o ho => by simpa using e4 j o ho, fun j hj => e5 j (Or.inr (by omega))⟩
    exact hH.room hroom hb.gives.width
  obtain ⟨m, hm'⟩ : ∃ m, nsat = b.lines.length + (m + 1) := ⟨nsat - b.lines.length - 1, by omega⟩
  obtain ⟨ov2, g1, g2, ⟨vals, g3, g4⟩, g5⟩ := collectLoop_badLine (raw0 := raw0) (m := m) (i := out.length) (ov := ov1) (buf := buf1)
    (s := (s.past [b.head.line]).past b.lines) (t := t) hb.bad (by rw [e2]; exact hb.fit.2.2) (by omega) hg (Stream.past_rest hr1) (by omega) hroom1
  have hloop : collectLoop raw0 mmap nsat 0 ov (fillLine buf b.head.line) (s.past [b.head.line]) 0 =
      .ok ⟨1, out.length, ov2, fillLine buf1 b.bad, s.past (b.head.line :: (b.lines ++ [b.bad])), 0⟩ := by
    rw [hm', collectLoop_split b.lines.length 0 ov _ _ 0 _ _ _ _ _ e1, Nat.zero_add, g1, Stream.past_past, Stream.past_past]
    rfl
  have hout : out.length < ov1.length := by omega
  have hsame : ov1[out.length]? = ov[out.length]? := e5 _ (Or.inr (by omega))
  refine ⟨ov2, fillLine buf1 b.bad, ?_, ⟨by omega, ?_, ?_, ?_⟩, ?_, ?_⟩
  · unfold readNextEpoch
    rw [hpk]
    simp only
    rw [hgl]
    simp only [hres, Res.bind_ok]
    unfold collectEpoch
    rw [hns, Int.toNat_natCast, hloop, Res.bind_ok]
    rfl
  · intro j o ho
    obtain ⟨x, hx1, hx2⟩ := e4 j o ho
    have hj : j < out.length := (List.getElem?_eq_some_iff.1 ho).1
    rw [g5 j (by omega)]
    exact ⟨x, by simpa using hx1, by simpa using hx2⟩
  · intro e he
    rw [List.getElem?_eq_getElem hout] at hsame
    rw [he] at hsame
    injection hsame with hsame
    exact ⟨vals, by rw [g3, hsame], by rw [g4, hsame]⟩
  · intro j hj
    rw [g5 j (by omega), e5 j (Or.inr (by omega))]
  · have := hb.fit.2.2.2.2
    simp [fillLine]; omega
  · intro e he k hk
    obtain ⟨j, hj⟩ := List.mem_iff_getElem?.1 he
    by_cases hjo : j = out.length
    · subst hjo
      rw [g3] at hj
      injection hj with hj
      subst hj
      have := hroom1 ov1[out.length] (List.getElem_mem hout) k hk
      simp only; omega
    · rw [g5 j hjo] at hj
      exact hroom1 e (List.mem_of_getElem? hj) k hk

/-! ## Whole files -/

/-- A piece of an observation file: an epoch, a line that is no readable header, or an epoch broken off by a
malformed data line (the rest of which are lines that are no headers). -/
inductive ObsPiece where
  | epoch (b : ObsEpochBlock)
  | line (l : List Char)
  | broken (b : BrokenBlock)

def ObsPiece.text : ObsPiece → List Char
  | .epoch b => b.text
  | .line l => linesText [l]
  | .broken b => b.text

/-- What a piece deserves: status, header and satellites. -/
inductive PieceSays (mjdOf : Int → Int → Int → Res Int) (dayOf : Nat → Nat → Nat → Option Int) (mmap : ReadMap) (n : Nat) :
    ObsPiece → Int × Option EpochHead × List SatVals → Prop
  | epoch {b h out} : BlockSees mjdOf mmap n b h out → PieceSays mjdOf dayOf mmap n (.epoch b) (0, some h, out)
  | line {l st} : BadHead dayOf l st → LineFits (n - 1) l → PieceSays mjdOf dayOf mmap n (.line l) (20 + st, none, [])
  | broken {b h out} : BrokenSees mjdOf mmap n b h out → PieceSays mjdOf dayOf mmap n (.broken b) (31, some h, out)

/-- What the calls must return, one entry per piece: the status and header of the piece and the number of
its satellites, which are in the first slots of the vector. -/
inductive PieceResults : List SatVals → List (Int × Option EpochHead × List SatVals) → List (Int × Nat × Option EpochHead × List SatVals) →
    List SatVals → Prop
  | nil (ov : List SatVals) : PieceResults ov [] [] ov
  | cons {ov ov' ov'' : List SatVals} {st : Int} {h : Option EpochHead} {out : List SatVals} {rest : List (Int × Option EpochHead × List SatVals)}
      {rs : List (Int × Nat × Option EpochHead × List SatVals)} :
      (if st = 31 then HoldsUpTo ov ov' out else Holds ov ov' out) → PieceResults ov' rest rs ov'' →
      PieceResults ov ((st, h, out) :: rest) ((st, out.length, h, ov') :: rs) ov''

theorem badHead_range {dayOf : Nat → Nat → Nat → Option Int} {l : List Char} {st : Int} (h : BadHead dayOf l st) : 1 ≤ st ∧ st ≤ 5 := by
  cases h <;> decide

theorem holds_nil (ov : List SatVals) : Holds ov ov [] := ⟨rfl, by simp, fun _ _ => rfl⟩

/-- **C82** (whole files): a client that keeps calling `read_next_epoch` on a file in which some lines are
malformed gets one answer per piece, in order — every good epoch is read as if the others were not there
— and then -1 for ever. -/
theorem C82_sequence {mjdOf : Int → Int → Int → Res Int} {dayOf : Nat → Nat → Nat → Option Int} (hcal : Calendar mjdOf dayOf) {mmap : ReadMap}
    (raw0 : RawRnxObs) (k : Nat) :
    ∀ (ps : List ObsPiece) (exp : List (Int × Option EpochHead × List SatVals)) (ov : List SatVals) (buf : List Char) (s : Stream),
    List.Forall₂ (PieceSays mjdOf dayOf mmap buf.length) ps exp → 3 ≤ buf.length → s.good = true →
    s.rest = (ps.map ObsPiece.text).flatten → (∀ x ∈ exp, x.2.2.length < ov.length) → Room mmap ov →
    ∃ rs ov' s', obsReadEpochs mjdOf raw0 mmap (ps.length + k) ov buf s 0 = .ok (rs ++ List.replicate k (-1, 0, none, ov'), s') ∧
      PieceResults ov exp rs ov' ∧ s'.good = true ∧ s'.rest = [] ∧ s'.content = s.content := by
  intro ps
  induction ps with
  | nil =>
    intro exp ov buf s hx _ hg hr _ _
    cases hx
    refine ⟨[], ov, s, ?_, .nil ov, hg, by simpa using hr, rfl⟩
    simpa using obsReadEpochs_eof mjdOf raw0 mmap s 0 hg (by simpa using hr) k ov buf
  | cons b ps ih =>
    intro exp ov buf s hx hn hg hr hlen hroom
    obtain ⟨⟨st, h, out⟩, exp, hb, hx', rfl⟩ := List.forall₂_cons_left_iff.1 hx
    have hr' : s.rest = b.text ++ (ps.map ObsPiece.text).flatten := by simpa using hr
    have hl : out.length < ov.length := hlen (st, h, out) (by simp)
    have step : ∃ ov1 buf1 ls, readNextEpoch mjdOf raw0 mmap ov buf s 0 = .ok ⟨st, out.length, h, ov1, buf1, s.past ls, 0⟩ ∧
        (if st = 31 then HoldsUpTo ov ov1 out else Holds ov ov1 out) ∧ buf1.length = buf.length ∧ Room mmap ov1 ∧ b.text = linesText ls ∧
        ov1.length = ov.length := by
      cases hb with
      | epoch hb =>
        obtain ⟨ov1, buf1, e1, e2, e3⟩ := C57_exact raw0 hb (by omega) hg hr' (by omega) hroom
        exact ⟨ov1, buf1, _, e1, by rw [if_neg (by decide)]; exact e2, e3, e2.room hroom hb.gives.width, rfl, e2.length⟩
      | line hb hf =>
        obtain ⟨buf1, e1, e2⟩ := C82_header hcal hb raw0 mmap ov hf hg hr'
        have := badHead_range hb
        exact ⟨ov, buf1, _, e1, by rw [if_neg (by omega)]; exact holds_nil ov, e2 (by omega), hroom, rfl, rfl⟩
      | broken hb =>
        obtain ⟨ov1, buf1, e1, e2, e3, e4⟩ := C82_data_line raw0 hb hn hg hr' hl hroom
        exact ⟨ov1, buf1, _, e1, by rw [if_pos rfl]; exact e2, e3, e4, rfl, e2.length⟩
    obtain ⟨ov1, buf1, ls, e1, e2, e3, e4, e5, e6⟩ := step
    obtain ⟨rs, ov', s', g1, g2, g3, g4, g5⟩ := ih exp ov1 buf1 (s.past ls) (by rw [e3]; exact hx') (by omega) hg
      (Stream.past_rest (by rw [hr', e5])) (fun x hxm => by rw [e6]; exact hlen x (by simp [hxm])) e4
    refine ⟨(st, out.length, h, ov1) :: rs, ov', s', ?_, .cons e2 g2, g3, g4, g5⟩
    rw [List.length_cons, show ps.length + 1 + k = (ps.length + k) + 1 by omega]
    unfold obsReadEpochs
    rw [e1, Res.bind_ok]
    simp only
    rw [g1, Res.bind_ok]
    rfl

end Ggnss
