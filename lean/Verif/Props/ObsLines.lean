import Verif.Spec.ObsLines
import Verif.Props.ObsBad
import Verif.Props.ObsSound
import Verif.Props.BernSound
import Verif.Props.NavSound
/-! # C101: observations that were read stand in the file -/
namespace Ggnss

theorem rawResolve_text {x : List Char} (hx : x.length = 16) (hn : NUL ∉ x) (o : RawRnxObs) :
    ∃ st o', rawResolve (x ++ [NUL]) o 0 = .ok (st, o', 0) ∧
      ((st = 0 ∧ (∀ c ∈ x.take 14, c = ' ') ∧ o'.val = MISSING) ∨ (st = 0 ∧ (¬ ∀ c ∈ x.take 14, c = ' ') ∧ NumberIn x o'.val) ∨
        (st = 1 ∧ (¬ ∀ c ∈ x.take 14, c = ' ') ∧ NoNumberIn x)) := by
  unfold rawResolve
  rw [C07_is_empty _ _ hn, Res.bind_ok]
  by_cases hb : ∀ c ∈ x.take 14, c = ' '
  · rw [if_pos (by exact decide_eq_true hb)]
    exact ⟨_, _, rfl, Or.inl ⟨rfl, hb, rfl⟩⟩
  · rw [if_neg (by intro h; exact hb (of_decide_eq_true h))]
    unfold strtodA
    rw [if_pos (by simp), Res.bind_ok]
    rcases strtod_line x [] with ⟨v, r, e, hv⟩ | ⟨e | ⟨v, r, e⟩, hno⟩
    · rw [e]
      simp only [ne_eq, not_true_eq_false, Bool.false_eq_true, or_self, if_false]
      rw [getAt_lt (by simp; omega), getAt_lt (by simp; omega)]
      exact ⟨_, _, rfl, Or.inr (Or.inl ⟨rfl, hb, hv⟩)⟩
    · rw [e]
      exact ⟨_, _, rfl, Or.inr (Or.inr ⟨rfl, hb, hno⟩)⟩
    · rw [e]
      simp only [or_true, if_true]
      exact ⟨_, _, rfl, Or.inr (Or.inr ⟨rfl, hb, hno⟩)⟩

theorem collectParts_text {l buf : List Char} (hl : NUL ∉ l) : ∀ (prs : IdPairs) (v : Rat) (st : Int) (t : List Char) (o : RawRnxObs), IsTbuf t →
    (∃ xs st' t' o', collectParts (fillLine buf l) l.length prs v st t o 0 = .ok (.inr (codeSum xs v, st', t', o', 0)) ∧ IsTbuf t' ∧ PartsGive l prs xs ∧ st' ≤ st) ∨
    (collectParts (fillLine buf l) l.length prs v st t o 0 = .ok (.inl 0) ∧ ∃ pr ∈ prs, FieldFails l pr.1) := by
  intro prs
  induction prs with
  | nil => intro v st t o ht; exact Or.inl ⟨[], st, t, o, rfl, ht, .nil, le_refl _⟩
  | cons pr prs ih =>
    intro v st t o ht
    have step : ∀ (x : Option Rat) (v' : Rat) (st' : Int) (t' : List Char) (o' : RawRnxObs), FieldGives l pr.1 x → codeSum [(x, pr.2)] v = v' → st' ≤ st → IsTbuf t' →
        collectParts (fillLine buf l) l.length (pr :: prs) v st t o 0 = collectParts (fillLine buf l) l.length prs v' st' t' o' 0 →
        (∃ xs st' t' o', collectParts (fillLine buf l) l.length (pr :: prs) v st t o 0 = .ok (.inr (codeSum xs v, st', t', o', 0)) ∧ IsTbuf t' ∧
          PartsGive l (pr :: prs) xs ∧ st' ≤ st) ∨
        (collectParts (fillLine buf l) l.length (pr :: prs) v st t o 0 = .ok (.inl 0) ∧ ∃ q ∈ pr :: prs, FieldFails l q.1) := by
      intro x v' st' t' o' hx hv' hst ht' he
      rcases ih v' st' t' o' ht' with ⟨xs, st2, t2, o2, k1, k2, k3, k4⟩ | ⟨k1, q, hq, k2⟩
      · refine Or.inl ⟨(x, pr.2) :: xs, st2, t2, o2, ?_, k2, .cons ⟨hx, rfl⟩ k3, by omega⟩
        rw [he, k1, ← hv', ← codeSum_append]
        rfl
      · exact Or.inr ⟨by rw [he, k1], q, by simp [hq], k2⟩
    by_cases hlen : 3 + 16 * pr.1 + 16 ≤ l.length
    · obtain ⟨hcp, h16⟩ := fieldCols_copy (buf := buf) hlen ht
      have hcs : NUL ∉ fieldCols l pr.1 := fun hm => hl (List.mem_of_mem_drop (List.mem_of_mem_take hm))
      obtain ⟨r, o', e, hcase⟩ := rawResolve_text h16 hcs o
      have hrun : collectParts (fillLine buf l) l.length (pr :: prs) v st t o 0 =
          if r ≠ 0 then .ok (.inl 0) else if o'.val ≠ MISSING then collectParts (fillLine buf l) l.length prs (v + o'.val * pr.2) st (fieldCols l pr.1 ++ [NUL]) o' 0
            else collectParts (fillLine buf l) l.length prs MISSING (st - 1) (fieldCols l pr.1 ++ [NUL]) o' 0 := by
        rw [collectParts]
        rw [if_pos (by omega), hcp, Res.bind_ok, e, Res.bind_ok]
        rfl
      rcases hcase with ⟨rfl, hb, hv⟩ | ⟨rfl, hb, hv⟩ | ⟨rfl, hb, hno⟩
      · rw [if_neg (by simp), if_neg (by simp [hv])] at hrun
        exact step none _ _ _ _ (.absent fun h => h.2 hb) rfl (by omega) (IsTbuf.new h16) hrun
      · rw [if_neg (by simp)] at hrun
        by_cases hm : o'.val = MISSING
        · rw [if_neg (by simp [hm])] at hrun
          exact step none _ _ _ _ (.marker ⟨hlen, hb⟩ (by rw [← MISSING_eq, ← hm]; exact hv)) rfl (by omega) (IsTbuf.new h16) hrun
        · rw [if_pos hm] at hrun
          exact step (some o'.val) _ _ _ _ (.value _ ⟨hlen, hb⟩ hv (by rw [← MISSING_eq]; exact hm)) rfl (le_refl _) (IsTbuf.new h16) hrun
      · rw [if_pos (by simp)] at hrun
        exact Or.inr ⟨hrun, pr, by simp, ⟨hlen, hb⟩, hno⟩
    · have hrun : collectParts (fillLine buf l) l.length (pr :: prs) v st t o 0 = collectParts (fillLine buf l) l.length prs MISSING st t { o with val := MISSING } 0 := by
        rw [collectParts]
        rw [if_neg (by omega)]
      exact step none _ _ _ _ (.absent fun h => hlen h.1) rfl (le_refl _) ht hrun

theorem collectObs_text {l buf : List Char} (hl : NUL ∉ l) : ∀ (sysobs : List IdPairs) (k : Nat) (vals : List Rat) (st : Int) (t : List Char) (o : RawRnxObs),
    IsTbuf t → k + sysobs.length ≤ vals.length →
    (∃ xss st', st' ≤ st ∧ List.Forall₂ (PartsGive l) sysobs xss ∧ collectObs (fillLine buf l) l.length sysobs k vals st t o 0 =
      .ok (st', vals.take k ++ xss.map (codeSum · 0) ++ vals.drop (k + sysobs.length), 0)) ∨
    (∃ vals', collectObs (fillLine buf l) l.length sysobs k vals st t o 0 = .ok (2, vals', 0) ∧ vals'.length = vals.length ∧
      ∃ prs ∈ sysobs, ∃ pr ∈ prs, FieldFails l pr.1) := by
  intro sysobs
  induction sysobs with
  | nil =>
    intro k vals st t o ht hk
    exact Or.inl ⟨[], st, le_refl _, .nil, by simp [collectObs]⟩
  | cons prs sysobs ih =>
    intro k vals st t o ht hk
    simp only [List.length_cons] at hk
    rcases collectParts_text (buf := buf) hl prs 0 st t o ht with ⟨xs, st1, t', o', e, ht', hg, hst1⟩ | ⟨e, pr, hpr, hf⟩
    · rw [collectObs, e, Res.bind_ok]
      simp only
      unfold valStore
      rw [if_pos (by omega), Res.bind_ok]
      rcases ih (k + 1) (vals.set k (codeSum xs 0)) st1 t' o' ht' (by simp; omega) with ⟨xss, st', hst, hx, e2⟩ | ⟨vals', e2, e3, q, hq, e4⟩
      · refine Or.inl ⟨xs :: xss, st', by omega, .cons hg hx, ?_⟩
        rw [e2]
        have a1 : (vals.set k (codeSum xs 0)).take (k + 1) = vals.take k ++ [codeSum xs 0] := by
          rw [List.take_add_one, List.take_set_of_le (by omega)]
          congr 1
          rw [List.getElem?_set_self (by omega)]; rfl
        have a2 : (vals.set k (codeSum xs 0)).drop (k + 1 + sysobs.length) = vals.drop (k + (sysobs.length + 1)) := by
          rw [List.drop_set_of_lt (by omega)]; congr 1; omega
        rw [a1, a2]
        simp
      · exact Or.inr ⟨vals', e2, by simpa using e3, q, by simp [hq], e4⟩
    · rw [collectObs, e, Res.bind_ok]
      exact Or.inr ⟨vals, rfl, rfl, prs, by simp, pr, hpr, hf⟩

/-- The two columns of the satellite number, in the buffer. -/
theorem satText {l buf : List Char} (hne : l ≠ []) (h3 : 3 ≤ (fillLine buf l).length) :
    ∃ c1 c2 t, getAt (fillLine buf l) 1 = .ok c1 ∧ getAt (fillLine buf l) 2 = .ok c2 ∧ c1 :: c2 :: List.replicate 15 NUL = (l.drop 1).take 2 ++ NUL :: t := by
  match l, hne with
  | [a], _ =>
    have h3' : 2 < (fillLine buf [a]).length := by omega
    exact ⟨NUL, _, _, rfl, getAt_lt h3', rfl⟩
  | [a, b], _ => exact ⟨b, NUL, List.replicate 15 NUL, rfl, rfl, rfl⟩
  | a :: b :: c :: l', _ => exact ⟨b, c, List.replicate 14 NUL, rfl, rfl, rfl⟩

theorem smallInt {t : List Char} {v : Int} (h : IntBegins t v) (ht : t.length ≤ 2) : -100 < v ∧ v < 100 := by
  obtain ⟨ws, sg, ds, rest, rfl, _, _, _, h4, _, rfl⟩ := h
  have hd : ds.length ≤ 2 := by simp only [List.length_append] at ht; omega
  have := ofDigitChars_lt ds 0 h4
  have h100 : (10 : Nat) ^ ds.length ≤ 10 ^ 2 := Nat.pow_le_pow_right (by omega) hd
  have : Nat.ofDigitChars 10 ds 0 < 100 := by omega
  split <;> omega

/-- A line of a requested system, whatever it looks like. -/
theorem satEpochCollect_text {l buf : List Char} (hl : NUL ∉ l) (hne : l ≠ []) (h3 : 3 ≤ (fillLine buf l).length) {sysobs : List IdPairs} {vals : List Rat}
    (hv : sysobs.length ≤ vals.length) (raw0 : RawRnxObs) :
    (∃ st p xss, st ≤ 0 ∧ SatNumber l p ∧ List.Forall₂ (PartsGive l) sysobs xss ∧
      satEpochCollect raw0 (fillLine buf l) sysobs vals 0 = .ok (st, p, xss.map (codeSum · 0) ++ vals.drop sysobs.length, 0)) ∨
    (∃ st p vals', 0 < st ∧ satEpochCollect raw0 (fillLine buf l) sysobs vals 0 = .ok (st, p, vals', 0) ∧ vals'.length = vals.length ∧
      ((∀ p, ¬ SatNumber l p) ∨ ∃ q, SatNumber l q ∧ ∃ prs ∈ sysobs, ∃ pr ∈ prs, FieldFails l pr.1)) := by
  obtain ⟨c1, c2, t, k1, k2, k3⟩ := satText (buf := buf) hne h3
  have hp : strtolA (c1 :: c2 :: List.replicate 15 NUL) = .ok (strtol ((l.drop 1).take 2 ++ NUL :: t)) := by
    rw [← k3]; unfold strtolA; rw [if_pos (by simp)]
  have hlen2 : ((l.drop 1).take 2).length ≤ 2 := by simp
  have small : ∀ v : Int, -100 < v → v < 100 → toInt32 v = v := fun v h1 h2 => toInt32_small (by omega) (by omega)
  rcases strtol_text ((l.drop 1).take 2) t with ⟨e, hno⟩ | ⟨v, r, e, hv', _, _⟩ | ⟨w, r, e, v, hv', hbig⟩
  · rw [e] at hp
    refine Or.inr ⟨1, toInt32 (strtolVal none), vals, by decide, ?_, rfl, Or.inl fun p hp => hno p hp.1⟩
    unfold satEpochCollect
    simp only [k1, k2, hp, Res.bind_ok]
    rfl
  · rw [e] at hp
    obtain ⟨s1, s2⟩ := smallInt hv' hlen2
    by_cases hr : 1 ≤ v ∧ v ≤ 99
    · have hnot : ¬ (((0 : Int) ≠ 0 ∨ (some (v, r, false)) = (none : Option (Int × List Char × Bool))) ∨ v < 1 ∨ v > 99) := by
        simp; omega
      rcases collectObs_text (buf := buf) hl sysobs 0 vals 0 (c1 :: c2 :: List.replicate 15 NUL) raw0 ⟨by simp, by simp⟩ (by omega) with
        ⟨xss, st, hst, hx, e2⟩ | ⟨vals', e2, e3, e4⟩
      · refine Or.inl ⟨st, v, xss, hst, ⟨hv', hr⟩, hx, ?_⟩
        have := satEpochCollect_eq k1 k2 hp (errno := 0) (e' := 0) (prn := v) rfl (small v s1 s2) hnot (cstrOf_fill hl) e2
        simpa using this
      · refine Or.inr ⟨2, v, vals', by decide, ?_, e3, Or.inr ⟨v, ⟨hv', hr⟩, e4⟩⟩
        exact satEpochCollect_eq k1 k2 hp (errno := 0) (e' := 0) (prn := v) rfl (small v s1 s2) hnot (cstrOf_fill hl) e2
    · refine Or.inr ⟨1, toInt32 v, vals, by decide, ?_, rfl, Or.inl fun p hp => ?_⟩
      · unfold satEpochCollect
        simp only [k1, k2, hp, Res.bind_ok, strtolErr, strtolVal, Bool.false_eq_true, if_false]
        rw [if_pos (by right; rw [small v s1 s2]; omega)]
        rfl
      · rw [hp.1.unique hv'] at hp
        exact hr hp.2
  · have := smallInt hv' hlen2
    omega

/-- The data lines of an epoch, whatever they look like. -/
theorem collectLoop_text {mmap : ReadMap} {raw0 : RawRnxObs} {n : Nat} {t : List Char} (hn : 3 ≤ n) {o : CollectOut} : ∀ (ls : List (List Char)) (i : Nat) (ov : List SatVals)
    (buf : List Char) (s : Stream), (∀ l ∈ ls, LineFits (n - 1) l) → buf.length = n → s.good = true → s.rest = linesText ls ++ t → Room mmap ov →
    collectLoop raw0 mmap ls.length i ov buf s 0 = .ok o →
    o.satobs.length = ov.length ∧
    ((∃ out, LinesGive mmap ls out ∧ o.status = 0 ∧ o.sats = i + out.length ∧ o.strm = s.past ls ∧
        (∀ (j : Nat) (x : SatVals), out[j]? = some x → ∃ e, ov[i + j]? = some e ∧ o.satobs[i + j]? = some (x.1, x.2 ++ e.2.drop x.2.length)) ∧
        (∀ j, j < i ∨ i + out.length ≤ j → o.satobs[j]? = ov[j]?)) ∨
      (∃ out j l, LinesGive mmap (ls.take j) out ∧ ls[j]? = some l ∧ LineFails mmap l ∧ o.status = 1 ∧ o.sats = i + out.length ∧ o.strm = s.past (ls.take (j + 1)) ∧
        (∀ (j : Nat) (x : SatVals), out[j]? = some x → ∃ e, ov[i + j]? = some e ∧ o.satobs[i + j]? = some (x.1, x.2 ++ e.2.drop x.2.length)) ∧
        (∀ e, ov[i + out.length]? = some e → ∃ vals, o.satobs[i + out.length]? = some (e.1, vals) ∧ vals.length = e.2.length) ∧
        (∀ j, j < i ∨ i + out.length < j → o.satobs[j]? = ov[j]?))) := by
  intro ls
  induction ls with
  | nil =>
    intro i ov buf s _ _ _ _ _ h
    simp only [List.length_nil, collectLoop, Res.ok.injEq] at h
    subst h
    exact ⟨rfl, Or.inl ⟨[], .nil, rfl, rfl, by simp [Stream.past_nil], by simp, by simp⟩⟩
  | cons l ls ih =>
    intro i ov buf s hf hb hg hr hroom h
    obtain ⟨hl1, hl2, hl3⟩ := hf l (by simp)
    have hgl := getline_past (n := n) hg hr hl1 hl3
    have hbl : (fillLine buf l).length = n := by simp [fillLine, hb]; omega
    have ih' := fun i ov => ih i ov (fillLine buf l) (s.past [l]) (fun x hx => hf x (by simp [hx])) hbl hg (rest_cons hr)
    rw [List.length_cons, collectLoop, hb, hgl] at h
    simp only at h
    -- a refused line
    have refused : ∀ vals, (∀ e, ov[i]? = some e → vals.length = e.2.length) → LineFails mmap l → ∀ (ov' : List SatVals),
        (ov' = ov ∨ ∃ e, ov[i]? = some e ∧ ov' = ov.set i (e.1, vals)) → o.status = 1 → o.sats = i → o.strm = s.past [l] → o.satobs = ov' →
        o.satobs.length = ov.length ∧
        ((∃ out, LinesGive mmap (l :: ls) out ∧ o.status = 0 ∧ o.sats = i + out.length ∧ o.strm = s.past (l :: ls) ∧
            (∀ (j : Nat) (x : SatVals), out[j]? = some x → ∃ e, ov[i + j]? = some e ∧ o.satobs[i + j]? = some (x.1, x.2 ++ e.2.drop x.2.length)) ∧
            (∀ j, j < i ∨ i + out.length ≤ j → o.satobs[j]? = ov[j]?)) ∨
          (∃ out j q, LinesGive mmap ((l :: ls).take j) out ∧ (l :: ls)[j]? = some q ∧ LineFails mmap q ∧ o.status = 1 ∧ o.sats = i + out.length ∧
            o.strm = s.past ((l :: ls).take (j + 1)) ∧
            (∀ (j : Nat) (x : SatVals), out[j]? = some x → ∃ e, ov[i + j]? = some e ∧ o.satobs[i + j]? = some (x.1, x.2 ++ e.2.drop x.2.length)) ∧
            (∀ e, ov[i + out.length]? = some e → ∃ vals, o.satobs[i + out.length]? = some (e.1, vals) ∧ vals.length = e.2.length) ∧
            (∀ j, j < i ∨ i + out.length < j → o.satobs[j]? = ov[j]?))) := by
      intro vals hv hfail ov' hov h1 h2 h3 h4
      subst h4
      refine ⟨?_, Or.inr ⟨[], 0, l, by simpa using LinesGive.nil, rfl, hfail, h1, by simp [h2], by simpa using h3, by simp, ?_, ?_⟩⟩
      · rcases hov with hov | ⟨e, he, hov⟩ <;> rw [hov]
        simp
      · intro e he
        simp only [List.length_nil, Nat.add_zero] at he ⊢
        rcases hov with hov | ⟨e', he', hov⟩
        · exact ⟨e.2, by rw [hov]; exact he, rfl⟩
        · rw [he] at he'
          cases he'
          obtain ⟨hi, _⟩ := List.getElem?_eq_some_iff.1 he
          exact ⟨vals, by rw [hov, List.getElem?_set_self hi], hv e he⟩
      · intro j hj
        simp only [List.length_nil, Nat.add_zero] at hj
        rcases hov with hov | ⟨e', he', hov⟩ <;> rw [hov]
        rw [List.getElem?_set_ne (by omega)]
    by_cases hsys : ∃ sys, l.head? = some (satsysToChar sys)
    swap
    · have hfail : LineFails mmap l := .system fun sys hs => hsys ⟨sys, hs⟩
      have h0 : 0 < (fillLine buf l).length := by omega
      rw [getAt_lt h0, Res.bind_ok] at h
      have hc : ∀ sys, charToSatsys ((fillLine buf l)[0]) ≠ .ok sys := by
        apply charToSatsys_none
        intro sys hs
        cases l with
        | nil => cases sys <;> simp [fillLine, satsysToChar] at hs <;> revert hs <;> decide
        | cons c cs =>
          apply hsys
          exact ⟨sys, by simpa [fillLine] using hs⟩
      cases hs : charToSatsys ((fillLine buf l)[0]) with
      | ok sys => exact absurd hs (hc sys)
      | _ =>
        rw [hs] at h
        cases h
        exact refused (match ov[i]? with | some e => e.2 | none => []) (fun e he => by rw [he]) hfail ov (Or.inl rfl) rfl rfl rfl rfl
    · obtain ⟨sys, hhead⟩ := hsys
      rw [getAt_fill (l := l) (i := 0) (by rw [← List.head?_eq_getElem?]; exact hhead), Res.bind_ok, charToSatsys_letter] at h
      simp only at h
      cases hm : mmap.lookup sys with
      | none =>
        rw [hm] at h
        simp only at h
        obtain ⟨k1, k2⟩ := ih' i ov hroom h
        refine ⟨k1, ?_⟩
        rcases k2 with ⟨out, a1, a2, a3, a4, a5, a6⟩ | ⟨out, j, q, a1, a2, a3, a4, a5, a6, a7, a8, a9⟩
        · exact Or.inl ⟨out, .skip sys hhead hm a1, a2, a3, by rw [a4, Stream.past_past]; rfl, a5, a6⟩
        · exact Or.inr ⟨out, j + 1, q, by rw [List.take_succ_cons]; exact .skip sys hhead hm a1, by simpa using a2, a3, a4, a5, by rw [a6, Stream.past_past]; rfl, a7, a8, a9⟩
      | some sysobs =>
        rw [hm] at h
        simp only at h
        cases he : ov[i]? with
        | none => rw [he] at h; cases h
        | some e =>
          rw [he] at h
          simp only at h
          obtain ⟨hlt, hei⟩ := List.getElem?_eq_some_iff.1 he
          have hv := hroom e (List.mem_of_getElem? he) _ (lookup_mem hm)
          simp only at hv
          rcases satEpochCollect_text (buf := buf) hl2 (by rintro rfl; simp at hhead) (by omega) hv raw0 with
            ⟨st, p, xss, hst, hp, hx, e1⟩ | ⟨st, p, vals', hst, e1, hlen, hbad⟩
          · rw [e1, Res.bind_ok] at h
            simp only at h
            rw [if_neg (by omega)] at h
            have hsx : sysobs.length = xss.length := hx.length_eq
            have hlen : (xss.map (codeSum · 0) ++ e.2.drop sysobs.length).length = e.2.length := by simp; omega
            obtain ⟨k1, k2⟩ := ih' (i + 1) _ (hroom.set he hlen) h
            refine ⟨by simpa using k1, ?_⟩
            have slots : ∀ (out : List SatVals), (∀ (j : Nat) (x : SatVals), out[j]? = some x → ∃ e',
                (ov.set i ((sys, p), xss.map (codeSum · 0) ++ e.2.drop sysobs.length))[i + 1 + j]? = some e' ∧ o.satobs[i + 1 + j]? = some (x.1, x.2 ++ e'.2.drop x.2.length)) →
                o.satobs[i]? = (ov.set i ((sys, p), xss.map (codeSum · 0) ++ e.2.drop sysobs.length))[i]? →
                ∀ (j : Nat) (x : SatVals), (((sys, p), xss.map (codeSum · 0)) :: out)[j]? = some x → ∃ e, ov[i + j]? = some e ∧ o.satobs[i + j]? = some (x.1, x.2 ++ e.2.drop x.2.length) := by
              intro out h1 h2 j x hx'
              cases j with
              | zero =>
                simp only [List.getElem?_cons_zero, Option.some.injEq] at hx'
                subst hx'
                refine ⟨e, he, ?_⟩
                rw [Nat.add_zero, h2, List.getElem?_set_self hlt]
                simp [hsx]
              | succ j =>
                simp only [List.getElem?_cons_succ] at hx'
                obtain ⟨y, hy1, hy2⟩ := h1 j x hx'
                rw [List.getElem?_set_ne (by omega)] at hy1
                exact ⟨y, by rw [← hy1]; congr 1; omega, by rw [← hy2]; congr 1; omega⟩
            rcases k2 with ⟨out, a1, a2, a3, a4, a5, a6⟩ | ⟨out, j, q, a1, a2, a3, a4, a5, a6, a7, a8, a9⟩
            · refine Or.inl ⟨((sys, p), xss.map (codeSum · 0)) :: out, .sat sys p sysobs xss hhead hm hp hx a1, a2, by rw [a3]; simp; omega, by rw [a4, Stream.past_past]; rfl, ?_, ?_⟩
              · exact slots out a5 (a6 i (Or.inl (by omega)))
              · intro j hj
                simp only [List.length_cons] at hj
                rw [a6 j (by omega), List.getElem?_set_ne (by omega)]
            · refine Or.inr ⟨((sys, p), xss.map (codeSum · 0)) :: out, j + 1, q, by rw [List.take_succ_cons]; exact .sat sys p sysobs xss hhead hm hp hx a1, by simpa using a2, a3, a4,
                by rw [a5]; simp; omega, by rw [a6, Stream.past_past]; rfl, ?_, ?_, ?_⟩
              · exact slots out a7 (a9 i (Or.inl (by omega)))
              · intro y hy
                simp only [List.length_cons] at hy ⊢
                obtain ⟨w, w1, w2⟩ := a8 y (by rw [List.getElem?_set_ne (by omega), ← hy]; congr 1; omega)
                exact ⟨w, by rw [← w1]; congr 1; omega, w2⟩
              · intro j hj
                simp only [List.length_cons] at hj
                rw [a9 j (by omega), List.getElem?_set_ne (by omega)]
          · rw [e1, Res.bind_ok] at h
            simp only at h
            rw [if_pos hst] at h
            have hfail : LineFails mmap l := by
              rcases hbad with hbad | ⟨q, hq, prs, hprs, pr, hpr, hbad⟩
              · exact .number sys sysobs hhead hm hbad
              · exact .field sys sysobs q prs pr hhead hm hq hprs hpr hbad
            cases h
            exact refused vals' (fun y hy => by rw [he] at hy; cases hy; exact hlen) hfail _ (Or.inr ⟨e, he, rfl⟩) rfl rfl rfl rfl

/-- The code of a refused epoch header. -/
theorem resolveEpoch_code {mjdOf : Int → Int → Int → Res Int} {arr : List Char} {e : Int × Int} (h : resolveEpoch mjdOf arr 0 = .ok (.inl e)) : 1 ≤ e.1 ∧ e.1 ≤ 5 := by
  unfold resolveEpoch at h
  have h := Res.noexcept_eq_ok.1 h
  obtain ⟨str, _, h⟩ := Res.bind_eq_ok.1 h
  obtain ⟨c0, _, h⟩ := Res.bind_eq_ok.1 h
  split at h
  · cases h; decide
  obtain ⟨p, _, h⟩ := Res.bind_eq_ok.1 h
  split at h
  swap
  · cases h; decide
  obtain ⟨mjd, _, h⟩ := Res.bind_eq_ok.1 h
  obtain ⟨rs, _, h⟩ := Res.bind_eq_ok.1 h
  split at h
  · cases h; decide
  obtain ⟨c31, _, h⟩ := Res.bind_eq_ok.1 h
  obtain ⟨ns, _, h⟩ := Res.bind_eq_ok.1 h
  simp only at h
  generalize strtolEnd (arr.drop 32) ns = E at h
  generalize (if strtolErr ns = true then ERANGE else 0) = F at h
  split at h
  · cases h; decide
  split at h
  · obtain ⟨blank, _, h⟩ := Res.bind_eq_ok.1 h
    obtain ⟨ck, _, h⟩ := Res.bind_eq_ok.1 h
    generalize (if blank = true then E else strtodEnd (arr.drop 41) ck) = G at h
    split at h
    · cases h; decide
    · cases h
  · cases h

/-- **C101**: an epoch of an observation file, whatever its lines look like (the array `buf` holds the previous line). -/
theorem C101_epoch {mjdOf : Int → Int → Int → Res Int} {raw0 : RawRnxObs} {mmap : ReadMap} {ov : List SatVals} {buf : List Char} {l0 : List Char} {ls : List (List Char)}
    (hfit : ∀ l ∈ l0 :: ls, LineFits (buf.length - 1) l) (hn : 3 ≤ buf.length) {s : Stream} {t : List Char} (hg : s.good = true) (hr : s.rest = linesText (l0 :: ls) ++ t)
    (hroom : Room mmap ov) {o : EpochOut} (hrun : readNextEpoch mjdOf raw0 mmap ov buf s 0 = .ok o) :
    (o.head = none ∧ 21 ≤ o.status ∧ o.status ≤ 25 ∧ o.sats = 0 ∧ o.satobs = ov ∧ o.strm = s.past [l0]) ∨
    ∃ h, o.head = some h ∧ HeaderStands mjdOf l0 (fillLine buf l0) h ∧
      (h.numSats.toNat ≤ ls.length → ∃ k, DataOutcome mmap ls h.numSats.toNat ov o.status o.sats o.satobs k ∧ o.strm = s.past (l0 :: ls.take k)) := by
  obtain ⟨f1, f2, f3⟩ := hfit l0 (by simp)
  have hgl := getline_past (n := buf.length) hg hr f1 f3
  have hbl : (fillLine buf l0).length = buf.length := by simp [fillLine]; omega
  obtain ⟨c, hpk⟩ : ∃ c, s.peek = (some c, s) := by
    cases hc : s.rest with
    | nil => rw [hr, linesText_cons] at hc; simp at hc
    | cons c q => exact ⟨c, Stream.peek_cons hg hc⟩
  unfold readNextEpoch at hrun
  rw [hpk] at hrun
  simp only [hgl] at hrun
  obtain ⟨x, hx, hrun⟩ := Res.bind_eq_ok.1 hrun
  cases x with
  | inl e =>
    cases hrun
    have := resolveEpoch_code hx
    exact Or.inl ⟨rfl, by simp only; omega, by simp only; omega, rfl, rfl, rfl⟩
  | inr h =>
    refine Or.inr ⟨h, ?_⟩
    simp only at hrun
    obtain ⟨r, hcol, hrun⟩ := Res.bind_eq_ok.1 hrun
    have hhead : o.head = some h := by
      split at hrun
      · cases hrun; rfl
      · cases hrun; unfold epochEnd; split <;> rfl
    refine ⟨hhead, C43_sound f2 hx, fun hle => ?_⟩
    have hlen : (ls.take h.numSats.toNat).length = h.numSats.toNat := by simp; omega
    have hr1 : (s.past [l0]).rest = linesText (ls.take h.numSats.toNat) ++ (linesText (ls.drop h.numSats.toNat) ++ t) := by
      rw [rest_cons hr, ← List.append_assoc, ← linesText_append, List.take_append_drop]
    unfold collectEpoch at hcol
    rw [← hlen] at hcol
    obtain ⟨k1, k2⟩ := collectLoop_text hn (ls.take h.numSats.toNat) 0 ov (fillLine buf l0) (s.past [l0]) (fun q hq => hfit q (by simp [List.mem_of_mem_take hq])) hbl hg hr1 hroom hcol
    rcases k2 with ⟨out, a1, a2, a3, a4, a5, a6⟩ | ⟨out, j, q, a1, a2, a3, a4, a5, a6, a7, a8, a9⟩
    · rw [if_neg (by simp [a2])] at hrun
      have heof : r.strm.eof = false := by rw [a4]; exact ((Stream.good_iff s).1 hg).1
      unfold epochEnd at hrun
      rw [if_neg (by simp [heof])] at hrun
      cases hrun
      refine ⟨h.numSats.toNat, ?_, ?_⟩
      · simp only
        rw [a3, Nat.zero_add]
        refine .complete out r.satobs a1 ⟨k1, ?_, ?_⟩
        · intro j x hx; simpa using a5 j x hx
        · intro j hj; exact a6 j (Or.inr (by omega))
      · simp only; rw [a4, Stream.past_past]; rfl
    · rw [if_pos (by simp [a4])] at hrun
      cases hrun
      have hj : j < h.numSats.toNat := by
        rw [← hlen]; exact (List.getElem?_eq_some_iff.1 a2).1
      refine ⟨j + 1, ?_, ?_⟩
      · simp only
        rw [a4, a5, Nat.zero_add]
        refine .refused out r.satobs j q hj ?_ ?_ a3 ⟨k1, ?_, ?_, ?_⟩
        · rwa [List.take_take, Nat.min_eq_left (by omega)] at a1
        · rwa [List.getElem?_take, if_pos hj] at a2
        · intro j x hx; simpa using a7 j x hx
        · intro e he; simpa using a8 e (by simpa using he)
        · intro j hj; exact a9 j (Or.inr (by omega))
      · simp only
        rw [a6, Stream.past_past, List.take_take, Nat.min_eq_left (by omega)]
        rfl

/-! ## No choice -/

theorem FieldGives.unique {l : List Char} {i : Nat} {x y : Option Rat} (ho : ¬ OddNumber (fieldCols l i)) (hx : FieldGives l i x) (hy : FieldGives l i y) : x = y := by
  have key : ∀ {v w : Rat}, NumberIn (fieldCols l i) v → NumberIn (fieldCols l i) w → v = w := fun h1 h2 => (h1.resolve_left ho).1.unique (h2.resolve_left ho).1
  cases hx with
  | absent h =>
    cases hy with
    | absent => rfl
    | marker => rfl
    | value v g => exact absurd g h
  | marker h h2 =>
    cases hy with
    | absent => rfl
    | marker => rfl
    | value v g g2 g3 => exact absurd (key g2 h2) g3
  | value v h h2 h3 =>
    cases hy with
    | absent g => exact absurd h g
    | marker g g2 => exact absurd (key h2 g2) h3
    | value w g g2 g3 => rw [key h2 g2]

theorem FieldGives.not_fails {l : List Char} {i : Nat} {x : Option Rat} (ho : ¬ OddNumber (fieldCols l i)) (hx : FieldGives l i x) (hf : FieldFails l i) : False := by
  have key : ∀ {v : Rat}, NumberIn (fieldCols l i) v → False := fun h => hf.2.resolve_left ho _ (h.resolve_left ho).1 (h.resolve_left ho).2
  cases hx with
  | absent h => exact h hf.1
  | marker h h2 => exact key h2
  | value v h h2 h3 => exact key h2

theorem PartsGive.unique {l : List Char} {prs : IdPairs} (ho : ∀ pr ∈ prs, ¬ OddNumber (fieldCols l pr.1)) : ∀ {xs ys : List (Option Rat × Rat)}, PartsGive l prs xs →
    PartsGive l prs ys → xs = ys := by
  induction prs with
  | nil => intro xs ys hx hy; cases hx; cases hy; rfl
  | cons pr prs ih =>
    intro xs ys hx hy
    cases hx with
    | cons h1 h2 =>
      cases hy with
      | cons g1 g2 =>
        rename_i x _ y _
        have : x = y := Prod.ext (h1.1.unique (ho pr (by simp)) g1.1) (h1.2.trans g1.2.symm)
        rw [this, ih (fun q hq => ho q (by simp [hq])) h2 g2]

theorem obs_unique {l : List Char} {sysobs : List IdPairs} (ho : ∀ prs ∈ sysobs, ∀ pr ∈ prs, ¬ OddNumber (fieldCols l pr.1)) : ∀ {xs ys : List (List (Option Rat × Rat))},
    List.Forall₂ (PartsGive l) sysobs xs → List.Forall₂ (PartsGive l) sysobs ys → xs = ys := by
  induction sysobs with
  | nil => intro xs ys hx hy; cases hx; cases hy; rfl
  | cons prs sysobs ih =>
    intro xs ys hx hy
    cases hx with
    | cons h1 h2 =>
      cases hy with
      | cons g1 g2 => rw [PartsGive.unique (ho prs (by simp)) h1 g1, ih (fun q hq => ho q (by simp [hq])) h2 g2]

theorem obs_not_fails {l : List Char} {sysobs : List IdPairs} {xss : List (List (Option Rat × Rat))} (hx : List.Forall₂ (PartsGive l) sysobs xss) {prs : IdPairs}
    (hp : prs ∈ sysobs) {pr : Nat × Rat} (hpr : pr ∈ prs) (ho : ¬ OddNumber (fieldCols l pr.1)) (hf : FieldFails l pr.1) : False := by
  induction hx with
  | nil => cases hp
  | cons h1 _ ih =>
    rcases List.mem_cons.1 hp with rfl | hp
    · clear ih
      unfold PartsGive at h1
      induction h1 with
      | nil => cases hpr
      | cons g1 _ ih2 =>
        rcases List.mem_cons.1 hpr with rfl | hpr
        · exact g1.1.not_fails ho hf
        · exact ih2 hpr (by simp)
    · exact ih hp

theorem letter_unique {l : List Char} {a b : SatSys} (ha : l.head? = some (satsysToChar a)) (hb : l.head? = some (satsysToChar b)) : a = b := by
  rw [ha] at hb
  have h2 := charToSatsys_letter a
  rw [Option.some.inj hb, charToSatsys_letter] at h2
  exact (Res.ok.inj h2).symm

theorem LinesGive.unique {mmap : ReadMap} {ls : List (List Char)} (ho : ∀ l ∈ ls, PlainLine mmap l) : ∀ {a b : List SatVals}, LinesGive mmap ls a → LinesGive mmap ls b → a = b := by
  induction ls with
  | nil => intro a b ha hb; cases ha; cases hb; rfl
  | cons l ls ih =>
    intro a b ha hb
    have ih' := fun {a b : List SatVals} => @ih (fun q hq => ho q (by simp [hq])) a b
    cases ha with
    | skip sys h1 h2 h3 =>
      cases hb with
      | skip sys' g1 g2 g3 => exact ih' h3 g3
      | sat sys' p sysobs xss g1 g2 g3 g4 g5 =>
        rw [letter_unique h1 g1, g2] at h2
        cases h2
    | sat sys p sysobs xss h1 h2 h3 h4 h5 =>
      cases hb with
      | skip sys' g1 g2 g3 =>
        rw [letter_unique h1 g1, g2] at h2
        cases h2
      | sat sys' p' sysobs' xss' g1 g2 g3 g4 g5 =>
        obtain rfl := letter_unique h1 g1
        rw [h2] at g2
        cases g2
        rw [h3.1.unique g3.1, obs_unique (ho l (by simp) sys sysobs h2 h1) h4 g4, ih' h5 g5]

theorem LinesGive.not_fails {mmap : ReadMap} {ls : List (List Char)} {out : List SatVals} (hx : LinesGive mmap ls out) : ∀ {l : List Char}, l ∈ ls → PlainLine mmap l →
    LineFails mmap l → False := by
  induction hx with
  | nil => intro l hl; cases hl
  | @skip q ls out sys h1 h2 _ ih =>
    intro l hl ho hf
    rcases List.mem_cons.1 hl with rfl | hl
    · cases hf with
      | system g => exact g sys h1
      | number sys' sysobs g1 g2 g3 => rw [letter_unique h1 g1, g2] at h2; cases h2
      | field sys' sysobs p prs pr g1 g2 => rw [letter_unique h1 g1, g2] at h2; cases h2
    · exact ih hl ho hf
  | @sat q ls out sys p sysobs xss h1 h2 h3 h4 _ ih =>
    intro l hl ho hf
    rcases List.mem_cons.1 hl with rfl | hl
    · cases hf with
      | system g => exact g sys h1
      | number sys' sysobs g1 g2 g3 => exact g3 p h3
      | field sys' sysobs' p' prs pr g1 g2 g3 g4 g5 g6 =>
        obtain rfl := letter_unique h1 g1
        rw [h2] at g2
        cases g2
        exact obs_not_fails h4 g4 g5 (ho sys sysobs h2 h1 prs g4 pr g5) g6
    · exact ih hl ho hf

theorem holds_unique {ov a b out : List SatVals} (ha : Holds ov a out) (hb : Holds ov b out) : a = b := by
  apply List.ext_getElem?
  intro i
  rcases Nat.lt_or_ge i out.length with hi | hi
  · obtain ⟨e, h1, h2⟩ := ha.slots i _ (List.getElem?_eq_getElem hi)
    obtain ⟨e', g1, g2⟩ := hb.slots i _ (List.getElem?_eq_getElem hi)
    rw [h1] at g1
    cases g1
    rw [h2, g2]
  · rw [ha.others i hi, hb.others i hi]

/-- **C101**: where no requested field is a hexadecimal number, an infinity or "not a number", the lines leave no choice: status, number of satellites and lines consumed are
determined, and so is the vector, except that the values of the slot a refused line was read into are not. -/
theorem C101_determined {mmap : ReadMap} {ls : List (List Char)} {n : Nat} {ov a b : List SatVals} {st1 st2 : Int} {m1 m2 k1 k2 : Nat}
    (ho : ∀ l ∈ ls.take n, PlainLine mmap l) (h1 : DataOutcome mmap ls n ov st1 m1 a k1) (h2 : DataOutcome mmap ls n ov st2 m2 b k2) :
    st1 = st2 ∧ m1 = m2 ∧ k1 = k2 ∧ (st1 = 0 → a = b) ∧ ∀ j, j ≠ m1 → a[j]? = b[j]? := by
  have mem : ∀ {j l}, j < n → ls[j]? = some l → l ∈ ls.take n := by
    intro j l hj hl
    exact List.mem_of_getElem? (i := j) (by rw [List.getElem?_take, if_pos hj, hl])
  cases h1 with
  | complete out _ a1 a2 =>
    cases h2 with
    | complete out' _ b1 b2 =>
      obtain rfl := LinesGive.unique ho a1 b1
      obtain rfl := holds_unique a2 b2
      exact ⟨rfl, rfl, rfl, fun _ => rfl, fun _ _ => rfl⟩
    | refused out' _ j l hj b1 b2 b3 b4 => exact (a1.not_fails (mem hj b2) (ho l (mem hj b2)) b3).elim
  | refused out _ i q hi a1 a2 a3 a4 =>
    cases h2 with
    | complete out' _ b1 b2 => exact (b1.not_fails (mem hi a2) (ho q (mem hi a2)) a3).elim
    | refused out' _ j l hj b1 b2 b3 b4 =>
      rcases Nat.lt_trichotomy i j with hl | rfl | hl
      · exact (b1.not_fails (List.mem_of_getElem? (i := i) (by rw [List.getElem?_take, if_pos hl, a2])) (ho q (mem hi a2)) a3).elim
      · obtain rfl := LinesGive.unique (fun l hl => ho l (by
          rw [← Nat.min_eq_left (Nat.le_of_lt hi), ← List.take_take] at hl
          exact List.mem_of_mem_take hl)) a1 b1
        refine ⟨rfl, rfl, rfl, fun h => absurd h (by decide), fun j hj => ?_⟩
        rcases Nat.lt_or_ge j out.length with hi | hi
        · obtain ⟨e, h1, h2⟩ := a4.slots j _ (List.getElem?_eq_getElem hi)
          obtain ⟨e', g1, g2⟩ := b4.slots j _ (List.getElem?_eq_getElem hi)
          rw [h1] at g1
          cases g1
          rw [h2, g2]
        · rw [a4.others j (by omega), b4.others j (by omega)]
      · exact (a1.not_fails (List.mem_of_getElem? (i := j) (by rw [List.getElem?_take, if_pos hl, b2])) (ho l (mem hj b2)) b3).elim

/-- **C101**: what is stored for an observable of one part: the number of its field times the coefficient, or the missing-value marker. -/
theorem C101_value {l : List Char} {i : Nat} {c : Rat} {xs : List (Option Rat × Rat)} (h : PartsGive l [(i, c)] xs) :
    (∃ v, FieldGives l i (some v) ∧ codeSum xs 0 = v * c) ∨ (FieldGives l i none ∧ codeSum xs 0 = missingMark) := by
  cases h with
  | cons h1 h2 =>
    cases h2
    rename_i x
    obtain ⟨x, c'⟩ := x
    obtain ⟨h1, rfl⟩ := h1
    cases x with
    | none => exact Or.inr ⟨h1, rfl⟩
    | some v => exact Or.inl ⟨v, h1, by simp [codeSum]⟩

end Ggnss
