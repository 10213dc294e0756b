import Verif.Spec.ObsSeries
import Verif.Props.ObsFate
import Verif.Props.ObsCut
/-! # C116: an observation file with arbitrary lines, read epoch by epoch -/
namespace Ggnss

/-- The satellites `out` are in the vector, from element `i` on. -/
structure PutAt (i : Nat) (ov ov' out : List SatVals) : Prop where
  length : ov'.length = ov.length
  slots : ∀ (j : Nat) (x : SatVals), out[j]? = some x → ∃ e, ov[i + j]? = some e ∧ ov'[i + j]? = some (x.1, x.2 ++ e.2.drop x.2.length)
  others : ∀ j, j < i ∨ i + out.length ≤ j → ov'[j]? = ov[j]?

/-- As `PutAt`, but the element behind them may have other values. -/
structure PutUpTo (i : Nat) (ov ov' out : List SatVals) : Prop where
  length : ov'.length = ov.length
  slots : ∀ (j : Nat) (x : SatVals), out[j]? = some x → ∃ e, ov[i + j]? = some e ∧ ov'[i + j]? = some (x.1, x.2 ++ e.2.drop x.2.length)
  next : ∀ e, ov[i + out.length]? = some e → ∃ vals, ov'[i + out.length]? = some (e.1, vals) ∧ vals.length = e.2.length
  others : ∀ j, j < i ∨ i + out.length < j → ov'[j]? = ov[j]?

theorem PutAt.nil (i : Nat) (ov : List SatVals) : PutAt i ov ov [] := ⟨rfl, by simp, by simp⟩

theorem put_slots {i : Nat} {ov ov' out : List SatVals} {e x : SatVals} (he : ov[i]? = some e)
    (h1 : ∀ (j : Nat) (y : SatVals), out[j]? = some y → ∃ e', (ov.set i (x.1, x.2 ++ e.2.drop x.2.length))[i + 1 + j]? = some e' ∧
      ov'[i + 1 + j]? = some (y.1, y.2 ++ e'.2.drop y.2.length))
    (h2 : ov'[i]? = (ov.set i (x.1, x.2 ++ e.2.drop x.2.length))[i]?) :
    ∀ (j : Nat) (y : SatVals), (x :: out)[j]? = some y → ∃ e, ov[i + j]? = some e ∧ ov'[i + j]? = some (y.1, y.2 ++ e.2.drop y.2.length) := by
  obtain ⟨hlt, _⟩ := List.getElem?_eq_some_iff.1 he
  intro j y hy
  cases j with
  | zero =>
    simp only [List.getElem?_cons_zero, Option.some.injEq] at hy
    subst hy
    refine ⟨e, he, ?_⟩
    rw [Nat.add_zero, h2, List.getElem?_set_self hlt]
  | succ j =>
    simp only [List.getElem?_cons_succ] at hy
    obtain ⟨y', hy1, hy2⟩ := h1 j y hy
    rw [List.getElem?_set_ne (by omega)] at hy1
    exact ⟨y', by rw [← hy1]; congr 1; omega, by rw [← hy2]; congr 1; omega⟩

theorem PutAt.cons {i : Nat} {ov ov' out : List SatVals} {e x : SatVals} (he : ov[i]? = some e)
    (h : PutAt (i + 1) (ov.set i (x.1, x.2 ++ e.2.drop x.2.length)) ov' out) : PutAt i ov ov' (x :: out) where
  length := by simpa using h.length
  slots := put_slots he h.slots (h.others i (Or.inl (by omega)))
  others := by
    intro j hj
    simp only [List.length_cons] at hj
    rw [h.others j (by omega), List.getElem?_set_ne (by omega)]

theorem PutUpTo.cons {i : Nat} {ov ov' out : List SatVals} {e x : SatVals} (he : ov[i]? = some e)
    (h : PutUpTo (i + 1) (ov.set i (x.1, x.2 ++ e.2.drop x.2.length)) ov' out) : PutUpTo i ov ov' (x :: out) where
  length := by simpa using h.length
  slots := put_slots he h.slots (h.others i (Or.inl (by omega)))
  next := by
    intro e' he'
    simp only [List.length_cons] at he' ⊢
    have := h.next e' (by rw [List.getElem?_set_ne (by omega), ← he']; congr 1; omega)
    obtain ⟨vals, h1, h2⟩ := this
    exact ⟨vals, by rw [← h1]; congr 1; omega, h2⟩
  others := by
    intro j hj
    simp only [List.length_cons] at hj
    rw [h.others j (by omega), List.getElem?_set_ne (by omega)]

theorem PutAt.holds {ov ov' out : List SatVals} (h : PutAt 0 ov ov' out) : Holds ov ov' out :=
  ⟨h.length, fun j x hx => by simpa using h.slots j x hx, fun j hj => h.others j (Or.inr (by omega))⟩

theorem PutUpTo.holds {ov ov' out : List SatVals} (h : PutUpTo 0 ov ov' out) : HoldsUpTo ov ov' out :=
  ⟨h.length, fun j x hx => by simpa using h.slots j x hx, fun e he => by simpa using h.next e (by simpa using he), fun j hj => h.others j (Or.inr (by omega))⟩

/-- The stream stands in front of these lines, or behind a last line without newline. -/
def LinesAhead (s : Stream) (ls : List (List Char)) (nl : Bool) : Prop :=
  (s.good = true ∧ s.rest = obsText ls nl ∧ ObsTextOK ls nl) ∨ (ls = [] ∧ nl = false ∧ s.good = false ∧ s.eof = true ∧ s.rest = [])

theorem ObsTextOK.ne {ls : List (List Char)} {nl : Bool} (h : ObsTextOK ls nl) (hl : ls = []) : nl = true := by
  subst hl
  cases nl with
  | true => rfl
  | false => obtain ⟨l, h, _⟩ := h rfl; simp at h

theorem ObsTextOK.tail {l : List Char} {ls : List (List Char)} {nl : Bool} (h : ObsTextOK (l :: ls) nl) (hc : ¬ (ls = [] ∧ nl = false)) : ObsTextOK ls nl := by
  intro hn
  obtain ⟨x, h1, h2⟩ := h hn
  cases ls with
  | nil => exact (hc ⟨rfl, hn⟩).elim
  | cons a as => exact ⟨x, by rw [List.getLast?_cons_cons] at h1; exact h1, h2⟩

theorem LinesAhead.step {s : Stream} {l : List Char} {ls : List (List Char)} {nl : Bool} (h : LinesAhead s (l :: ls) nl) {n : Nat} (hf : LineFits (n - 1) l) :
    s.good = true ∧ s.rest ≠ [] ∧ ∃ s', s.getline n = (l, s') ∧ LinesAhead s' ls nl := by
  rcases h with ⟨hg, hr, hok⟩ | ⟨h, _⟩
  swap
  · cases h
  refine ⟨hg, ?_, ?_⟩
  · rw [hr, obsText]
    split
    · rename_i hc
      obtain ⟨x, h1, h2⟩ := hok hc.2
      rw [hc.1] at h1
      simp only [List.getLast?_singleton, Option.some.injEq] at h1
      subst h1
      exact h2
    · simp
  · rw [obsText] at hr
    by_cases hc : ls = [] ∧ nl = false
    · rw [if_pos hc] at hr
      exact ⟨_, Stream.getline_last hg hr hf.1 hf.2.2, Or.inr ⟨hc.1, hc.2, by simp [Stream.good], rfl, (AtEnd.last hr _).1⟩⟩
    · rw [if_neg hc] at hr
      refine ⟨_, Stream.getline_line hg hr hf.1 hf.2.2, Or.inl ⟨hg, ?_, hok.tail hc⟩⟩
      have h2 : s.rest = linesText [l] ++ obsText ls nl := by rw [hr, linesText_one]; simp
      have := Stream.past_rest h2
      simpa [Stream.past, linesText_one] using this

theorem LinesAhead.atEnd {s : Stream} {nl : Bool} (h : LinesAhead s [] nl) : AtEnd s := by
  rcases h with ⟨hg, hr, _⟩ | ⟨_, _, _, he, hr⟩
  · exact ⟨by simpa [obsText] using hr, Or.inr hg⟩
  · exact ⟨hr, Or.inl he⟩

/-- What a call leaves for the next one. -/
def Intact (mmap : ReadMap) (n : Nat) (o : CollectOut) : Prop := Room mmap o.satobs ∧ o.buf.length = n ∧ o.errno = 0

theorem LinesAhead.eof_iff {s : Stream} {ls : List (List Char)} {nl : Bool} (h : LinesAhead s ls nl) : s.eof = true ↔ ls = [] ∧ nl = false := by
  rcases h with ⟨hg, _, hok⟩ | ⟨h1, h2, _, h3, _⟩
  · have := ((Stream.good_iff s).1 hg).1
    refine ⟨fun h => by simp [this] at h, fun ⟨h1, h2⟩ => ?_⟩
    rw [hok.ne h1] at h2
    cases h2
  · exact ⟨fun _ => ⟨h1, h2⟩, fun _ => h3⟩

theorem LinesAhead.good {s : Stream} {ls : List (List Char)} {nl : Bool} (h : LinesAhead s ls nl) (hc : ¬ (ls = [] ∧ nl = false)) :
    s.good = true ∧ s.rest = obsText ls nl ∧ ObsTextOK ls nl := by
  rcases h with h | ⟨h1, h2, _⟩
  · exact h
  · exact (hc ⟨h1, h2⟩).elim

/-- What the loop over `k` data lines comes to when the file goes on with the lines `ls`. -/
inductive CollectCourse (mmap : ReadMap) (n : Nat) (nl : Bool) (ls : List (List Char)) (k i : Nat) (ov : List SatVals) : Res CollectOut → Prop
  | complete (out ov' buf' s') : k ≤ ls.length → LinesGive mmap (ls.take k) out → PutAt i ov ov' out → Room mmap ov' → buf'.length = n → LinesAhead s' (ls.drop k) nl →
      CollectCourse mmap n nl ls k i ov (.ok ⟨0, i + out.length, ov', buf', s', 0⟩)
  | short (out o) : ls.length < k → LinesGive mmap ls out → PutAt i ov o.satobs out → o.status = 1 → o.sats = i + out.length → Intact mmap n o → AtEnd o.strm →
      CollectCourse mmap n nl ls k i ov (.ok o)
  | refused (out j l o) : j < k → LinesGive mmap (ls.take j) out → i + out.length ≤ ov.length → ls[j]? = some l → LineFails mmap l →
      (Wanted mmap l → i + out.length < ov.length) → PutUpTo i ov o.satobs out → o.status = 1 → o.sats = i + out.length →
      Intact mmap n o → LinesAhead o.strm (ls.drop (j + 1)) nl → CollectCourse mmap n nl ls k i ov (.ok o)
  | full (out j l) : j < k → LinesGive mmap (ls.take j) out → i + out.length = ov.length → ls[j]? = some l → Wanted mmap l → CollectCourse mmap n nl ls k i ov .ub

theorem collectLoop_past {mmap : ReadMap} {raw0 : RawRnxObs} {n i : Nat} {ov : List SatVals} {buf : List Char} {s : Stream} {nl : Bool} (hs : LinesAhead s [] nl)
    (hn : 3 ≤ buf.length) (hroom : Room mmap ov) :
    ∃ o, collectLoop raw0 mmap (n + 1) i ov buf s 0 = .ok o ∧ o.status = 1 ∧ o.sats = i ∧ o.satobs = ov ∧ Intact mmap buf.length o ∧ AtEnd o.strm := by
  obtain ⟨buf', s', h1, h2, _, h3⟩ := collectLoop_atEnd (raw0 := raw0) (mmap := mmap) (i := i) (ov := ov) (buf := buf) hs.atEnd (by omega) n
  exact ⟨⟨1, i, ov, buf', s', 0⟩, h1, rfl, rfl, rfl, ⟨hroom, h3, rfl⟩, h2⟩

theorem collectLoop_course {mmap : ReadMap} {raw0 : RawRnxObs} {nl : Bool} {n : Nat} (hn : 3 ≤ n) : ∀ (ls : List (List Char)) (k i : Nat) (ov : List SatVals)
    (buf : List Char) (s : Stream), (∀ l ∈ ls, LineFits (n - 1) l) → buf.length = n → LinesAhead s ls nl → Room mmap ov →
    i ≤ ov.length → CollectCourse mmap n nl ls k i ov (collectLoop raw0 mmap k i ov buf s 0) := by
  intro ls
  induction ls with
  | nil =>
    intro k i ov buf s _ hb hs hroom _
    cases k with
    | zero =>
      have h := CollectCourse.complete (mmap := mmap) (n := n) (nl := nl) (ls := []) (k := 0) (i := i) (ov := ov) [] ov buf s (by simp) (by simpa using LinesGive.nil)
        (PutAt.nil i ov) hroom hb (by simpa using hs)
      simpa [collectLoop] using h
    | succ k =>
      obtain ⟨o, h1, h2, h3, h4, h5, h6⟩ := collectLoop_past (mmap := mmap) (raw0 := raw0) (n := k) (i := i) (ov := ov) (buf := buf) (s := s) hs (by omega) hroom
      rw [h1]
      exact .short [] o (by simp) .nil (by rw [h4]; exact PutAt.nil i ov) h2 (by simpa using h3) (by rw [← hb]; exact h5) h6
  | cons l ls ih =>
    intro k i ov buf s hf hb hs hroom hi
    cases k with
    | zero =>
      have h := CollectCourse.complete (mmap := mmap) (n := n) (nl := nl) (ls := l :: ls) (k := 0) (i := i) (ov := ov) [] ov buf s (by simp) (by simpa using LinesGive.nil)
        (PutAt.nil i ov) hroom hb (by simpa using hs)
      simpa [collectLoop] using h
    | succ k =>
    obtain ⟨hl1, hl2, hl3⟩ := hf l (by simp)
    obtain ⟨_, _, s', hgl, hs'⟩ := hs.step (hf l (by simp))
    have hbl : (fillLine buf l).length = n := by simp [fillLine, hb]; omega
    have ih' := fun i ov => ih k i ov (fillLine buf l) s' (fun x hx => hf x (by simp [hx])) hbl hs'
    rw [collectLoop, hb, hgl]
    simp only
    by_cases hsys : ∃ sys, l.head? = some (satsysToChar sys)
    swap
    · have hfail : LineFails mmap l := .system fun sys hs => hsys ⟨sys, hs⟩
      have h0 : 0 < (fillLine buf l).length := by omega
      rw [getAt_lt h0, Res.bind_ok]
      have hc : ∀ sys, charToSatsys ((fillLine buf l)[0]) ≠ .ok sys := by
        apply charToSatsys_none
        intro sys hs
        cases l with
        | nil => cases sys <;> simp [fillLine, satsysToChar] at hs <;> revert hs <;> decide
        | cons c cs =>
          apply hsys
          exact ⟨sys, by simpa [fillLine] using hs⟩
      cases hs : charToSatsys ((fillLine buf l)[0]) with
      | ok sys => exact absurd hs (hc sys)
      | _ =>
        exact .refused [] 0 l _ (by omega) (by simpa using LinesGive.nil) (by simpa using hi) rfl hfail (fun ⟨sys, _, h, _⟩ => absurd ⟨sys, h⟩ hsys)
          ⟨rfl, by simp, fun e he => ⟨e.2, he, rfl⟩, fun _ _ => rfl⟩ rfl rfl ⟨hroom, hbl, rfl⟩ hs'
    · obtain ⟨sys, hhead⟩ := hsys
      rw [getAt_fill (l := l) (i := 0) (by rw [← List.head?_eq_getElem?]; exact hhead), Res.bind_ok, charToSatsys_letter]
      simp only
      cases hm : mmap.lookup sys with
      | none =>
        simp only
        have hc := ih' i ov hroom hi
        revert hc
        generalize collectLoop raw0 mmap k i ov (fillLine buf l) s' 0 = r
        intro hc
        cases hc with
        | complete out ov' buf' s2 h1 h2 h3 h4 h5 h6 =>
          have := CollectCourse.complete (nl := nl) (ls := l :: ls) (k := k + 1) out ov' buf' s2 (by simpa using h1) (by rw [List.take_succ_cons]; exact .skip sys hhead hm h2) h3 h4 h5 (by simpa using h6)
          exact this
        | short out o h1 h2 h3 h4 h5 h6 h7 => exact .short out o (by simpa using h1) (.skip sys hhead hm h2) h3 h4 h5 h6 h7
        | refused out j q o h0 h1 h2 h3 h4 h5 h6 h7 h8 h9 h10 =>
          exact .refused out (j + 1) q o (by omega) (by rw [List.take_succ_cons]; exact .skip sys hhead hm h1) h2 (by simpa using h3) h4 h5 h6 h7 h8 h9 h10
        | full out j q h0 h1 h2 h3 h4 => exact .full out (j + 1) q (by omega) (by rw [List.take_succ_cons]; exact .skip sys hhead hm h1) h2 (by simpa using h3) h4
      | some sysobs =>
        simp only
        have hw : Wanted mmap l := ⟨sys, sysobs, hhead, hm⟩
        cases he : ov[i]? with
        | none =>
          have : ov.length ≤ i := List.getElem?_eq_none_iff.1 he
          exact .full [] 0 l (by omega) (by simpa using LinesGive.nil) (by simp; omega) rfl hw
        | some e =>
          simp only
          obtain ⟨hlt, hei⟩ := List.getElem?_eq_some_iff.1 he
          have hv := hroom e (List.mem_of_getElem? he) _ (lookup_mem hm)
          simp only at hv
          rcases satEpochCollect_text (buf := buf) hl2 (by rintro rfl; simp at hhead) (by omega) hv raw0 with
            ⟨st, p, xss, hst, hp, hx, e1⟩ | ⟨st, p, vals', hst, e1, hlen, hbad⟩
          · rw [e1, Res.bind_ok]
            simp only
            rw [if_neg (by omega)]
            have hsx : sysobs.length = (xss.map (codeSum · 0)).length := by simpa using hx.length_eq
            have hlen : (xss.map (codeSum · 0) ++ e.2.drop sysobs.length).length = e.2.length := by simp at hsx ⊢; omega
            have hc := ih' (i + 1) _ (hroom.set he (s := (sys, p)) hlen) (by simp; omega)
            rw [hsx] at hc ⊢
            revert hc
            generalize collectLoop raw0 mmap k (i + 1) _ (fillLine buf l) s' 0 = r
            intro hc
            have put : ∀ {o' out : List SatVals}, PutAt (i + 1) (ov.set i ((sys, p), xss.map (codeSum · 0) ++ e.2.drop (xss.map (codeSum · 0)).length)) o' out →
              PutAt i ov o' (((sys, p), xss.map (codeSum · 0)) :: out) := fun h => PutAt.cons he h
            cases hc with
            | complete out ov' buf' s2 h1 h2 h3 h4 h5 h6 =>
              have := CollectCourse.complete (nl := nl) (ls := l :: ls) (k := k + 1) (((sys, p), xss.map (codeSum · 0)) :: out) ov' buf' s2 (by simpa using h1)
                (by rw [List.take_succ_cons]; exact .sat sys p sysobs xss hhead hm hp hx h2) (put h3) h4 h5 (by simpa using h6)
              simpa [Nat.add_assoc, Nat.add_comm 1] using this
            | short out o h1 h2 h3 h4 h5 h6 h7 => exact .short _ o (by simpa using h1) (.sat sys p sysobs xss hhead hm hp hx h2) (put h3) h4 (by rw [h5, List.length_cons]; omega) h6 h7
            | refused out j q o h0 h1 h2 h3 h4 h5 h6 h7 h8 h9 h10 =>
              simp only [List.length_set] at h2 h5
              exact .refused _ (j + 1) q o (by omega) (by rw [List.take_succ_cons]; exact .sat sys p sysobs xss hhead hm hp hx h1) (by simp; omega) (by simpa using h3) h4
                (fun h => by have := h5 h; simp; omega) (PutUpTo.cons (x := ((sys, p), xss.map (codeSum · 0))) he h6) h7 (by rw [h8, List.length_cons]; omega) h9 h10
            | full out j q h0 h1 h2 h3 h4 =>
              simp only [List.length_set] at h2
              exact .full _ (j + 1) q (by omega) (by rw [List.take_succ_cons]; exact .sat sys p sysobs xss hhead hm hp hx h1) (by simp; omega) (by simpa using h3) h4
          · rw [e1, Res.bind_ok]
            simp only
            rw [if_pos hst]
            have hfail : LineFails mmap l := by
              rcases hbad with hbad | ⟨q, hq, prs, hprs, pr, hpr, hbad⟩
              · exact .number sys sysobs hhead hm hbad
              · exact .field sys sysobs q prs pr hhead hm hq hprs hpr hbad
            refine .refused [] 0 l _ (by omega) (by simpa using LinesGive.nil) (by simpa using hi) rfl hfail (fun _ => by simpa using hlt) ⟨by simp, by simp, ?_, ?_⟩ rfl rfl ⟨hroom.set he hlen, hbl, rfl⟩ hs'
            · intro e' he'
              simp only [List.length_nil, Nat.add_zero] at he' ⊢
              rw [he] at he'
              cases he'
              exact ⟨vals', by rw [List.getElem?_set_self hlt], hlen⟩
            · intro j hj
              simp only [List.length_nil, Nat.add_zero] at hj
              rw [List.getElem?_set_ne (by omega)]

/-- What becomes of the first line: it is refused, gives a header, or names no day. -/
theorem headLine_course {mjdOf : Int → Int → Int → Res Int} (hL : ∀ y m d, (∃ k, mjdOf y m d = .ok k) ∨ ∃ e, mjdOf y m d = .throw e) {l0 : List Char} (hnul : NUL ∉ l0)
    (hh : l0.head? = some '>' → DateInPlace l0 ∧ PlainReals l0) (tail : List Char) :
    (∃ k e, resolveEpoch mjdOf (l0 ++ NUL :: tail) 0 = .ok (.inl (k, e)) ∧ HeaderFails mjdOf l0 k) ∨
    (∃ h, resolveEpoch mjdOf (l0 ++ NUL :: tail) 0 = .ok (.inr h) ∧ HeaderGives mjdOf l0 h) ∨
    (∃ y mo d hh mi rest e, l0.head? = some '>' ∧ 35 ≤ l0.length ∧ DateIn l0 [y, mo, d, hh, mi] rest ∧ mjdOf (toInt32 y) (toInt32 mo) (toInt32 d) = .throw e ∧
      resolveEpoch mjdOf (l0 ++ NUL :: tail) 0 = .terminate) := by
  by_cases hm : l0.head? = some '>'
  · obtain ⟨hin, hpl⟩ := hh hm
    rcases resolveEpoch_text (mjdOf := mjdOf) hnul hin hpl tail with h | h | ⟨y, mo, d, hh, mi, rest, h1, h2, h3, hno, _, hterm⟩
    · exact Or.inl h
    · exact Or.inr (Or.inl h)
    · rcases hL (toInt32 y) (toInt32 mo) (toInt32 d) with ⟨day, hday⟩ | ⟨e, he⟩
      · exact absurd hday (hno day)
      · exact Or.inr (Or.inr ⟨y, mo, d, hh, mi, rest, e, h1, h2, h3, he, hterm e he⟩)
  · exact Or.inl ⟨1, 0, C43_not_a_header hnul (Or.inl hm) tail 0, .mark (Or.inl hm)⟩

theorem obsCalls_stop {mjdOf : Int → Int → Int → Res Int} {raw0 : RawRnxObs} {mmap : ReadMap} {k : Nat} {ov : List SatVals} {buf : List Char} {s : Stream} {errno : Int}
    {r : Res EpochOut} (h : readNextEpoch mjdOf raw0 mmap ov buf s errno = r) (hr : ∀ o, r = .ok o → o.status ≠ 0) :
    obsCalls mjdOf raw0 mmap (k + 1) ov buf s errno = [r] := by
  rw [obsCalls, h]
  cases r with
  | ok o => simp only; rw [if_neg (hr o rfl)]
  | _ => rfl

/-- The first step of reading an epoch: the header line. -/
theorem obsEpoch_step (mjdOf : Int → Int → Int → Res Int) (raw0 : RawRnxObs) (mmap : ReadMap) (ov : List SatVals) {buf l0 : List Char} {s s' : Stream} (hg : s.good = true)
    (hne : s.rest ≠ []) (hgl : s.getline buf.length = (l0, s')) :
    readNextEpoch mjdOf raw0 mmap ov buf s 0 = (resolveEpoch mjdOf (fillLine buf l0) 0 >>= fun x =>
      match x with
      | .inl e => pure ⟨20 + e.1, 0, none, ov, fillLine buf l0, s', e.2⟩
      | .inr h => do
        let r ← collectEpoch raw0 mmap h.numSats ov (fillLine buf l0) s' 0
        if r.status ≠ 0 then pure ⟨30 + r.status, r.sats, some h, r.satobs, r.buf, r.strm, r.errno⟩
        else pure (epochEnd r.sats (some h) r.satobs r.buf r.strm r.errno)) := by
  obtain ⟨c, hpk⟩ : ∃ c, s.peek = (some c, s) := by
    cases hc : s.rest with
    | nil => exact absurd hc hne
    | cons c q => exact ⟨c, Stream.peek_cons hg hc⟩
  unfold readNextEpoch
  rw [hpk]
  simp only [hgl]
  rfl

/-- **C116**: a caller reads an observation file epoch by epoch, while the status is 0.  The answers are those that the lines of the file give: every epoch in front of the
first defect with its header and its satellites, then the end of the file, or what becomes of the defective epoch. -/
theorem C116_file {mjdOf : Int → Int → Int → Res Int} (hL : ∀ y m d, (∃ k, mjdOf y m d = .ok k) ∨ ∃ e, mjdOf y m d = .throw e) (raw0 : RawRnxObs) {mmap : ReadMap} {nl : Bool} :
    ∀ (calls : Nat) (lines : List (List Char)) (ov : List SatVals) (buf : List Char) (s : Stream), (∀ l ∈ lines, LineFits (buf.length - 1) l) → 3 ≤ buf.length →
    HeaderLinesOK lines → s.good = true → s.rest = obsText lines nl → ObsTextOK lines nl → Room mmap ov → lines.length < calls →
    ∃ out, ObsFileSays mjdOf mmap nl lines ov out ∧ List.Forall₂ ObsAnswerSeen out (obsCalls mjdOf raw0 mmap calls ov buf s 0) := by
  intro calls
  induction calls with
  | zero => intro lines _ _ _ _ _ _ _ _ _ _ h; exact absurd h (by omega)
  | succ calls ih =>
    intro lines ov buf s hfit hn hhead hg hr hok hroom hlt
    cases lines with
    | nil =>
      refine ⟨_, .atEnd ov, ?_⟩
      rw [obsCalls_stop (C58_eof mjdOf raw0 mmap ov buf s 0 hg (by simpa [obsText] using hr)) (by rintro o h; cases h; simp)]
      exact .cons ⟨_, rfl, rfl, rfl, rfl⟩ .nil
    | cons l0 ls =>
      have hf0 := hfit l0 (by simp)
      have hs : LinesAhead s (l0 :: ls) nl := Or.inl ⟨hg, hr, hok⟩
      obtain ⟨_, hne, s', hgl, hs'⟩ := hs.step hf0
      have hstep := obsEpoch_step mjdOf raw0 mmap ov hg hne hgl
      have hbl : (fillLine buf l0).length = buf.length := by have := hf0.2.2; simp [fillLine]; omega
      rcases headLine_course hL hf0.2.1 (hhead l0 (by simp)) (buf.drop (l0.length + 1)) with ⟨k, e, h1, h2⟩ | ⟨h, h1, h2⟩ | ⟨y, mo, d, hh, mi, rest, e, h1, h2, h3, h4, h5⟩
      · have h1' : resolveEpoch mjdOf (fillLine buf l0) 0 = .ok (.inl (k, e)) := h1
        rw [h1', Res.bind_ok] at hstep
        have hk := resolveEpoch_code h1'
        refine ⟨_, .header l0 ls ov k h2, ?_⟩
        rw [obsCalls_stop hstep (by rintro o h; cases h; simp only; omega)]
        exact .cons ⟨_, rfl, rfl, rfl, rfl, rfl⟩ .nil
      · have h1' : resolveEpoch mjdOf (fillLine buf l0) 0 = .ok (.inr h) := h1
        rw [h1', Res.bind_ok] at hstep
        simp only at hstep
        unfold collectEpoch at hstep
        have hc := collectLoop_course (mmap := mmap) (raw0 := raw0) hn ls h.numSats.toNat 0 ov (fillLine buf l0) s' (fun q hq => hfit q (by simp [hq])) hbl hs' hroom (by omega)
        revert hc hstep
        generalize collectLoop raw0 mmap h.numSats.toNat 0 ov (fillLine buf l0) s' 0 = r
        intro hstep hc
        cases hc with
        | complete out ov' buf' s2 a1 a2 a3 a4 a5 a6 =>
          rw [Res.bind_ok] at hstep
          simp only [ne_eq, not_true_eq_false, if_false, epochEnd] at hstep
          by_cases hend : ls.drop h.numSats.toNat = [] ∧ nl = false
          · have hle : ls.length ≤ h.numSats.toNat := List.drop_eq_nil_iff.1 hend.1
            rw [if_pos (a6.eof_iff.2 hend)] at hstep
            refine ⟨_, .last l0 ls ov h out ov' h2 (by omega) hend.2 (by rwa [List.take_of_length_le hle] at a2) a3.holds, ?_⟩
            rw [obsCalls_stop hstep (by rintro o h; cases h; simp)]
            exact .cons ⟨_, rfl, rfl, rfl, by simp, rfl⟩ .nil
          · rw [if_neg (fun he => hend (a6.eof_iff.1 he))] at hstep
            obtain ⟨b3, b4, b5⟩ := a6.good hend
            obtain ⟨out', b1, b2⟩ := ih (ls.drop h.numSats.toNat) ov' buf' s2 (fun q hq => by rw [a5]; exact hfit q (by simp [List.mem_of_mem_drop hq])) (by omega)
              (fun q hq => hhead q (by simp [List.mem_of_mem_drop hq])) b3 b4 b5 a4 (by simp at hlt ⊢; omega)
            have hcase : h.numSats.toNat < ls.length ∨ h.numSats.toNat = ls.length ∧ nl = true := by
              rcases Nat.lt_or_ge h.numSats.toNat ls.length with hl | hl
              · exact Or.inl hl
              · refine Or.inr ⟨by omega, ?_⟩
                cases nl with
                | true => rfl
                | false => exact (hend ⟨List.drop_eq_nil_iff.2 hl, rfl⟩).elim
            refine ⟨_, .epoch l0 ls ov h out ov' out' h2 hcase a2 a3.holds b1, ?_⟩
            rw [obsCalls, hstep]
            exact .cons ⟨_, rfl, rfl, rfl, by simp, rfl⟩ b2
        | short out o a1 a2 a3 a4 a5 _ _ =>
          rw [Res.bind_ok, if_pos (by omega)] at hstep
          refine ⟨_, .short l0 ls ov h out o.satobs h2 a1 a2 a3.holds, ?_⟩
          rw [obsCalls_stop hstep (by rintro p hp; cases hp; simp [a4])]
          exact .cons ⟨_, rfl, by simp [a4], rfl, by simpa using a5, rfl⟩ .nil
        | refused out j l o a0 a1 a2 a3 a4 a5 a6 a7 a8 _ _ =>
          rw [Res.bind_ok, if_pos (by omega)] at hstep
          refine ⟨_, .refused l0 ls ov h out o.satobs j l h2 a0 a1 (by omega) a3 a4 (fun hw => by have := a5 hw; omega) a6.holds, ?_⟩
          rw [obsCalls_stop hstep (by rintro p hp; cases hp; simp [a7])]
          exact .cons ⟨_, rfl, by simp [a7], rfl, by simpa using a8, rfl⟩ .nil
        | full out j l a0 a1 a2 a3 a4 =>
          refine ⟨_, .full l0 ls ov h out j l h2 a0 a1 (by omega) a3 a4, ?_⟩
          rw [obsCalls_stop hstep (by rintro p hp; cases hp)]
          exact .cons rfl .nil
      · have h5' : resolveEpoch mjdOf (fillLine buf l0) 0 = .terminate := h5
        rw [h5'] at hstep
        refine ⟨_, .date l0 ls ov y mo d hh mi rest e h1 h2 h3 h4, ?_⟩
        rw [obsCalls_stop hstep (by rintro p hp; cases hp)]
        exact .cons rfl .nil

/-! ## No choice -/

/-- What the first line and the data lines make of the first call. -/
theorem ObsFileSays.fate {mjdOf : Int → Int → Int → Res Int} {mmap : ReadMap} {nl : Bool} {l0 : List Char} {ls : List (List Char)} {ov : List SatVals} {a : ObsAnswer}
    {out : List ObsAnswer} (h : ObsFileSays mjdOf mmap nl (l0 :: ls) ov (a :: out)) :
    ObsFate mjdOf mmap l0 ls ov.length (match (generalizing := false) a with | .undefined => .undefined | .killed => .killed | _ => .returns) := by
  have short : ∀ {ov' out : List SatVals}, Holds ov ov' out → out.length ≤ ov.length := by
    intro ov' out hh
    by_contra hc
    obtain ⟨e, h1, _⟩ := hh.slots ov.length out[ov.length] (List.getElem?_eq_getElem (by omega))
    simp at h1
  cases h with
  | epoch _ _ _ h out ov' rest h1 h2 h3 h4 h5 => exact .data _ _ h1 (.complete _ h3 (short h4))
  | last _ _ _ h out ov' h1 h2 h3 h4 h5 => exact .data _ _ h1 (.complete _ (by rwa [List.take_of_length_le (by omega)]) (short h5))
  | header _ _ _ k h1 => exact .header k h1
  | date _ _ _ y mo d hh mi rest e h1 h2 h3 h4 => exact .date y mo d hh mi rest e h1 h2 h3 h4
  | refused _ _ _ h out ov' j l h1 h2 h3 h4 h5 h6 h7 h8 => exact .data _ _ h1 (.refused _ j l h2 h3 h4 h5 h6 h7)
  | short _ _ _ h out ov' h1 h2 h3 h4 => exact .data _ _ h1 (.complete _ (by rwa [List.take_of_length_le (by omega)]) (short h4))
  | full _ _ _ h out j l h1 h2 h3 h4 h5 h6 => exact .data _ _ h1 (.full _ j l h2 h3 h4 h5 h6)

theorem HoldsUpTo.unique {ov a b out : List SatVals} (ha : HoldsUpTo ov a out) (hb : HoldsUpTo ov b out) : ∀ j, j ≠ out.length → a[j]? = b[j]? := by
  intro j hj
  rcases Nat.lt_or_gt_of_ne hj with h | h
  · obtain ⟨e, h1, h2⟩ := ha.slots j _ (List.getElem?_eq_getElem h)
    obtain ⟨e', h3, h4⟩ := hb.slots j _ (List.getElem?_eq_getElem h)
    rw [h1] at h3
    cases h3
    rw [h2, h4]
  · rw [ha.others j h, hb.others j h]

/-- **C116** (no choice): the lines and the vector determine the answers, up to the values a refused line leaves in the element behind the satellites read. -/
theorem C116_determined {mjdOf : Int → Int → Int → Res Int} {mmap : ReadMap} {nl : Bool} {lines : List (List Char)} (ho : ∀ l ∈ lines, PlainLine mmap l) {ov : List SatVals}
    {x y : List ObsAnswer} (hx : ObsFileSays mjdOf mmap nl lines ov x) (hy : ObsFileSays mjdOf mmap nl lines ov y) : List.Forall₂ ObsAnswer.Alike x y := by
  induction hx generalizing y with
  | atEnd ov =>
    cases hy
    exact .cons rfl .nil
  | epoch l0 ls ov h out ov' rest h1 h2 h3 h4 h5 ih =>
    have hp : ∀ l ∈ ls.take h.numSats.toNat, PlainLine mmap l := fun l hl => ho l (by simp [List.mem_of_mem_take hl])
    have fate := fun {b} => C111_determined (fun l hl => ho l (by simp [hl])) (y := b) (ObsFileSays.fate (nl := nl) (.epoch l0 ls ov h out ov' rest h1 h2 h3 h4 h5))
    cases hy with
    | last _ _ _ g out9 ov9 g1 g2 g3 g4 g5 =>
      obtain rfl := h1.unique g1
      rcases h2 with h2 | ⟨_, h2⟩
      · omega
      · rw [g3] at h2; cases h2
    | epoch _ _ _ g out' ov'' rest' g1 g2 g3 g4 g5 =>
      obtain rfl := h1.unique g1
      obtain rfl := LinesGive.unique hp h3 g3
      obtain rfl := holds_unique h4 g4
      exact .cons rfl (ih (fun l hl => ho l (by simp [List.mem_of_mem_drop hl])) g5)
    | header _ _ _ k g1 => exact (h1.not_fails g1).elim
    | date _ _ _ y mo d hh mi rest' e g1 g2 g3 g4 => cases fate (ObsFileSays.fate (nl := nl) (.date l0 ls ov y mo d hh mi rest' e g1 g2 g3 g4))
    | refused _ _ _ g out' ov'' j l g1 g2 g3 g4 g5 g6 g7 g8 =>
      obtain rfl := h1.unique g1
      have hm : l ∈ ls.take h.numSats.toNat := List.mem_of_getElem? (i := j) (by rw [List.getElem?_take, if_pos g2, g5])
      exact (h3.not_fails hm (hp l hm) g6).elim
    | short _ _ _ g out' ov'' g1 g2 g3 g4 =>
      obtain rfl := h1.unique g1
      omega
    | full _ _ _ g out' j l g1 g2 g3 g4 g5 g6 => cases fate (ObsFileSays.fate (nl := nl) (.full l0 ls ov g out' j l g1 g2 g3 g4 g5 g6))
  | last l0 ls ov h out ov' h1 h2 h3 h4 h5 =>
    have hp : ∀ q ∈ ls, PlainLine mmap q := fun q hq => ho q (by simp [hq])
    have fate := fun {b} => C111_determined hp (y := b) (ObsFileSays.fate (nl := nl) (.last l0 ls ov h out ov' h1 h2 h3 h4 h5))
    cases hy with
    | last _ _ _ g out9 ov9 g1 g2 g3 g4 g5 =>
      obtain rfl := h1.unique g1
      obtain rfl := LinesGive.unique hp h4 g4
      obtain rfl := holds_unique h5 g5
      exact .cons rfl .nil
    | epoch _ _ _ g out' ov'' rest' g1 g2 g3 g4 g5 =>
      obtain rfl := h1.unique g1
      rcases g2 with g2 | ⟨_, g2⟩
      · omega
      · rw [h3] at g2; cases g2
    | header _ _ _ k g1 => exact (h1.not_fails g1).elim
    | date _ _ _ y mo d hh mi rest' e g1 g2 g3 g4 => cases fate (ObsFileSays.fate (nl := nl) (.date l0 ls ov y mo d hh mi rest' e g1 g2 g3 g4))
    | refused _ _ _ g out' ov'' i q g1 g2 g3 g4 g5 g6 g7 g8 => exact (h4.not_fails (List.mem_of_getElem? g5) (hp q (List.mem_of_getElem? g5)) g6).elim
    | short _ _ _ g out' ov'' g1 g2 g3 g4 =>
      obtain rfl := h1.unique g1
      omega
    | full _ _ _ g out' i q g1 g2 g3 g4 g5 g6 => cases fate (ObsFileSays.fate (nl := nl) (.full l0 ls ov g out' i q g1 g2 g3 g4 g5 g6))
  | header l0 ls ov k h1 =>
    have fate := fun {b} => C111_determined (fun l hl => ho l (by simp [hl])) (y := b) (ObsFileSays.fate (ObsFileSays.header l0 ls ov k h1 : ObsFileSays mjdOf mmap nl _ _ _))
    cases hy with
    | last _ _ _ g out9 ov9 g1 g2 g3 g4 g5 => exact (g1.not_fails h1).elim
    | header _ _ _ k' g1 =>
      obtain rfl := h1.unique g1
      exact .cons ⟨rfl, rfl, rfl, fun _ _ => rfl⟩ .nil
    | epoch _ _ _ g out' ov'' rest' g1 => exact (g1.not_fails h1).elim
    | date _ _ _ y mo d hh mi rest' e g1 g2 g3 g4 => cases fate (ObsFileSays.fate (nl := nl) (.date l0 ls ov y mo d hh mi rest' e g1 g2 g3 g4))
    | refused _ _ _ g out' ov'' j l g1 => exact (g1.not_fails h1).elim
    | short _ _ _ g out' ov'' g1 => exact (g1.not_fails h1).elim
    | full _ _ _ g out' j l g1 => exact (g1.not_fails h1).elim
  | date l0 ls ov yr mo d hh mi rest e h1 h2 h3 h4 =>
    have fate := fun {b} => C111_determined (fun l hl => ho l (by simp [hl])) (y := b) (ObsFileSays.fate (ObsFileSays.date l0 ls ov yr mo d hh mi rest e h1 h2 h3 h4 : ObsFileSays mjdOf mmap nl _ _ _))
    cases hy with
    | last _ _ _ g out9 ov9 g1 g2 g3 g4 g5 => cases fate (ObsFileSays.fate (nl := nl) (.last l0 ls ov g out9 ov9 g1 g2 g3 g4 g5))
    | date => exact .cons rfl .nil
    | epoch _ _ _ g out' ov'' rest' g1 g2 g3 g4 g5 => cases fate (ObsFileSays.fate (nl := nl) (.epoch l0 ls ov g out' ov'' rest' g1 g2 g3 g4 g5))
    | header _ _ _ k g1 => cases fate (ObsFileSays.fate (nl := nl) (.header l0 ls ov k g1))
    | refused _ _ _ g out' ov'' j l g1 g2 g3 g4 g5 g6 g7 g8 => cases fate (ObsFileSays.fate (nl := nl) (.refused l0 ls ov g out' ov'' j l g1 g2 g3 g4 g5 g6 g7 g8))
    | short _ _ _ g out' ov'' g1 g2 g3 g4 => cases fate (ObsFileSays.fate (nl := nl) (.short l0 ls ov g out' ov'' g1 g2 g3 g4))
    | full _ _ _ g out' j l g1 g2 g3 g4 g5 g6 => cases fate (ObsFileSays.fate (nl := nl) (.full l0 ls ov g out' j l g1 g2 g3 g4 g5 g6))
  | refused l0 ls ov h out ov' j l h1 h2 h3 h4 h5 h6 h7 h8 =>
    have hp : ∀ q ∈ ls, PlainLine mmap q := fun q hq => ho q (by simp [hq])
    have fate := fun {b} => C111_determined hp (y := b) (ObsFileSays.fate (nl := nl) (.refused l0 ls ov h out ov' j l h1 h2 h3 h4 h5 h6 h7 h8))
    have before : ∀ {i : Nat} {q : List Char}, i < j → ls[i]? = some q → ¬ LineFails mmap q := fun {i q} hi hq hf =>
      h3.not_fails (List.mem_of_getElem? (i := i) (by rw [List.getElem?_take, if_pos hi, hq])) (hp q (List.mem_of_getElem? hq)) hf
    cases hy with
    | last _ _ _ g out9 ov9 g1 g2 g3 g4 g5 => exact (g4.not_fails (List.mem_of_getElem? h5) (hp l (List.mem_of_getElem? h5)) h6).elim
    | refused _ _ _ g out' ov'' i q g1 g2 g3 g4 g5 g6 g7 g8 =>
      obtain rfl := h1.unique g1
      have hij : i = j := by
        rcases Nat.lt_trichotomy i j with hlt | he | hlt
        · exact (before hlt g5 g6).elim
        · exact he
        · exact (g3.not_fails (List.mem_of_getElem? (i := j) (by rw [List.getElem?_take, if_pos hlt, h5])) (hp l (List.mem_of_getElem? h5)) h6).elim
      subst hij
      obtain rfl := LinesGive.unique (fun q hq => hp q (List.mem_of_mem_take hq)) h3 g3
      exact .cons ⟨rfl, rfl, rfl, h8.unique g8⟩ .nil
    | epoch _ _ _ g out' ov'' rest' g1 g2 g3 g4 g5 =>
      obtain rfl := h1.unique g1
      exact (g3.not_fails (List.mem_of_getElem? (i := j) (by rw [List.getElem?_take, if_pos h2, h5])) (hp l (List.mem_of_getElem? h5)) h6).elim
    | header _ _ _ k g1 => exact (h1.not_fails g1).elim
    | date _ _ _ y mo d hh mi rest' e g1 g2 g3 g4 => cases fate (ObsFileSays.fate (nl := nl) (.date l0 ls ov y mo d hh mi rest' e g1 g2 g3 g4))
    | short _ _ _ g out' ov'' g1 g2 g3 g4 => exact (g3.not_fails (List.mem_of_getElem? h5) (hp l (List.mem_of_getElem? h5)) h6).elim
    | full _ _ _ g out' i q g1 g2 g3 g4 g5 g6 => cases fate (ObsFileSays.fate (nl := nl) (.full l0 ls ov g out' i q g1 g2 g3 g4 g5 g6))
  | short l0 ls ov h out ov' h1 h2 h3 h4 =>
    have hp : ∀ q ∈ ls, PlainLine mmap q := fun q hq => ho q (by simp [hq])
    have fate := fun {b} => C111_determined hp (y := b) (ObsFileSays.fate (nl := nl) (.short l0 ls ov h out ov' h1 h2 h3 h4))
    cases hy with
    | last _ _ _ g out9 ov9 g1 g2 g3 g4 g5 =>
      obtain rfl := h1.unique g1
      omega
    | short _ _ _ g out' ov'' g1 g2 g3 g4 =>
      obtain rfl := h1.unique g1
      obtain rfl := LinesGive.unique hp h3 g3
      obtain rfl := holds_unique h4 g4
      exact .cons ⟨rfl, rfl, rfl, fun _ _ => rfl⟩ .nil
    | epoch _ _ _ g out' ov'' rest' g1 g2 g3 g4 g5 =>
      obtain rfl := h1.unique g1
      omega
    | header _ _ _ k g1 => exact (h1.not_fails g1).elim
    | date _ _ _ y mo d hh mi rest' e g1 g2 g3 g4 => cases fate (ObsFileSays.fate (nl := nl) (.date l0 ls ov y mo d hh mi rest' e g1 g2 g3 g4))
    | refused _ _ _ g out' ov'' i q g1 g2 g3 g4 g5 g6 g7 g8 => exact (h3.not_fails (List.mem_of_getElem? g5) (hp q (List.mem_of_getElem? g5)) g6).elim
    | full _ _ _ g out' i q g1 g2 g3 g4 g5 g6 => cases fate (ObsFileSays.fate (nl := nl) (.full l0 ls ov g out' i q g1 g2 g3 g4 g5 g6))
  | full l0 ls ov h out j l h1 h2 h3 h4 h5 h6 =>
    have hp : ∀ q ∈ ls, PlainLine mmap q := fun q hq => ho q (by simp [hq])
    have fate := fun {b} => C111_determined hp (y := b) (ObsFileSays.fate (nl := nl) (.full l0 ls ov h out j l h1 h2 h3 h4 h5 h6))
    cases hy with
    | last _ _ _ g out9 ov9 g1 g2 g3 g4 g5 => cases fate (ObsFileSays.fate (nl := nl) (.last l0 ls ov g out9 ov9 g1 g2 g3 g4 g5))
    | full => exact .cons rfl .nil
    | epoch _ _ _ g out' ov'' rest' g1 g2 g3 g4 g5 => cases fate (ObsFileSays.fate (nl := nl) (.epoch l0 ls ov g out' ov'' rest' g1 g2 g3 g4 g5))
    | header _ _ _ k g1 => exact (h1.not_fails g1).elim
    | date _ _ _ y mo d hh mi rest' e g1 g2 g3 g4 => cases fate (ObsFileSays.fate (nl := nl) (.date l0 ls ov y mo d hh mi rest' e g1 g2 g3 g4))
    | refused _ _ _ g out' ov'' i q g1 g2 g3 g4 g5 g6 g7 g8 => cases fate (ObsFileSays.fate (nl := nl) (.refused l0 ls ov g out' ov'' i q g1 g2 g3 g4 g5 g6 g7 g8))
    | short _ _ _ g out' ov'' g1 g2 g3 g4 => cases fate (ObsFileSays.fate (nl := nl) (.short l0 ls ov g out' ov'' g1 g2 g3 g4))

/-- **C116** (what the file says is what is seen): the answers the lines give are, call by call, what the caller sees. -/
theorem C116_answers {mjdOf : Int → Int → Int → Res Int} (hL : ∀ y m d, (∃ k, mjdOf y m d = .ok k) ∨ ∃ e, mjdOf y m d = .throw e) (raw0 : RawRnxObs) {mmap : ReadMap} {nl : Bool}
    {calls : Nat} {lines : List (List Char)} {ov : List SatVals} {buf : List Char} {s : Stream} (hfit : ∀ l ∈ lines, LineFits (buf.length - 1) l) (hn : 3 ≤ buf.length)
    (hh : HeaderLinesOK lines) (ho : ∀ l ∈ lines, PlainLine mmap l) (hg : s.good = true) (hr : s.rest = obsText lines nl) (hok : ObsTextOK lines nl) (hroom : Room mmap ov) (hc : lines.length < calls)
    {out : List ObsAnswer} (hs : ObsFileSays mjdOf mmap nl lines ov out) :
    List.Forall₂ (fun a r => ∃ b, ObsAnswer.Alike a b ∧ ObsAnswerSeen b r) out (obsCalls mjdOf raw0 mmap calls ov buf s 0) := by
  obtain ⟨out', h1, h2⟩ := C116_file hL raw0 calls lines ov buf s hfit hn hh hg hr hok hroom hc
  have h3 := C116_determined ho hs h1
  clear h1 hs
  revert h2
  generalize obsCalls mjdOf raw0 mmap calls ov buf s 0 = rs
  intro h2
  induction h3 generalizing rs with
  | nil => cases h2; exact .nil
  | cons h _ ih =>
    cases h2 with
    | cons g1 g2 => exact .cons ⟨_, h, g1⟩ (ih _ g2)

/-- **C116** (every file): every text is one of lines, the last of which may have no newline. -/
theorem C116_text (t : List Char) : ∃ lines nl, t = obsText lines nl ∧ ObsTextOK lines nl ∧ ∀ l ∈ lines, '\n' ∉ l := by
  induction t with
  | nil => exact ⟨[], true, rfl, (by intro h; cases h), by simp⟩
  | cons c t ih =>
    obtain ⟨lines, nl, h1, h2, h3⟩ := ih
    by_cases hc : c = '\n'
    · subst hc
      refine ⟨[] :: lines, nl, ?_, ?_, ?_⟩
      · rw [obsText, if_neg (fun h => by have := h2.ne h.1; rw [h.2] at this; cases this), h1]; rfl
      · intro hn
        obtain ⟨l, h4, h5⟩ := h2 hn
        cases lines with
        | nil => simp at h4
        | cons a as => exact ⟨l, by rw [List.getLast?_cons_cons]; exact h4, h5⟩
      · intro l hl
        rcases List.mem_cons.1 hl with rfl | hl
        · simp
        · exact h3 l hl
    · cases lines with
      | nil =>
        refine ⟨[[c]], false, ?_, fun _ => ⟨[c], rfl, by simp⟩, by simpa using fun h => hc h.symm⟩
        rw [h1]
        simp [obsText]
      | cons l ls =>
        refine ⟨(c :: l) :: ls, nl, ?_, ?_, ?_⟩
        · rw [h1, obsText, obsText]; split <;> rfl
        · intro hn
          obtain ⟨x, h4, h5⟩ := h2 hn
          cases ls with
          | nil => exact ⟨c :: l, rfl, by simp⟩
          | cons a as => exact ⟨x, by rw [List.getLast?_cons_cons] at h4 ⊢; exact h4, h5⟩
        · intro q hq
          rcases List.mem_cons.1 hq with rfl | hq
          · have := h3 l (by simp)
            simp only [List.mem_cons, not_or]
            exact ⟨fun h => hc h.symm, this⟩
          · exact h3 q (by simp [hq])

end Ggnss
