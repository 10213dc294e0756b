import Verif.Spec.ObsFate
import Verif.Props.ObsLines
import Verif.Props.ObsHeadText
/-! # C111: what becomes of reading an observation epoch -/
namespace Ggnss

/-- The file is at its end. -/
theorem collectLoop_ended {mmap : ReadMap} {raw0 : RawRnxObs} {n i : Nat} {ov : List SatVals} {buf : List Char} {s : Stream} (hr : s.rest = []) (hg : s.good = true) :
    ∃ o, collectLoop raw0 mmap n i ov buf s 0 = .ok o := by
  cases n with
  | zero => exact ⟨_, rfl⟩
  | succ n =>
    have hgl : (s.getline buf.length).1 = [] := by
      unfold Stream.getline
      rw [if_pos hg, hr]
      rfl
    rw [collectLoop]
    simp only [hgl]
    have : getAt (fillLine buf []) 0 = .ok NUL := rfl
    rw [this, Res.bind_ok]
    have hc : ∀ sys, charToSatsys NUL ≠ .ok sys := charToSatsys_none (fun sys => by cases sys <;> decide)
    cases hs : charToSatsys NUL with
    | ok sys => exact absurd hs (hc sys)
    | _ => exact ⟨_, rfl⟩

/-- The data lines of an epoch, whatever they look like, and a vector of any size. -/
theorem collectLoop_fate {mmap : ReadMap} {raw0 : RawRnxObs} {n : Nat} {t : List Char} (hn : 3 ≤ n) : ∀ (ls : List (List Char)) (k i : Nat) (ov : List SatVals)
    (buf : List Char) (s : Stream), (∀ l ∈ ls, LineFits (n - 1) l) → buf.length = n → s.good = true → s.rest = linesText ls ++ t → Room mmap ov →
    i ≤ ov.length → (k ≤ ls.length ∨ t = []) →
    ((∃ o, collectLoop raw0 mmap k i ov buf s 0 = .ok o) ∧ DataFate mmap ls k (ov.length - i) .returns) ∨
    (collectLoop raw0 mmap k i ov buf s 0 = .ub ∧ DataFate mmap ls k (ov.length - i) .undefined) := by
  intro ls
  induction ls with
  | nil =>
    intro k i ov buf s _ _ hg hr _ _ hk
    refine Or.inl ⟨?_, .complete [] (by simpa using LinesGive.nil) (by simp)⟩
    rcases hk with hk | rfl
    · simp only [List.length_nil, Nat.le_zero_eq] at hk
      subst hk
      exact ⟨_, rfl⟩
    · exact collectLoop_ended (by simpa [linesText] using hr) hg
  | cons l ls ih =>
    intro k i ov buf s hf hb hg hr hroom hi hk
    cases k with
    | zero => exact Or.inl ⟨⟨_, rfl⟩, .complete [] (by simpa using LinesGive.nil) (by simp)⟩
    | succ k =>
    obtain ⟨hl1, hl2, hl3⟩ := hf l (by simp)
    have hgl := getline_past (n := n) hg hr hl1 hl3
    have hbl : (fillLine buf l).length = n := by simp [fillLine, hb]; omega
    have hk' : k ≤ ls.length ∨ t = [] := by rcases hk with hk | hk; exact Or.inl (by simpa using hk); exact Or.inr hk
    have ih' := fun i ov => ih k i ov (fillLine buf l) (s.past [l]) (fun x hx => hf x (by simp [hx])) hbl hg (rest_cons hr)
    rw [collectLoop, hb, hgl]
    simp only
    by_cases hsys : ∃ sys, l.head? = some (satsysToChar sys)
    swap
    · have hfail : LineFails mmap l := .system fun sys hs => hsys ⟨sys, hs⟩
      have h0 : 0 < (fillLine buf l).length := by omega
      rw [getAt_lt h0, Res.bind_ok]
      have hc : ∀ sys, charToSatsys ((fillLine buf l)[0]) ≠ .ok sys := by
        apply charToSatsys_none
        intro sys hs
        cases l with
        | nil => cases sys <;> simp [fillLine, satsysToChar] at hs <;> revert hs <;> decide
        | cons c cs =>
          apply hsys
          exact ⟨sys, by simpa [fillLine] using hs⟩
      have hfate : DataFate mmap (l :: ls) (k + 1) (ov.length - i) .returns :=
        .refused [] 0 l (by omega) (by simpa using LinesGive.nil) (by simp) rfl hfail fun ⟨sys, _, h, _⟩ => absurd ⟨sys, h⟩ hsys
      cases hs : charToSatsys ((fillLine buf l)[0]) with
      | ok sys => exact absurd hs (hc sys)
      | _ => exact Or.inl ⟨⟨_, rfl⟩, hfate⟩
    · obtain ⟨sys, hhead⟩ := hsys
      rw [getAt_fill (l := l) (i := 0) (by rw [← List.head?_eq_getElem?]; exact hhead), Res.bind_ok, charToSatsys_letter]
      simp only
      cases hm : mmap.lookup sys with
      | none =>
        simp only
        -- a line that is skipped
        have skip : ∀ {f : CallFate}, DataFate mmap ls k (ov.length - i) f → DataFate mmap (l :: ls) (k + 1) (ov.length - i) f := by
          intro f hf
          cases hf with
          | complete out h1 h2 => exact .complete out (by rw [List.take_succ_cons]; exact .skip sys hhead hm h1) h2
          | refused out j q h0 h1 h2 h3 h4 h5 => exact .refused out (j + 1) q (by omega) (by rw [List.take_succ_cons]; exact .skip sys hhead hm h1) h2 (by simpa using h3) h4 h5
          | full out j q h0 h1 h2 h3 h4 => exact .full out (j + 1) q (by omega) (by rw [List.take_succ_cons]; exact .skip sys hhead hm h1) h2 (by simpa using h3) h4
        rcases ih' i ov hroom hi hk' with ⟨h1, h2⟩ | ⟨h1, h2⟩
        · exact Or.inl ⟨h1, skip h2⟩
        · exact Or.inr ⟨h1, skip h2⟩
      | some sysobs =>
        simp only
        have hw : Wanted mmap l := ⟨sys, sysobs, hhead, hm⟩
        cases he : ov[i]? with
        | none =>
          have : ov.length ≤ i := List.getElem?_eq_none_iff.1 he
          exact Or.inr ⟨rfl, .full [] 0 l (by omega) (by simpa using LinesGive.nil) (by simp; omega) rfl hw⟩
        | some e =>
          simp only
          obtain ⟨hlt, hei⟩ := List.getElem?_eq_some_iff.1 he
          have hv := hroom e (List.mem_of_getElem? he) _ (lookup_mem hm)
          simp only at hv
          rcases satEpochCollect_text (buf := buf) hl2 (by rintro rfl; simp at hhead) (by omega) hv raw0 with
            ⟨st, p, xss, hst, hp, hx, e1⟩ | ⟨st, p, vals', hst, e1, hlen, hbad⟩
          · rw [e1, Res.bind_ok]
            simp only
            rw [if_neg (by omega)]
            have hsx : sysobs.length = xss.length := hx.length_eq
            have hlen : (xss.map (codeSum · 0) ++ e.2.drop sysobs.length).length = e.2.length := by simp; omega
            have sat : ∀ {f : CallFate}, DataFate mmap ls k ((ov.set i ((sys, p), xss.map (codeSum · 0) ++ e.2.drop sysobs.length)).length - (i + 1)) f →
                DataFate mmap (l :: ls) (k + 1) (ov.length - i) f := by
              intro f hf
              rw [List.length_set] at hf
              cases hf with
              | complete out h1 h2 => exact .complete _ (by rw [List.take_succ_cons]; exact .sat sys p sysobs xss hhead hm hp hx h1) (by simp; omega)
              | refused out j q h0 h1 h2 h3 h4 h5 =>
                exact .refused _ (j + 1) q (by omega) (by rw [List.take_succ_cons]; exact .sat sys p sysobs xss hhead hm hp hx h1) (by simp; omega) (by simpa using h3) h4
                  fun h => by have := h5 h; simp; omega
              | full out j q h0 h1 h2 h3 h4 =>
                exact .full _ (j + 1) q (by omega) (by rw [List.take_succ_cons]; exact .sat sys p sysobs xss hhead hm hp hx h1) (by simp; omega) (by simpa using h3) h4
            rcases ih' (i + 1) _ (hroom.set he hlen) (by simp; omega) hk' with ⟨h1, h2⟩ | ⟨h1, h2⟩
            · exact Or.inl ⟨h1, sat h2⟩
            · exact Or.inr ⟨h1, sat h2⟩
          · rw [e1, Res.bind_ok]
            simp only
            rw [if_pos hst]
            have hfail : LineFails mmap l := by
              rcases hbad with hbad | ⟨q, hq, prs, hprs, pr, hpr, hbad⟩
              · exact .number sys sysobs hhead hm hbad
              · exact .field sys sysobs q prs pr hhead hm hq hprs hpr hbad
            exact Or.inl ⟨⟨_, rfl⟩, .refused [] 0 l (by omega) (by simpa using LinesGive.nil) (by simp) rfl hfail fun _ => by simp; omega⟩

/-! ## No choice -/

/-- As many satellites as there are lines of requested systems. -/
theorem LinesGive.wanted_lt {mmap : ReadMap} {ls : List (List Char)} {out : List SatVals} (h : LinesGive mmap ls out) : ∀ {j : Nat} {l : List Char} {out' : List SatVals},
    ls[j]? = some l → Wanted mmap l → LinesGive mmap (ls.take j) out' → out'.length < out.length := by
  induction h with
  | nil => intro j l out' h; simp at h
  | @skip l0 ls0 out0 sys h1 h2 _ ih =>
    intro j l out' hj hw hx
    cases j with
    | zero =>
      simp only [List.getElem?_cons_zero, Option.some.injEq] at hj
      subst hj
      obtain ⟨sys', so, h3, h4⟩ := hw
      rw [letter_unique h3 h1, h2] at h4
      cases h4
    | succ j =>
      rw [List.take_succ_cons] at hx
      cases hx with
      | skip _ _ _ h5 => exact ih (by simpa using hj) hw h5
      | sat sys' p so xss h3 h4 _ _ _ => rw [letter_unique h3 h1, h2] at h4; cases h4
  | @sat l0 ls0 out0 sys p so xss h1 h2 _ _ _ ih =>
    intro j l out' hj hw hx
    cases j with
    | zero =>
      simp only [List.take_zero] at hx
      cases hx
      simp
    | succ j =>
      rw [List.take_succ_cons] at hx
      cases hx with
      | skip sys' h3 h4 h5 => rw [letter_unique h3 h1, h2] at h4; cases h4
      | sat sys' p' so' xss' _ _ _ _ h5 =>
        have := ih (by simpa using hj) hw h5
        simpa using this

theorem DataFate.unique {mmap : ReadMap} {ls : List (List Char)} {n slots : Nat} (ho : ∀ l ∈ ls, PlainLine mmap l) {x y : CallFate}
    (hx : DataFate mmap ls n slots x) (hy : DataFate mmap ls n slots y) : x = y := by
  have key : DataFate mmap ls n slots .returns → DataFate mmap ls n slots .undefined → False := by
    intro hr hu
    obtain ⟨out2, j2, l2, a0, a1, a2, a3, a4⟩ : ∃ out j l, j < n ∧ LinesGive mmap (ls.take j) out ∧ out.length = slots ∧ ls[j]? = some l ∧ Wanted mmap l := by
      cases hu with
      | full out j l h0 h1 h2 h3 h4 => exact ⟨out, j, l, h0, h1, h2, h3, h4⟩
    have longer : ∀ m out, j2 < m → LinesGive mmap (ls.take m) out → out.length ≤ slots → False := by
      intro m out hm h1 h2
      have := h1.wanted_lt (j := j2) (l := l2) (out' := out2) (by rw [List.getElem?_take, if_pos hm, a3]) a4 (by rwa [List.take_take, Nat.min_eq_left (by omega)])
      omega
    cases hr with
    | complete out h1 h2 => exact longer n out a0 h1 h2
    | refused out j l h0 h1 h2 h3 h4 h5 =>
      rcases Nat.lt_trichotomy j j2 with h | h | h
      · refine a1.not_fails (l := l) ?_ (ho l (List.mem_of_getElem? h3)) h4
        exact List.mem_of_getElem? (i := j) (by rw [List.getElem?_take, if_pos h, h3])
      · subst h
        rw [h3] at a3
        cases a3
        have := h5 a4
        rw [h1.unique (fun q hq => ho q (List.mem_of_mem_take hq)) a1] at this
        omega
      · exact longer j out h h1 h2
  have two : ∀ {f : CallFate}, DataFate mmap ls n slots f → f = .returns ∨ f = .undefined := by
    intro f hf; cases hf <;> simp
  rcases two hx with rfl | rfl <;> rcases two hy with rfl | rfl
  · rfl
  · exact (key hx hy).elim
  · exact (key hy hx).elim
  · rfl

/-- **C111** (no choice): the lines determine what becomes of the call. -/
theorem C111_determined {mjdOf : Int → Int → Int → Res Int} {mmap : ReadMap} {l0 : List Char} {ls : List (List Char)} {slots : Nat} (ho : ∀ l ∈ ls, PlainLine mmap l)
    {x y : CallFate} (hx : ObsFate mjdOf mmap l0 ls slots x) (hy : ObsFate mjdOf mmap l0 ls slots y) : x = y := by
  have nodate : ∀ {y mo d hh mi : Int} {rest : List Char} {e : Exc}, l0.head? = some '>' → 35 ≤ l0.length → DateIn l0 [y, mo, d, hh, mi] rest →
      mjdOf (toInt32 y) (toInt32 mo) (toInt32 d) = .throw e → (∀ h, ¬ HeaderGives mjdOf l0 h) ∧ ∀ k, ¬ HeaderFails mjdOf l0 k := by
    intro y mo d hh mi rest e h1 h2 h3 h4
    exact no_day h1 h2 h3 (fun day hd => by rw [h4] at hd; cases hd)
  cases hx with
  | header k h1 =>
    cases hy with
    | header => rfl
    | date _ _ _ _ _ _ _ h2 h3 h4 h5 => exact ((nodate h2 h3 h4 h5).2 _ h1).elim
    | data _ _ h2 _ => exact (h2.not_fails h1).elim
  | date y mo d hh mi rest e h2 h3 h4 h5 =>
    cases hy with
    | header _ h1 => exact ((nodate h2 h3 h4 h5).2 _ h1).elim
    | date => rfl
    | data _ _ h1 _ => exact ((nodate h2 h3 h4 h5).1 _ h1).elim
  | data h f h1 h2 =>
    cases hy with
    | header _ h3 => exact (h1.not_fails h3).elim
    | date _ _ _ _ _ _ _ a b c d => exact ((nodate a b c d).1 _ h1).elim
    | data h' _ h3 h4 =>
      rw [h3.unique h1] at h4
      exact h2.unique ho h4

/-! ## The call -/

theorem obsEpoch_fate {mjdOf : Int → Int → Int → Res Int} (hL : ∀ y m d, (∃ k, mjdOf y m d = .ok k) ∨ ∃ e, mjdOf y m d = .throw e) {raw0 : RawRnxObs} {mmap : ReadMap}
    {ov : List SatVals} {buf l0 : List Char} {ls : List (List Char)} (hfit : ∀ l ∈ l0 :: ls, LineFits (buf.length - 1) l) (hn : 3 ≤ buf.length) (hin : DateInPlace l0)
    (hpl : PlainReals l0) {s : Stream} {t : List Char} (hg : s.good = true) (hr : s.rest = linesText (l0 :: ls) ++ t)
    (hk : t = [] ∨ ∀ h, HeaderGives mjdOf l0 h → h.numSats.toNat ≤ ls.length) (hroom : Room mmap ov) :
    ((∃ o, readNextEpoch mjdOf raw0 mmap ov buf s 0 = .ok o) ∧ ObsFate mjdOf mmap l0 ls ov.length .returns) ∨
    (readNextEpoch mjdOf raw0 mmap ov buf s 0 = .ub ∧ ObsFate mjdOf mmap l0 ls ov.length .undefined) ∨
    (readNextEpoch mjdOf raw0 mmap ov buf s 0 = .terminate ∧ ObsFate mjdOf mmap l0 ls ov.length .killed) := by
  have hf0 := hfit l0 (by simp)
  have hr0 : s.rest = linesText [l0] ++ (linesText ls ++ t) := by
    rw [hr, ← List.append_assoc, ← linesText_append]; rfl
  rw [readNextEpoch_step mjdOf raw0 mmap ov hf0 hg hr0]
  have hbl : (fillLine buf l0).length = buf.length := by have := hf0.2.2; simp [fillLine]; omega
  rcases resolveEpoch_text (mjdOf := mjdOf) hf0.2.1 hin hpl (buf.drop (l0.length + 1)) with ⟨k, e, h1, h2⟩ | ⟨h, h1, h2⟩ | ⟨y, mo, d, hh, mi, rest, hm, h35, hd, hno, _, hterm⟩
  · have h1' : resolveEpoch mjdOf (fillLine buf l0) 0 = .ok (.inl (k, e)) := h1
    rw [h1', Res.bind_ok]
    exact Or.inl ⟨⟨_, rfl⟩, .header k h2⟩
  · have h1' : resolveEpoch mjdOf (fillLine buf l0) 0 = .ok (.inr h) := h1
    rw [h1', Res.bind_ok]
    simp only
    unfold collectEpoch
    have hk' : h.numSats.toNat ≤ ls.length ∨ t = [] := by
      rcases hk with hk | hk
      · exact Or.inr hk
      · exact Or.inl (hk h h2)
    rcases collectLoop_fate (mmap := mmap) (raw0 := raw0) hn ls h.numSats.toNat 0 ov (fillLine buf l0) (s.past [l0]) (fun q hq => hfit q (by simp [hq])) hbl hg (rest_cons hr) hroom
      (by omega) hk' with ⟨⟨o, e1⟩, e2⟩ | ⟨e1, e2⟩
    · rw [e1, Res.bind_ok]
      refine Or.inl ⟨?_, .data h _ h2 e2⟩
      split <;> exact ⟨_, rfl⟩
    · rw [e1]
      exact Or.inr (Or.inl ⟨rfl, .data h _ h2 e2⟩)
  · rcases hL (toInt32 y) (toInt32 mo) (toInt32 d) with ⟨day, hday⟩ | ⟨e, he⟩
    · exact absurd hday (hno day)
    · have ht : resolveEpoch mjdOf (fillLine buf l0) 0 = .terminate := hterm e he
      rw [ht]
      exact Or.inr (Or.inr ⟨rfl, .date y mo d hh mi rest e hm h35 hd he⟩)

/-- **C111**.  Reading an epoch with arbitrary lines returns, is undefined, or ends the process exactly when the lines say so; nothing else can become of it. -/
theorem C111_fate {mjdOf : Int → Int → Int → Res Int} (hL : ∀ y m d, (∃ k, mjdOf y m d = .ok k) ∨ ∃ e, mjdOf y m d = .throw e) (raw0 : RawRnxObs) {mmap : ReadMap}
    {ov : List SatVals} {buf l0 : List Char} {ls : List (List Char)} (hfit : ∀ l ∈ l0 :: ls, LineFits (buf.length - 1) l) (hn : 3 ≤ buf.length) (hin : DateInPlace l0)
    (hpl : PlainReals l0) (ho : ∀ l ∈ ls, PlainLine mmap l) {s : Stream} {t : List Char} (hg : s.good = true) (hr : s.rest = linesText (l0 :: ls) ++ t)
    (hk : t = [] ∨ ∀ h, HeaderGives mjdOf l0 h → h.numSats.toNat ≤ ls.length) (hroom : Room mmap ov) :
    ((∃ o, readNextEpoch mjdOf raw0 mmap ov buf s 0 = .ok o) ↔ ObsFate mjdOf mmap l0 ls ov.length .returns) ∧
    (readNextEpoch mjdOf raw0 mmap ov buf s 0 = .ub ↔ ObsFate mjdOf mmap l0 ls ov.length .undefined) ∧
    (readNextEpoch mjdOf raw0 mmap ov buf s 0 = .terminate ↔ ObsFate mjdOf mmap l0 ls ov.length .killed) ∧
    readNextEpoch mjdOf raw0 mmap ov buf s 0 ≠ .diverge ∧ ∀ e, readNextEpoch mjdOf raw0 mmap ov buf s 0 ≠ .throw e := by
  have hd := fun {x y} => C111_determined (mjdOf := mjdOf) (l0 := l0) (slots := ov.length) ho (x := x) (y := y)
  rcases obsEpoch_fate hL (raw0 := raw0) hfit hn hin hpl hg hr hk hroom with ⟨⟨o, h1⟩, h2⟩ | ⟨h1, h2⟩ | ⟨h1, h2⟩ <;> rw [h1] <;>
    refine ⟨⟨fun h => ?_, fun h => ?_⟩, ⟨fun h => ?_, fun h => ?_⟩, ⟨fun h => ?_, fun h => ?_⟩, by simp, by simp⟩ <;>
    first | exact h2 | (exact ⟨_, rfl⟩) | rfl | (cases hd h h2) | (cases h; done) | (obtain ⟨_, h⟩ := h; cases h)

/-- **C111** (enough room): with an element for every line of a requested system the call is never undefined. -/
theorem C111_room {mjdOf : Int → Int → Int → Res Int} {mmap : ReadMap} {l0 : List Char} {ls : List (List Char)} {slots : Nat} (h : ls.length ≤ slots) :
    ¬ ObsFate mjdOf mmap l0 ls slots .undefined := by
  have len : ∀ {q : List (List Char)} {out : List SatVals}, LinesGive mmap q out → out.length ≤ q.length := by
    intro q out hq
    induction hq with
    | nil => simp
    | skip _ _ _ _ ih => simp only [List.length_cons]; omega
    | sat _ _ _ _ _ _ _ _ _ ih => simp only [List.length_cons]; omega
  intro hx
  cases hx with
  | data g _ h1 h2 =>
    cases h2 with
    | full out j l a0 a1 a2 a3 a4 =>
      have := len a1
      have hj := (List.getElem?_eq_some_iff.1 a3).1
      simp only [List.length_take] at this
      omega

end Ggnss
