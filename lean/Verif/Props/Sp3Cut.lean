import Verif.Props.Sp3Any
import Verif.Props.AntexCut
import Verif.Props.ObsCut
import Verif.Spec.Sp3Cut
import Verif.Lemmas.Fuel
/-!
# C85: SP3 files that end anywhere
-/
namespace Ggnss

/-! ## Any bytes -/

theorem sp3Cols_stop {errno : Int} {line : List Char} : ∀ (n i : Nat) (x : List Rat × Option Nat), sp3Cols errno line n i = .ok x →
    ∀ j, x.2 = some j → i ≤ j ∧ j < i + n := by
  intro n
  induction n with
  | zero => intro i x h j hj; simp [sp3Cols] at h; subst h; simp at hj
  | succ n ih =>
    intro i x h j hj
    unfold sp3Cols at h
    rw [Res.bind_eq_ok] at h
    obtain ⟨v, _, h⟩ := h
    split at h
    · simp at h; subst h; simp at hj; omega
    · split at h
      · simp at h; subst h; simp at hj; omega
      · rw [Res.bind_eq_ok] at h
        obtain ⟨r, hr, h⟩ := h
        simp at h; subst h
        have := ih _ _ hr j hj
        omega

theorem position_status {buf : List Char} {r : Sp3Rec} {errno : Int} {o : Sp3PosOut} (h : getNextPosition buf r errno = .ok o) :
    (o.status = 0 ∧ (errno ≠ ERANGE → o.errno = errno)) ∨ (2 ≤ o.status ∧ o.status ≤ 8) := by
  unfold getNextPosition at h
  simp only at h
  rw [Res.bind_eq_ok] at h
  obtain ⟨c0, _, h⟩ := h
  split at h
  · simp at h; subst h; simp
  · rw [Res.bind_eq_ok] at h
    obtain ⟨c1, _, h⟩ := h
    split at h
    · rw [Res.bind_eq_ok] at h
      obtain ⟨p, _, h⟩ := h
      generalize hE : (if strtolErr p = true then ERANGE else errno) = e2 at h
      split at h
      · simp at h; subst h; simp
      · rename_i hne
        rw [Res.bind_eq_ok] at h
        obtain ⟨cols, hc, h⟩ := h
        split at h
        · rename_i i hi
          simp at h; subst h
          have := sp3Cols_stop _ _ _ hc i hi
          right; simp only; omega
        · rw [Res.bind_eq_ok] at h
          obtain ⟨fl, _, h⟩ := h
          simp at h; subst h
          left
          refine ⟨rfl, fun he => ?_⟩
          rw [← hE]
          split
          · rename_i hs; rw [if_pos hs] at hE; exact absurd (Or.inl hE.symm) hne
          · rfl
    · simp at h; subst h; simp

theorem eof_fill {buf l : List Char} (h : c!"EOF" <+: fillLine buf l) : c!"EOF" <+: l := by
  unfold fillLine at h
  obtain ⟨t, ht⟩ := h
  match l, ht with
  | [], ht => simp at ht; exact absurd ht.1 (by decide)
  | [a], ht => simp at ht; exact absurd ht.2.1 (by decide)
  | [a, b], ht => simp at ht; exact absurd ht.2.2.1 (by decide)
  | a :: b :: c :: l, ht => simp at ht; obtain ⟨rfl, rfl, rfl, _⟩ := ht; exact ⟨l, rfl⟩

theorem getline_prefix (s : Stream) (n : Nat) : (s.getline n).1 <+: s.rest := by
  unfold Stream.getline
  split
  · simp only
    have hp : s.rest.takeWhile (fun c => decide (c ≠ '\n')) <+: s.rest := List.takeWhile_prefix _
    split
    · split <;> exact hp
    · exact (List.take_prefix _ _).trans hp
  · simp

/-- What a line does to the vector. -/
theorem sp3Line_inl {buf l : List Char} {vec vec' : List Sp3Rec} {n n' : Nat} {errno e' : Int} (he : errno ≠ ERANGE) (hb : 80 ≤ buf.length)
    (h : sp3Line (fillLine buf l) vec n errno = .ok (.inl (vec', n', e'))) :
    e' = errno ∧
    ((isPLine l = true ∧ n < vec.length ∧ n' = n + 1 ∧ ∃ r, vec' = vec.set n r ∧ ∀ p : PosLine, p.WF → p.line = l → Decoded p r) ∨
      (isPLine l = false ∧ ¬ c!"EOF" <+: l ∧ n' = n ∧ vec' = vec)) := by
  have hpl : ∀ p : PosLine, p.WF → p.line = l → ∃ r, Decoded p r ∧ sp3Line (fillLine buf l) vec n errno =
      (if n < vec.length then .ok (.inl (vec.set n r, n + 1, errno)) else .ub) := by
    rintro p hw rfl; exact sp3Line_pos buf hw vec n he hb
  have h2 := h
  unfold sp3Line at h
  rw [getAt_head, Res.bind_ok] at h
  split at h
  · rename_i hc
    have hP := fillLine_head buf l _ (getAt_head buf l) hc
    rw [Res.bind_eq_ok] at h
    obtain ⟨o, ho, h⟩ := h
    split at h
    · simp at h
    · rename_i h0
      rw [Res.bind_eq_ok] at h
      obtain ⟨v, hv, h⟩ := h
      unfold vecStore at hv
      split at hv
      · rename_i hlt
        simp at hv h
        obtain ⟨rfl, rfl, rfl⟩ := h
        have hs := (position_status ho).resolve_right (by omega)
        refine ⟨hs.2 he, Or.inl ⟨hP, hlt, rfl, o.out, hv.symm, ?_⟩⟩
        intro p hw hp
        obtain ⟨r, h3, h4⟩ := hpl p hw hp
        rw [h2, if_pos hlt] at h4
        simp at h4
        have := congrArg (fun v : List Sp3Rec => v[n]?) (hv.trans h4.1)
        simp [hlt] at this
        rw [this]; exact h3
      · cases hv
  · rename_i hc
    have hP : isPLine l = false := by
      cases l with
      | nil => rfl
      | cons x l => simpa [isPLine] using hc
    rw [Res.bind_eq_ok] at h
    obtain ⟨b, hb', h⟩ := h
    cases b with
    | true => simp at h
    | false =>
      simp at h
      obtain ⟨rfl, rfl, rfl⟩ := h
      refine ⟨rfl, Or.inr ⟨hP, ?_, rfl, rfl⟩⟩
      rintro ⟨t, rfl⟩
      simp [fillLine, cArr, strncmpEq] at hb'

theorem sp3Line_inr {buf l : List Char} {vec : List Sp3Rec} {n : Nat} {errno e' st : Int}
    (h : sp3Line (fillLine buf l) vec n errno = .ok (.inr (st, e'))) :
    (isPLine l = true ∧ 22 ≤ st ∧ st ≤ 28) ∨ (isPLine l = false ∧ c!"EOF" <+: l ∧ st = -1) := by
  unfold sp3Line at h
  rw [getAt_head, Res.bind_ok] at h
  split at h
  · rename_i hc
    rw [Res.bind_eq_ok] at h
    obtain ⟨o, ho, h⟩ := h
    split at h
    · rename_i h0
      simp at h
      have hs := (position_status ho).resolve_left (fun x => h0 x.1)
      exact Or.inl ⟨fillLine_head buf l _ (getAt_head buf l) hc, by omega, by omega⟩
    · rw [Res.bind_eq_ok] at h
      obtain ⟨v, hv, h⟩ := h
      simp at h
  · rename_i hc
    have hP : isPLine l = false := by
      cases l with
      | nil => rfl
      | cons x l => simpa [isPLine] using hc
    rw [Res.bind_eq_ok] at h
    obtain ⟨b, hb', h⟩ := h
    cases b with
    | false => simp at h
    | true =>
      simp at h
      exact Or.inr ⟨hP, eof_fill (strncmpEq_true (pat := c!"EOF") (by decide) hb'), h.1.symm⟩

theorem sp3Loop_inv (t : Sp3Epoch) (sr : Int) : ∀ (fuel : Nat) (buf : List Char) (vec : List Sp3Rec) (n : Nat) (s : Stream) (errno : Int) (o : Sp3Out),
    errno ≠ ERANGE → 80 ≤ buf.length → n ≤ vec.length → sp3Loop t sr fuel buf vec n s errno = .ok o → o.status = 0 ∨ o.status = -1 →
    ∃ (ls : List (List Char)) (fin : List Char), s.good = true ∧ s.rest = linesText ls ++ fin ∧
      (∀ l ∈ ls, '\n' ∉ l ∧ l.length ≤ 127 ∧ endsEpoch l = false) ∧ o.t = t ∧ o.errno = errno ∧ o.vec.length = vec.length ∧
      o.satsRead = n + (ls.filter isPLine).length ∧ n + (ls.filter isPLine).length ≤ vec.length ∧
      (∀ i, i < n ∨ n + (ls.filter isPLine).length ≤ i → o.vec[i]? = vec[i]?) ∧
      (∀ i (p : PosLine), (ls.filter isPLine)[i]? = some p.line → p.WF → ∃ r, o.vec[n + i]? = some r ∧ Decoded p r) ∧
      ((o.status = 0 ∧ fin.head? = some '*' ∧ o.strm = s.adv (linesText ls).length) ∨ (o.status = -1 ∧ c!"EOF" <+: fin)) := by
  intro fuel
  induction fuel with
  | zero => intro buf vec n s errno o _ _ _ h; simp [sp3Loop] at h
  | succ fuel ih =>
    intro buf vec n s errno o he hb hn h hst
    have hgood : s.good = true := by
      by_contra hc
      rw [sp3Loop_bad t sr _ _ _ _ _ _ (by simpa using hc)] at h
      cases h
    have hdiv := h
    unfold sp3Loop at h
    simp only at h
    by_cases hstar : peekedStar s.peek.1 = true
    · rw [if_pos hstar] at h
      simp only [Res.ok.injEq] at h
      subst h
      cases hp : s.peek with
      | mk c s' =>
        rw [hp] at hstar
        cases c with
        | none => simp [peekedStar] at hstar
        | some c =>
          obtain ⟨rfl, hg, tl, hr⟩ := Stream.peek_some hp
          have : c = '*' := by simpa [peekedStar] using hstar
          subst this
          exact ⟨[], s'.rest, hg, by simp [linesText], by simp, rfl, rfl, rfl, by simp, by simpa using hn, fun _ _ => rfl, by simp,
            Or.inl ⟨rfl, by rw [hr]; rfl, by simp [linesText]⟩⟩
    · rw [if_neg hstar] at h
      have hne : s.rest ≠ [] := by
        intro hc
        rw [sp3Loop_end t sr _ _ _ _ _ _ hgood hc] at hdiv
        cases hdiv
      obtain ⟨c, tl, hr⟩ : ∃ c tl, s.rest = c :: tl := by
        cases hr : s.rest with
        | nil => exact absurd hr hne
        | cons c tl => exact ⟨c, tl, rfl⟩
      have hpk := Stream.peek_cons hgood hr
      rw [hpk] at h hstar
      simp only at h hstar
      have hcs : c ≠ '*' := by simpa [peekedStar] using hstar
      have hpre := getline_prefix s MAX_RECORD_CHARS
      have hok : ∀ l s', s.getline MAX_RECORD_CHARS = (l, s') → s'.good = true → '\n' ∉ l ∧ l.length ≤ 127 ∧ ∃ tail, s.rest = l ++ '\n' :: tail ∧ s' = s.adv (l.length + 1) := by
        intro l s' hgl hg'
        obtain ⟨_, a2, a3, a4⟩ := Stream.getline_ok (l := l) (s' := s') hgl ((Stream.good_iff s').1 hg').2
        refine ⟨a2, by simpa [MAX_RECORD_CHARS] using a3, ?_⟩
        rcases a4 with ⟨_, _, a5, _⟩ | a4
        · have := ((Stream.good_iff s').1 hg').1; rw [a5] at this; cases this
        · exact a4
      generalize hgl : s.getline MAX_RECORD_CHARS = g at h hpre
      obtain ⟨l, s'⟩ := g
      simp only at h hpre
      have hl0 : l.head? ≠ some '*' := by
        intro hc
        cases l with
        | nil => simp at hc
        | cons x l =>
          simp at hc
          obtain ⟨t', ht'⟩ := hpre
          rw [hr] at ht'
          simp at ht'
          exact hcs (ht'.1.symm.trans hc)
      split at h
      · rename_i vec' n' e' hx
        obtain ⟨rfl, hcase⟩ := sp3Line_inl he hb hx
        have hg' : s'.good = true := by
          by_contra hc
          rw [sp3Loop_bad t sr _ _ _ _ _ _ (by simpa using hc)] at h
          cases h
        obtain ⟨b1, b2, tail, b3, b4⟩ := hok l s' hgl hg'
        have hrest : s'.rest = tail := by
          rw [b4]
          have := Stream.adv_rest_append (s := s) (a := l ++ ['\n']) (b := tail) (by rw [b3]; simp)
          simpa using this
        have hadv : ∀ ls : List (List Char), s'.adv (linesText ls).length = s.adv (linesText (l :: ls)).length := by
          intro ls
          rw [b4, Stream.adv_adv, linesText_cons]
          congr 1
          simp; omega
        rcases hcase with ⟨hP, hlt, rfl, r, rfl, hdec⟩ | ⟨hP, hE, rfl, rfl⟩
        · obtain ⟨ls, fin, i1, i2, i3, i4, i5, i6, i7, i8, i9, i10, i11⟩ := ih _ _ _ _ _ _ he (fillLine_length buf l 80 hb) (by simp; omega) h hst
          have hends : endsEpoch l = false := by
            cases l with
            | nil => simp [isPLine] at hP
            | cons x l => simp [isPLine] at hP; subst hP; simp [endsEpoch]
          have hfil : (l :: ls).filter isPLine = l :: ls.filter isPLine := by rw [List.filter_cons_of_pos hP]
          refine ⟨l :: ls, fin, hgood, ?_, ?_, i4, i5, by simpa using i6, ?_, ?_, ?_, ?_, ?_⟩
          · rw [b3, linesText_cons, ← hrest, i2]; simp
          · intro x hx
            rcases List.mem_cons.1 hx with rfl | hx
            · exact ⟨b1, b2, hends⟩
            · exact i3 x hx
          · rw [hfil, i7]; push_cast; simp; ring
          · rw [hfil]; simp at i8 ⊢; omega
          · intro i hi
            rw [hfil] at hi
            simp at hi
            rw [i9 i (by omega), List.getElem?_set_ne (by omega)]
          · intro i p hp hw
            rw [hfil] at hp
            cases i with
            | zero =>
              simp at hp
              refine ⟨r, ?_, hdec p hw hp.symm⟩
              rw [i9 (n + 0) (by omega)]
              simp [hlt]
            | succ i =>
              obtain ⟨r', k1, k2⟩ := i10 i p (by simpa using hp) hw
              exact ⟨r', by rw [← k1]; congr 1; omega, k2⟩
          · rcases i11 with ⟨a, b, c⟩ | h
            · exact Or.inl ⟨a, b, by rw [c, hadv]⟩
            · exact Or.inr h
        · obtain ⟨ls, fin, i1, i2, i3, i4, i5, i6, i7, i8, i9, i10, i11⟩ := ih _ _ _ _ _ _ he (fillLine_length buf l 80 hb) hn h hst
          have hends : endsEpoch l = false := by
            simp only [endsEpoch, Bool.or_eq_false_iff, decide_eq_false_iff_not]
            exact ⟨hl0, fun hc => hE (hc ▸ List.take_prefix 3 l)⟩
          have hfil : (l :: ls).filter isPLine = ls.filter isPLine := by rw [List.filter_cons_of_neg (by simp [hP])]
          refine ⟨l :: ls, fin, hgood, ?_, ?_, i4, i5, i6, by rw [hfil]; exact i7, by rw [hfil]; exact i8, by rw [hfil]; exact i9, by rw [hfil]; exact i10, ?_⟩
          · rw [b3, linesText_cons, ← hrest, i2]; simp
          · intro x hx
            rcases List.mem_cons.1 hx with rfl | hx
            · exact ⟨b1, b2, hends⟩
            · exact i3 x hx
          · rcases i11 with ⟨a, b, c⟩ | h
            · exact Or.inl ⟨a, b, by rw [c, hadv]⟩
            · exact Or.inr h
      · rename_i st e' hx
        rcases sp3Line_inr hx with ⟨_, h1, h2⟩ | ⟨hP, hE, rfl⟩
        · rw [if_neg (by omega)] at h
          simp only [Res.ok.injEq] at h
          subst h
          simp only at hst
          omega
        · simp only [if_true, Res.ok.injEq] at h
          subst h
          have he' : e' = errno := by
            have : ¬ l.head?.getD NUL = 'P' := by
              cases l with
              | nil => decide
              | cons x l => simpa [isPLine] using hP
            unfold sp3Line at hx
            rw [getAt_head, Res.bind_ok, if_neg this, Res.bind_eq_ok] at hx
            obtain ⟨b, _, hx⟩ := hx
            cases b <;> simp at hx
            exact hx.symm
          exact ⟨[], s.rest, hgood, by simp [linesText], by simp, rfl, he', rfl, by simp, by simpa using hn, fun _ _ => rfl, by simp,
            Or.inr ⟨rfl, hE.trans hpre⟩⟩
      all_goals simp at h


theorem sp3Date_stop {errno : Int} {line : List Char} : ∀ (n i : Nat) (x : List Int × Option Nat), sp3Date errno line n i = .ok x →
    ∀ j, x.2 = some j → i ≤ j ∧ j < i + n := by
  intro n
  induction n with
  | zero => intro i x h j hj; simp [sp3Date] at h; subst h; simp at hj
  | succ n ih =>
    intro i x h j hj
    unfold sp3Date at h
    rw [Res.bind_eq_ok] at h
    obtain ⟨v, _, h⟩ := h
    generalize (if strtolErr v = true then ERANGE else errno) = e2 at h
    split at h
    · simp at h; subst h; simp at hj; omega
    · rw [Res.bind_eq_ok] at h
      obtain ⟨r, hr, h⟩ := h
      simp at h; subst h
      have := ih _ _ hr j hj
      omega

theorem header_result {line : List Char} {errno : Int} {x : Except Int Sp3Epoch × Int} (h : sp3Header line errno = .ok x) :
    (∀ e, x.1 = .error e → 2 ≤ e ∧ e ≤ 11) ∧ ∀ t, x.1 = .ok t → x.2 = errno ∧ errno ≠ ERANGE := by
  unfold sp3Header at h
  rw [Res.bind_eq_ok] at h
  obtain ⟨c0, _, h⟩ := h
  rw [Res.bind_eq_ok] at h
  obtain ⟨c1, _, h⟩ := h
  split at h
  · simp at h; subst h; simp
  · rw [Res.bind_eq_ok] at h
    obtain ⟨p, _, h⟩ := h
    simp only at h
    generalize hE : (if strtolErr p = true then ERANGE else errno) = e2 at h
    split at h
    · simp at h; subst h; simp
    · rename_i hne
      have he : e2 = errno ∧ errno ≠ ERANGE := by
        by_cases hs : strtolErr p = true
        · rw [if_pos hs] at hE; exact absurd (Or.inr hE.symm) hne
        · rw [if_neg hs] at hE; exact ⟨hE.symm, fun hc => hne (Or.inr (hE.symm.trans hc))⟩
      rw [Res.bind_eq_ok] at h
      obtain ⟨d, hd, h⟩ := h
      split at h
      · rename_i i hi
        have := sp3Date_stop _ _ _ hd i hi
        simp at h; subst h
        refine ⟨?_, by simp⟩
        intro e he; simp at he; omega
      · rw [Res.bind_eq_ok] at h
        obtain ⟨sec, _, h⟩ := h
        split at h
        · simp at h; subst h; simp
        · split at h
          · simp at h; subst h; simp
          · rw [Res.bind_eq_ok] at h
            obtain ⟨us, _, h⟩ := h
            simp at h; subst h
            exact ⟨by simp, fun _ _ => he⟩

/-- **C85**, any bytes.  Whatever the file holds: when `get_next_epoch` returns 0 or -1, a complete epoch stands in the file at the reading
position, followed by the beginning of the next one (0; the stream is left there) or by `EOF` (-1); the number of satellites is the
number of position lines of that epoch, and fits the vector; the records of the well formed ones among these lines are in
the vector, in their places; the other elements of the vector are untouched; the time, when the epoch line is well formed, is its time. -/
theorem C85_returned (junk : List Char) (hj : junk.length = 128) (fuel : Nat) (t0 : Sp3Epoch) (vec : List Sp3Rec) (sr : Int) (s : Stream) (errno : Int)
    (o : Sp3Out) (h : getNextEpoch junk fuel t0 vec sr s errno = .ok o) (hst : o.status = 0 ∨ o.status = -1) :
    ∃ (head : List Char) (ls : List (List Char)) (fin : List Char), EpochStands s.rest head ls fin ∧
      (∀ e : EpochLine, e.WF → e.line = head → e.Is o.t) ∧
      o.satsRead = (ls.filter isPLine).length ∧ (ls.filter isPLine).length ≤ vec.length ∧ o.vec.length = vec.length ∧
      (∀ (i : Nat) (p : PosLine), (ls.filter isPLine)[i]? = some p.line → p.WF → ∃ r, o.vec[i]? = some r ∧ Decoded p r) ∧
      (∀ i : Nat, (ls.filter isPLine).length ≤ i → o.vec[i]? = vec[i]?) ∧
      ((o.status = 0 ∧ fin.head? = some '*' ∧ o.strm.rest = fin ∧ o.strm.good = true) ∨ (o.status = -1 ∧ c!"EOF" <+: fin)) := by
  have horig := h
  unfold getNextEpoch at h
  rw [Res.noexcept_eq_ok] at h
  cases hg : s.good with
  | false => rw [hg] at h; simp at h; subst h; simp at hst
  | true =>
    rw [hg] at h
    simp only [Bool.not_true, Bool.false_eq_true, if_false] at h
    rw [Res.bind_eq_ok] at h
    obtain ⟨x, hx, h⟩ := h
    have hres := header_result hx
    obtain ⟨x1, x2⟩ := x
    simp only at h hres
    cases x1 with
    | error e =>
      simp at h; subst h
      have := hres.1 e rfl
      simp only at hst
      omega
    | ok t =>
      simp only at h
      obtain ⟨rfl, he⟩ := hres.2 t rfl
      obtain ⟨ls, fin, i1, i2, i3, i4, i5, i6, i7, i8, i9, i10, i11⟩ := sp3Loop_inv t sr fuel _ vec 0 _ _ o he
        (fillLine_length junk _ 80 (by omega)) (by omega) h hst
      obtain ⟨_, a2, a3, a4⟩ := Stream.getline_ok (l := (s.getline MAX_RECORD_CHARS).1) (s' := (s.getline MAX_RECORD_CHARS).2) (s := s) (n := MAX_RECORD_CHARS) rfl
        ((Stream.good_iff _).1 i1).2
      rcases a4 with ⟨_, _, a5, _⟩ | ⟨tail, a4, a5⟩
      · have := ((Stream.good_iff _).1 i1).1; rw [a5] at this; cases this
      · have hrest : (s.getline MAX_RECORD_CHARS).2.rest = tail := by
          rw [a5]
          have := Stream.adv_rest_append (s := s) (a := (s.getline MAX_RECORD_CHARS).1 ++ ['\n']) (b := tail) (by rw [a4]; simp)
          simpa using this
        refine ⟨(s.getline MAX_RECORD_CHARS).1, ls, fin, ⟨by rw [← i2, hrest]; exact a4, ⟨a2, by simpa [MAX_RECORD_CHARS] using a3⟩, i3⟩, ?_, by simpa using i7,
          by simpa using i8, i6, by simpa using i10, by simpa using i9, ?_⟩
        · intro e hw hline
          obtain ⟨t', h1, h2⟩ := sp3Header_wf hw (junk.drop (e.line.length + 1)) he
          have h1' : sp3Header (fillLine junk e.line) x2 = .ok (.ok t', x2) := h1
          rw [hline, hx] at h1'
          simp at h1'
          rw [i4, h1']; exact h2
        · rcases i11 with ⟨a, b, c⟩ | h
          · left
            refine ⟨a, b, ?_, by rw [c]; exact i1⟩
            rw [c]; exact Stream.adv_rest_append i2
          · exact Or.inr h


/-! ## Files that end early -/

theorem line_prefix : ∀ {l m x y : List Char}, '\n' ∉ l → '\n' ∉ m → l ++ '\n' :: x <+: m ++ '\n' :: y → l = m ∧ x <+: y := by
  intro l
  induction l with
  | nil =>
    intro m x y _ hm h
    cases m with
    | nil => simpa using h
    | cons c m => simp at h; exact absurd (List.mem_cons.2 (Or.inl h.1)) hm
  | cons c l ih =>
    intro m x y hl hm h
    cases m with
    | nil => simp at h; exact absurd (by simp [h.1]) hl
    | cons d m =>
      simp only [List.cons_append, List.cons_prefix_cons] at h
      obtain ⟨rfl, h⟩ := h
      obtain ⟨rfl, h'⟩ := ih (fun hc => hl (by simp [hc])) (fun hc => hm (by simp [hc])) h
      exact ⟨rfl, h'⟩

theorem no_end : ∀ (ls L : List (List Char)) (fin : List Char), (∀ l ∈ L, '\n' ∉ l ∧ endsEpoch l = false) → (∀ l ∈ ls, '\n' ∉ l) →
    linesText ls ++ fin <+: linesText L ++ c!"EO" → fin.head? = some '*' ∨ c!"EOF" <+: fin → False := by
  intro ls
  induction ls with
  | nil =>
    intro L fin hL _ h hfin
    simp only [linesText, List.map_nil, List.flatten_nil, List.nil_append] at h
    cases L with
    | nil =>
      simp only [List.map_nil, List.flatten_nil, List.nil_append] at h
      rcases hfin with hf | hf
      · cases fin with
        | nil => simp at hf
        | cons c fin => simp at hf; subst hf; simp at h
      · have := (hf.trans h).length_le; simp at this
    | cons m L =>
      have h' : fin <+: m ++ '\n' :: (linesText L ++ c!"EO") := by
        have := h; simp only [List.map_cons, List.flatten_cons, List.append_assoc] at this; simpa [linesText] using this
      obtain ⟨hm, hme⟩ := hL m (by simp)
      obtain ⟨e1, e2⟩ := ends_false hme
      rcases hfin with hf | hf
      · cases fin with
        | nil => simp at hf
        | cons c fin =>
          simp at hf; subst hf
          cases m with
          | nil => simp at h'
          | cons d m => simp at h'; exact e1 (by rw [← h'.1]; rfl)
      · have h'' := hf.trans h'
        match m, hm, e2, h'' with
        | [], _, _, h'' => simp at h''
        | [a], _, _, h'' => simp at h''
        | [a, b], _, _, h'' => simp at h''
        | a :: b :: c :: m, _, e2, h'' => simp at h''; apply e2; simp; exact ⟨h''.1.symm, h''.2.1.symm, h''.2.2.symm⟩
  | cons l ls ih =>
    intro L fin hL hls h hfin
    cases L with
    | nil =>
      have hmem : '\n' ∈ (linesText [] ++ c!"EO" : List Char) := h.subset (by rw [linesText_cons]; simp)
      simp [linesText] at hmem
    | cons m L =>
      rw [linesText_cons, linesText_cons] at h
      simp only [List.append_assoc, List.cons_append] at h
      obtain ⟨rfl, h'⟩ := line_prefix (hls l (by simp)) (hL m (by simp)).1 h
      exact ih L fin (fun x hx => hL x (by simp [hx])) (fun x hx => hls x (by simp [hx])) h' hfin

/-- **C85**.  Of an epoch the file holds only a beginning, or all of it but neither the beginning of the next epoch nor a complete
`EOF` after it: `get_next_epoch` does not return 0 or -1 (it returns an error, or not at all). -/
theorem C85_cut_not_delivered {b : EpochBlock} (hh : LineOK b.header.line) (hb : ∀ l ∈ b.lines, LineOK l ∧ endsEpoch l = false)
    (junk : List Char) (hj : junk.length = 128) (fuel : Nat) (t0 : Sp3Epoch) (vec : List Sp3Rec) (sr : Int) (s : Stream) (errno : Int)
    (hcut : s.rest <+: b.text ++ c!"EO") (o : Sp3Out) (h : getNextEpoch junk fuel t0 vec sr s errno = .ok o) :
    o.status ≠ 0 ∧ o.status ≠ -1 := by
  by_contra hc
  obtain ⟨head, ls, fin, h1, _, _, _, _, _, _, h2⟩ := C85_returned junk hj fuel t0 vec sr s errno o h (by tauto)
  have hfin : fin.head? = some '*' ∨ c!"EOF" <+: fin := by rcases h2 with ⟨_, h, _⟩ | ⟨_, h⟩ <;> simp [h]
  rw [h1.text] at hcut
  unfold EpochBlock.text at hcut
  rw [List.append_assoc, List.cons_append] at hcut
  obtain ⟨_, hcut⟩ := line_prefix h1.head.1 hh.1 hcut
  exact no_end ls b.lines fin (fun l hl => ⟨(hb l hl).1.1, (hb l hl).2⟩) (fun l hl => (h1.lines l hl).1) hcut hfin


theorem pLines_short : ∀ (q : List Char), '\n' ∉ q → ∀ b, pLines b q ≤ 1 ∧ (b = false → pLines b q = 0) := by
  intro q
  induction q with
  | nil => intro _ b; simp [pLines]
  | cons c q ih =>
    intro h b
    simp only [List.mem_cons, not_or] at h
    have hc : (c == '\n') = false := by simpa using Ne.symm h.1
    have := (ih h.2 false).2 rfl
    rw [pLines, hc, this]
    cases b <;> simp
    split <;> simp

theorem pLines_text (q : List Char) (hq : '\n' ∉ q) : ∀ (ls : List (List Char)), (∀ l ∈ ls, '\n' ∉ l) →
    pLines true (linesText ls ++ q) ≤ (ls.filter isPLine).length + 1 := by
  intro ls
  induction ls with
  | nil => intro _; simpa [linesText] using (pLines_short q hq true).1
  | cons l ls ih =>
    intro h
    rw [linesText_cons]
    simp only [List.append_assoc, List.cons_append]
    rw [show l ++ '\n' :: (linesText ls ++ q) = l ++ '\n' :: (linesText ls ++ q) from rfl, pLines_line _ _ (h l (by simp))]
    have := ih (fun x hx => h x (by simp [hx]))
    cases hp : isPLine l
    · rw [List.filter_cons_of_neg (by simp [hp])]; simpa using this
    · rw [List.filter_cons_of_pos hp]; simp; omega

theorem cut_body_fuel {h : EpochLine} (hw : h.WF) {pre : List (List Char)} {ps : List PosLine} (hb : IsEpochBody pre ps)
    {l q : List Char} (hl : LineOK l ∧ endsEpoch l = false) (hq : q <+: l)
    (junk : List Char) (hj : Term junk) (t0 : Sp3Epoch) (vec : List Sp3Rec) (hsz : ps.length < vec.length) (sr : Int) (s : Stream)
    {errno : Int} (he : errno ≠ ERANGE) (hg : s.good = true) (hr : s.rest = h.line ++ '\n' :: (linesText pre ++ q)) (fuel : Nat) :
    getNextEpoch junk fuel t0 vec sr s errno = .diverge ∨
    ∃ o, getNextEpoch junk fuel t0 vec sr s errno = .ok o ∧ 22 ≤ o.status ∧ o.status ≤ 28 ∧ q.head? = some 'P' ∧ h.Is o.t ∧ o.satsRead = sr ∧
      o.vec.length = vec.length := by
  have hq1 : '\n' ∉ q := fun h => hl.1.1 (hq.subset h)
  have hq2 : q.length ≤ 127 := hq.length_le.trans hl.1.2.2
  obtain ⟨t, h1, h2, h3⟩ := getNextEpoch_head hw junk fuel t0 vec sr s he hg hr
  have hT : Term (fillLine junk h.line) := by
    have := hj.fill s
    rwa [Stream.getline_line (n := MAX_RECORD_CHARS) hg hr hw.ok.1 (by simpa [MAX_RECORD_CHARS] using hw.ok.2.2)] at this
  have hroom : 0 + (if (s.adv (h.line.length + 1)).good then pLines true (s.adv (h.line.length + 1)).rest else 0) ≤ vec.length := by
    rw [h3]
    have := pLines_text q hq1 pre (fun l hl => (hb.ok l hl).1)
    rw [hb.records, List.length_map] at this
    split <;> omega
  rcases sp3Loop_safe t sr fuel (fillLine junk h.line) vec 0 (s.adv (h.line.length + 1)) errno hT hroom with ⟨o, ho, hlen⟩ | hd
  · right
    refine ⟨o, by rw [h2, ho]; rfl, ?_⟩
    replace ho := ((sp3Loop_le t sr (n := fuel) (m := pre.length + (fuel + 1)) (by omega) _ _ _ _ _).eq (by rw [ho]; simp)).trans ho
    obtain ⟨recs, buf', h4, h5, h6⟩ := sp3Loop_body t sr (fuel + 1) errno he q pre ps (fillLine junk h.line) [] vec (s.adv (h.line.length + 1)) hb hg h3
      (by rw [hT.1]; omega) (by omega)
    simp only [List.nil_append, List.length_nil] at h6
    rw [h6] at ho
    have hgS : ((s.adv (h.line.length + 1)).adv (linesText pre).length).good = true := hg
    have hrS : ((s.adv (h.line.length + 1)).adv (linesText pre).length).rest = q := Stream.adv_rest_append h3
    generalize (s.adv (h.line.length + 1)).adv (linesText pre).length = S at ho hgS hrS
    by_cases hq0 : q = []
    · rw [sp3Loop_end _ _ _ _ _ _ _ _ hgS (by rw [hrS, hq0])] at ho; cases ho
    obtain ⟨c, q', hcq⟩ : ∃ c q', q = c :: q' := by cases q with | nil => exact absurd rfl hq0 | cons a b => exact ⟨a, b, rfl⟩
    have hcl : c ≠ '*' := by
      obtain ⟨u, hu⟩ := hq
      have := (ends_false hl.2).1
      rw [← hu, hcq] at this
      simpa using this
    unfold sp3Loop at ho
    simp only [Stream.peek_cons hgS (hrS.trans hcq), peekedStar, hcl, decide_false, Bool.false_eq_true, if_false,
      Stream.getline_last (n := MAX_RECORD_CHARS) hgS hrS hq1 (by simpa [MAX_RECORD_CHARS] using hq2)] at ho
    split at ho
    · rw [sp3Loop_bad _ _ _ _ _ _ _ _ (by simp [Stream.good])] at ho; cases ho
    · rename_i st e' hx
      rcases sp3Line_inr hx with ⟨hP, a, b⟩ | ⟨_, hE, _⟩
      · rw [if_neg (by omega)] at ho
        simp only [Res.ok.injEq] at ho
        subst ho
        exact ⟨a, b, by simpa [isPLine] using hP, h1, rfl, by simpa using hlen⟩
      · exfalso
        obtain ⟨u, hu⟩ := hE.trans hq
        apply (ends_false hl.2).2
        rw [← hu]; rfl
    all_goals cases ho
  · left; rw [h2, hd]; rfl

/-- **C85**.  The file ends within the body of an epoch (after a complete header and the complete lines `pre`, with the beginning `q` of another
line, or nothing).  With room for the records, the call returns a status from 22 to 28 (a defect of the cut position line) without setting the number of
satellites, or never returns. -/
theorem C85_cut_body {h : EpochLine} (hw : h.WF) {pre : List (List Char)} {ps : List PosLine} (hb : IsEpochBody pre ps)
    {l q : List Char} (hl : LineOK l ∧ endsEpoch l = false) (hq : q <+: l)
    (junk : List Char) (hj : Term junk) (t0 : Sp3Epoch) (vec : List Sp3Rec) (hsz : ps.length < vec.length) (sr : Int) (s : Stream)
    {errno : Int} (he : errno ≠ ERANGE) (hg : s.good = true) (hr : s.rest = h.line ++ '\n' :: (linesText pre ++ q)) :
    (∀ fuel, getNextEpoch junk fuel t0 vec sr s errno = .diverge) ∨
    ∃ o, (∃ n, ∀ fuel, n ≤ fuel → getNextEpoch junk fuel t0 vec sr s errno = .ok o) ∧ 22 ≤ o.status ∧ o.status ≤ 28 ∧ q.head? = some 'P' ∧
      h.Is o.t ∧ o.satsRead = sr ∧ o.vec.length = vec.length := by
  by_cases hall : ∀ fuel, getNextEpoch junk fuel t0 vec sr s errno = .diverge
  · exact Or.inl hall
  · right
    push Not at hall
    obtain ⟨n, hn⟩ := hall
    rcases cut_body_fuel hw hb hl hq junk hj t0 vec hsz sr s he hg hr n with hd | ⟨o, ho, h2⟩
    · exact absurd hd hn
    · exact ⟨o, ⟨n, fun fuel hf => (fuel_getNextEpoch junk hf t0 vec sr s errno hn).trans ho⟩, h2⟩

/-! ## Whole files -/

theorem epoch_split : ∀ (bs : List EpochBlock) (t : List Char), bs ≠ [] → t <+: (bs.map EpochBlock.text).flatten ++ c!"EO" →
    ∃ (m : Nat) (b : EpochBlock) (p : List Char), bs[m]? = some b ∧ t = ((bs.take m).map EpochBlock.text).flatten ++ p ∧ p <+: b.text ++ c!"EO" ∧
      (p ≠ [] ∨ m = 0) := by
  intro bs
  induction bs with
  | nil => intro t h; exact absurd rfl h
  | cons b bs ih =>
    intro t _ h
    cases bs with
    | nil => exact ⟨0, b, t, rfl, by simp, by simpa using h, Or.inr rfl⟩
    | cons b2 bs =>
      rw [List.map_cons, List.flatten_cons, List.append_assoc] at h
      rcases List.prefix_or_prefix_of_prefix h (List.prefix_append b.text _) with h1 | ⟨u, hu⟩
      · exact ⟨0, b, t, rfl, by simp, h1.trans (List.prefix_append _ _), Or.inr rfl⟩
      · rw [← hu] at h
        have h' := (List.prefix_append_right_inj _).1 h
        by_cases hun : u = []
        · exact ⟨0, b, t, rfl, by simp, by rw [← hu, hun]; simp, Or.inr rfl⟩
        · obtain ⟨m, b', p, e1, e2, e3, e4⟩ := ih u (by simp) h'
          refine ⟨m + 1, b', p, by simpa using e1, by rw [← hu, e2]; simp, e3, Or.inl ?_⟩
          rintro rfl
          rcases e4 with e4 | rfl
          · exact e4 rfl
          · exact hun (by simpa using e2)

/-- **C85**.  The remaining text of the file is any beginning of well formed epochs and an end of file line, but for the last char of "EOF" at the latest.
Then there is a number `m` of complete epochs, delivered with status 0; the call on epoch `m`, with which the file ends, returns neither
0 nor -1: an error, or it does not return. -/
theorem C85_sequence (junk : Nat → List Char) (hj : ∀ k, (junk k).length = 128) (fuel : Nat) {errno : Int} (he : errno ≠ ERANGE)
    (bs : List EpochBlock) (hne : bs ≠ []) (t0 : Sp3Epoch) (vec : List Sp3Rec) (sr : Int) (s : Stream) (hw : ∀ b ∈ bs, b.WF vec.length fuel)
    (hg : s.good = true) (hr : s.rest <+: (bs.map EpochBlock.text).flatten ++ c!"EO") :
    ∃ (m : Nat) (b : EpochBlock) (p : List Char), bs[m]? = some b ∧ s.rest = ((bs.take m).map EpochBlock.text).flatten ++ p ∧ p <+: b.text ++ c!"EO" ∧
      (∀ calls, calls ≤ m → ∃ outs, readEpochs junk fuel calls t0 vec sr s errno = .ok outs ∧ List.Forall₂ Delivers (bs.take calls) outs ∧
        ∀ o ∈ outs, o.status = 0) ∧
      (∀ calls outs, m < calls → readEpochs junk fuel calls t0 vec sr s errno = .ok outs → ∃ good last, outs = good ++ [last] ∧
        List.Forall₂ Delivers (bs.take m) good ∧ (∀ o ∈ good, o.status = 0) ∧ last.status ≠ 0 ∧ last.status ≠ -1) := by
  obtain ⟨m, b, p, e1, e2, e3, e4⟩ := epoch_split bs s.rest hne hr
  refine ⟨m, b, p, e1, e2, e3, ?_⟩
  clear hr hne
  induction m generalizing bs t0 vec sr s with
  | zero =>
    refine ⟨?_, ?_⟩
    · intro calls hc
      obtain rfl : calls = 0 := by omega
      exact ⟨[], rfl, .nil, by simp⟩
    · intro calls outs hc h
      obtain ⟨k, rfl⟩ : ∃ k, calls = k + 1 := ⟨calls - 1, by omega⟩
      rw [readEpochs, Res.bind_eq_ok] at h
      obtain ⟨o, ho, h⟩ := h
      have hb := hw b (List.mem_of_getElem? e1)
      have hst := C85_cut_not_delivered hb.header.ok (fun l hl => ⟨hb.body.ok l hl, hb.body.inside l hl⟩) _ (hj _) fuel t0 vec sr s errno
        (by rw [e2]; simpa using e3) o ho
      rw [if_pos hst.1] at h
      simp at h
      exact ⟨[], o, by simp [← h], .nil, by simp, hst⟩
  | succ m ih =>
    cases bs with
    | nil => simp at e1
    | cons b0 bs =>
      have hb0 := hw b0 (by simp)
      have hb := hw b (List.mem_of_getElem? e1)
      have hp : p ≠ [] := e4.resolve_right (by omega)
      have hrest : s.rest = b0.text ++ (((bs.take m).map EpochBlock.text).flatten ++ p) := by rw [e2]; simp
      have hstar : ∃ tl, ((bs.take m).map EpochBlock.text).flatten ++ p = '*' :: tl := by
        have key : ∀ x : EpochBlock, x.header.WF → ∀ y, y ≠ [] → y <+: x.text ++ c!"EO" → y.head? = some '*' := by
          intro x hx y hy hyx
          have hs := hx.star
          rw [← List.head?_eq_getElem?] at hs
          cases hxl : x.header.line with
          | nil => rw [hxl] at hs; simp at hs
          | cons c l =>
            rw [hxl] at hs; simp at hs; subst hs
            cases y with
            | nil => exact absurd rfl hy
            | cons d y =>
              unfold EpochBlock.text at hyx
              rw [hxl] at hyx
              simp at hyx
              simp [hyx.1]
        have hh : (((bs.take m).map EpochBlock.text).flatten ++ p).head? = some '*' := by
          cases m with
          | zero => simpa using key b hb.header p hp e3
          | succ m =>
            cases bs with
            | nil => simp at e1
            | cons b1 bs =>
              have := key b1 (hw b1 (by simp)).header b1.text (by unfold EpochBlock.text; simp) (List.prefix_append _ _)
              cases hb1 : b1.text with
              | nil => rw [hb1] at this; simp at this
              | cons c l => rw [hb1] at this; simp at this; subst this; simp [hb1]
        cases hx : ((bs.take m).map EpochBlock.text).flatten ++ p with
        | nil => rw [hx] at hh; simp at hh
        | cons c tl => rw [hx] at hh; simp at hh; subst hh; exact ⟨tl, rfl⟩
      obtain ⟨tl, htl⟩ := hstar
      have hr0 : s.rest = b0.header.line ++ '\n' :: (linesText b0.lines ++ '*' :: tl) := by
        rw [hrest, htl]; simp [EpochBlock.text]
      obtain ⟨t1, recs, g1, g2, g3⟩ := C31_epoch_before_header hb0.header hb0.body (junk s.pos) (hj _) fuel hb0.short t0 vec hb0.size sr s tl he hg hr0
      have hlen : (recs ++ vec.drop b0.records.length).length = vec.length := by
        have := g3.length_eq
        have := hb0.size
        simp; omega
      have hr1 : (s.adv (b0.header.line.length + 1 + (linesText b0.lines).length)).rest = ((bs.take m).map EpochBlock.text).flatten ++ p := by
        have := Stream.adv_rest_append (s := s) (a := b0.text) (b := ((bs.take m).map EpochBlock.text).flatten ++ p) hrest
        rw [← this]; congr 2; simp [EpochBlock.text]; omega
      have hdel : Delivers b0 ⟨0, t1, recs ++ vec.drop b0.records.length, b0.records.length, s.adv (b0.header.line.length + 1 + (linesText b0.lines).length), errno⟩ :=
        ⟨g2, rfl, recs, List.prefix_append _ _, g3⟩
      obtain ⟨f1, f2⟩ := ih bs t1 (recs ++ vec.drop b0.records.length) b0.records.length (s.adv (b0.header.line.length + 1 + (linesText b0.lines).length))
        (fun x hx => by rw [hlen]; exact hw x (by simp [hx])) hg (by simpa using e1) hr1 (Or.inl hp)
      refine ⟨?_, ?_⟩
      · intro calls hc
        cases calls with
        | zero => exact ⟨[], rfl, .nil, by simp⟩
        | succ k =>
          obtain ⟨outs, k1, k2, k3⟩ := f1 k (by omega)
          refine ⟨_ :: outs, ?_, .cons hdel k2, ?_⟩
          · rw [readEpochs, g1, Res.bind_ok]
            simp only [ne_eq, not_true_eq_false, if_false]
            rw [k1, Res.bind_ok]; rfl
          · intro o ho
            rcases List.mem_cons.1 ho with rfl | ho
            · rfl
            · exact k3 o ho
      · intro calls outs hc h
        obtain ⟨k, rfl⟩ : ∃ k, calls = k + 1 := ⟨calls - 1, by omega⟩
        rw [readEpochs, g1, Res.bind_ok] at h
        simp only [ne_eq, not_true_eq_false, if_false] at h
        rw [Res.bind_eq_ok] at h
        obtain ⟨r, hr', h⟩ := h
        simp at h; subst h
        obtain ⟨good, last, k1, k2, k3, k4⟩ := f2 k r (by omega) hr'
        refine ⟨_ :: good, last, by rw [k1]; rfl, .cons hdel k2, ?_, k4⟩
        intro o ho
        rcases List.mem_cons.1 ho with rfl | ho
        · rfl
        · exact k3 o ho

end Ggnss
