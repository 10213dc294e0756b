import Verif.Spec.Sp3Fate
import Verif.Props.Sp3Sound
import Verif.Props.Sp3Any
import Verif.Model.Sp3Date
/-! # C109: exactly when reading an SP3 epoch comes back -/
namespace Ggnss

/-- The header line of an epoch: what is read, or the seconds are beyond a `long`. -/
theorem header_fate {l tail : List Char} (h20 : 20 ≤ l.length) {errno : Int} (he : errno ≠ ERANGE) :
    (∃ t, sp3Header (l ++ NUL :: tail) errno = .ok (.ok t, errno) ∧ HeadGives l t ∧ InLong t.micros) ∨
    (∃ st e, sp3Header (l ++ NUL :: tail) errno = .ok (.error st, e) ∧ HeadFails l st) ∨
    (∃ t, sp3Header (l ++ NUL :: tail) errno = .ub ∧ HeadGives l t ∧ ¬ InLong t.micros) := by
  obtain ⟨c0, hc0⟩ : ∃ c, l[0]? = some c := ⟨_, List.getElem?_eq_getElem (by omega)⟩
  obtain ⟨c1, hc1⟩ : ∃ c, l[1]? = some c := ⟨_, List.getElem?_eq_getElem (by omega)⟩
  have hpre : c!"* " <+: l ↔ (c0 = '*' ∧ c1 = ' ') := by
    obtain ⟨a, b, q, rfl⟩ : ∃ a b q, l = a :: b :: q := by
      match l, h20 with
      | a :: b :: q, _ => exact ⟨a, b, q, rfl⟩
    simp only [List.getElem?_cons_zero, List.getElem?_cons_succ, Option.some.injEq] at hc0 hc1
    subst hc0 hc1
    simp [List.cons_prefix_cons, eq_comm]
  unfold sp3Header
  simp only [getAt_of hc0, getAt_of hc1, Res.bind_ok]
  by_cases hs : c0 = '*' ∧ c1 = ' '
  swap
  · rw [if_pos (by tauto)]
    exact Or.inr (Or.inl ⟨2, _, rfl, .start (by rw [hpre]; exact hs)⟩)
  rw [if_neg (by tauto)]
  have hstart := hpre.2 hs
  obtain ⟨p, hp, hcase⟩ := strtolA_text (l := l) (tail := tail) (off := 3) (by omega)
  rw [hp, Res.bind_ok]
  rcases hcase with ⟨rfl, hno⟩ | ⟨v, r', rfl, hv⟩ | ⟨w, r', rfl, hno⟩
  · rw [if_pos (Or.inl (by decide))]
    exact Or.inr (Or.inl ⟨5, _, rfl, .year hstart (Or.inl hno)⟩)
  swap
  · simp only [strtolErr, if_true, or_true]
    exact Or.inr (Or.inl ⟨5, _, rfl, .year hstart (Or.inl hno)⟩)
  simp only [strtolErr, strtolVal, Bool.false_eq_true, if_false]
  by_cases hy : toInt32 v = 0
  · rw [if_pos (Or.inl hy)]
    exact Or.inr (Or.inl ⟨5, _, rfl, .year hstart (Or.inr ⟨v, hv, hy⟩)⟩)
  rw [if_neg (by simp [hy, he])]
  obtain ⟨vs, b, hd, hcase⟩ := sp3Date_text (l := l) (tail := tail) he 4 0 (fun m hm => by omega)
  rw [show (0 + 1 : Nat) = 1 from rfl] at hd
  rw [hd, Res.bind_ok]
  simp only [Nat.zero_add] at hcase
  rcases hcase with ⟨rfl, hvals⟩ | ⟨j, hj, rfl, hbef, hno⟩
  swap
  · refine Or.inr (Or.inl ⟨_, _, rfl, ?_⟩)
    have := HeadFails.part v j hstart hv hy hj hbef hno
    rwa [show (5 + ((1 + j : Nat) : Int)) = 6 + j by push_cast; omega]
  simp only
  obtain ⟨q, hq, hcase⟩ := strtodA_text (l := l) (tail := tail) (off := 20) (by omega)
  rw [hq, Res.bind_ok]
  rcases hcase with ⟨x, r', rfl, hx⟩ | ⟨hbad, hno⟩
  swap
  · have hf : HeadFails l 11 := .seconds v hstart hv hy (fun m hm => (hvals m hm).imp fun _ h => h.1) hno
    rcases hbad with rfl | ⟨x, r', rfl⟩
    · exact Or.inr (Or.inl ⟨_, _, rfl, hf⟩)
    · simp only [if_true]
      exact Or.inr (Or.inl ⟨_, _, rfl, hf⟩)
  simp only [Bool.false_eq_true, if_false]
  have hg : HeadGives l ⟨toInt32 v, vs.getD 0 0, vs.getD 1 0, vs.getD 2 0, vs.getD 3 0, truncRat (x * 1000000)⟩ :=
    ⟨hstart, ⟨v, hv, rfl, hy⟩, hvals 0 (by omega), hvals 1 (by omega), hvals 2 (by omega), hvals 3 (by omega), x, hx, truncRat_abs _⟩
  by_cases hl : LONG_MIN ≤ truncRat (x * 1000000) ∧ truncRat (x * 1000000) ≤ LONG_MAX
  · rw [castLong, if_pos hl]
    exact Or.inl ⟨_, rfl, hg, hl⟩
  · rw [castLong, if_neg hl]
    exact Or.inr (Or.inr ⟨_, rfl, hg, hl⟩)

/-- The lines of an epoch: they end, one of them cannot be read, or the vector is too small. -/
theorem sp3Loop_fate (t : Sp3Epoch) (sr : Int) {errno : Int} (he : errno ≠ ERANGE) (tail : List Char) (f : Nat) :
    ∀ (ls : List (List Char)) (buf : List Char) (pre suf : List Sp3Rec) (s : Stream),
      EpochLines ls → s.good = true → s.rest = linesText ls ++ tail → 80 ≤ buf.length →
      (∃ recs buf', List.Forall₂ PosGives (ls.filter isPLine) recs ∧ recs.length ≤ suf.length ∧ 80 ≤ buf'.length ∧
        sp3Loop t sr (ls.length + f) buf (pre ++ suf) pre.length s errno =
          sp3Loop t sr f buf' (pre ++ recs ++ suf.drop recs.length) (pre.length + recs.length) (s.adv (linesText ls).length) errno) ∨
      (∃ recs j l st o, ls[j]? = some l ∧ isPLine l = true ∧ PosFails l st ∧ List.Forall₂ PosGives ((ls.take j).filter isPLine) recs ∧ recs.length ≤ suf.length ∧
        sp3Loop t sr (ls.length + f) buf (pre ++ suf) pre.length s errno = .ok o) ∨
      (∃ recs j l r, ls[j]? = some l ∧ isPLine l = true ∧ PosGives l r ∧ List.Forall₂ PosGives ((ls.take j).filter isPLine) recs ∧ recs.length = suf.length ∧
        sp3Loop t sr (ls.length + f) buf (pre ++ suf) pre.length s errno = .ub) := by
  intro ls
  induction ls with
  | nil =>
    intro buf pre suf s _ hg hr hbuf
    exact Or.inl ⟨[], buf, .nil, by simp, hbuf, by simp [linesText]⟩
  | cons l ls ih =>
    intro buf pre suf s hb hg hr hbuf
    have hok := hb.ok l (by simp)
    have hend := hb.inside l (by simp)
    have hb' : EpochLines ls := ⟨fun q hq => hb.ok q (by simp [hq]), fun q hq => hb.inside q (by simp [hq]), fun q hq => hb.reach q (by simp [hq])⟩
    have hr' : s.rest = l ++ '\n' :: (linesText ls ++ tail) := by
      rw [hr, linesText_cons]; simp
    have hrest : (s.adv (l.length + 1)).rest = linesText ls ++ tail := by
      have := Stream.adv_rest_append (s := s) (a := l ++ ['\n']) (b := linesText ls ++ tail) (by rw [hr']; simp)
      simpa using this
    have hlen : ∀ q, (linesText (l :: q)).length = l.length + 1 + (linesText q).length := by
      intro q; rw [linesText_cons]; simp; omega
    rw [show (l :: ls).length + f = (ls.length + f) + 1 by simp; omega]
    rw [sp3Loop_step t sr (ls.length + f) buf (pre ++ suf) pre.length s errno hg hr' hok (ends_false hend).1]
    cases hP : isPLine l with
    | false =>
      rw [sp3Line_other buf l _ _ errno hok hP, if_neg (ends_false hend).2]
      simp only
      rcases ih (fillLine buf l) pre suf (s.adv (l.length + 1)) hb' hg hrest (fillLine_length buf l 80 hbuf) with
        ⟨recs, buf', h1, h2, h3, h4⟩ | ⟨recs, j, q, st, o, h1, h2, h3, h4, h5, h6⟩ | ⟨recs, j, q, r, h1, h2, h3, h4, h5, h6⟩
      · refine Or.inl ⟨recs, buf', by rw [List.filter_cons_of_neg (by simp [hP])]; exact h1, h2, h3, ?_⟩
        rw [h4, hlen, Stream.adv_adv]
      · refine Or.inr (Or.inl ⟨recs, j + 1, q, st, o, by simpa using h1, h2, h3, ?_, h5, h6⟩)
        rw [List.take_succ_cons, List.filter_cons_of_neg (by simp [hP])]; exact h4
      · refine Or.inr (Or.inr ⟨recs, j + 1, q, r, by simpa using h1, h2, h3, ?_, h5, h6⟩)
        rw [List.take_succ_cons, List.filter_cons_of_neg (by simp [hP])]; exact h4
    | true =>
      obtain ⟨q, hq, hcase⟩ := position_text (tail := buf.drop (l.length + 1)) hP (hb.reach l (by simp) hP) {} he (fillLine_length buf l 80 hbuf)
      have hq : getNextPosition (fillLine buf l) {} errno = .ok q := hq
      have h0 : l.head?.getD NUL = 'P' := by
        have : l.head? = some 'P' := by simpa [isPLine] using hP
        rw [this]; rfl
      unfold sp3Line
      simp only [getAt_head, Res.bind_ok, h0, if_true, hq]
      rcases hcase with ⟨hs0, hgives, hqe⟩ | ⟨hfail, hs⟩
      · rw [if_neg (by simp [hs0])]
        unfold vecStore
        cases suf with
        | nil =>
          rw [if_neg (by simp)]
          exact Or.inr (Or.inr ⟨[], 0, l, q.out, rfl, hP, hgives, by simp, rfl, rfl⟩)
        | cons x suf =>
          rw [if_pos (by simp), Res.bind_ok]
          simp only [Res.pure_eq, hqe]
          have hset : (pre ++ x :: suf).set pre.length q.out = pre ++ [q.out] ++ suf := by simp
          rw [hset, show pre.length + 1 = (pre ++ [q.out]).length by simp]
          rcases ih (fillLine buf l) (pre ++ [q.out]) suf (s.adv (l.length + 1)) hb' hg hrest (fillLine_length buf l 80 hbuf) with
            ⟨recs, buf', h1, h2, h3, h4⟩ | ⟨recs, j, k, st, o, h1, h2, h3, h4, h5, h6⟩ | ⟨recs, j, k, r, h1, h2, h3, h4, h5, h6⟩
          · refine Or.inl ⟨q.out :: recs, buf', by rw [List.filter_cons_of_pos (by simp [hP])]; exact .cons hgives h1, by simpa using h2, h3, ?_⟩
            rw [h4, hlen, Stream.adv_adv]
            simp [Nat.add_comm, Nat.add_left_comm]
          · refine Or.inr (Or.inl ⟨q.out :: recs, j + 1, k, st, o, by simpa using h1, h2, h3, ?_, by simpa using h5, h6⟩)
            rw [List.take_succ_cons, List.filter_cons_of_pos (by simp [hP])]; exact .cons hgives h4
          · refine Or.inr (Or.inr ⟨q.out :: recs, j + 1, k, r, by simpa using h1, h2, h3, ?_, by simpa using h5, h6⟩)
            rw [List.take_succ_cons, List.filter_cons_of_pos (by simp [hP])]; exact .cons hgives h4
      · rw [if_pos hs]
        simp only [Res.pure_eq]
        have hst : q.status + 20 ≠ -1 := by
          have := hfail.pos
          omega
        rw [if_neg hst]
        exact Or.inr (Or.inl ⟨[], 0, l, q.status, _, rfl, hP, hfail, by simp, by simp, rfl⟩)

/-- The end of the epoch. -/
theorem sp3Loop_close (t : Sp3Epoch) (sr : Int) (f : Nat) (buf : List Char) (vec : List Sp3Rec) (n : Nat) (s : Stream) (errno : Int) (hg : s.good = true)
    {b : Bool} (hc : EpochClose s.rest b) : (b = true ∧ ∃ o, sp3Loop t sr (f + 1) buf vec n s errno = .ok o) ∨ (b = false ∧ sp3Loop t sr (f + 1) buf vec n s errno = .diverge) := by
  generalize hr : s.rest = R at hc
  cases hc with
  | star tail =>
    have hpk := Stream.peek_cons (s := s) hg hr
    refine Or.inl ⟨rfl, ⟨0, t, vec, n, s, errno⟩, ?_⟩
    unfold sp3Loop
    simp [hpk, peekedStar]
  | eof e tail hok heof htail =>
    obtain ⟨e', hE⟩ : ∃ e', e = 'E' :: e' := by
      cases e with
      | nil => simp at heof
      | cons c e' => simp at heof; exact ⟨e', by rw [heof.1]⟩
    have hnp : isPLine e = false := by rw [hE]; simp [isPLine]
    have hpk : s.peek = (some 'E', s) := Stream.peek_cons hg (by rw [hr, hE]; rfl)
    obtain ⟨s', hgl⟩ : ∃ s', s.getline MAX_RECORD_CHARS = (e, s') := by
      rcases htail with rfl | ⟨r, rfl⟩
      · exact ⟨_, Stream.getline_last (n := MAX_RECORD_CHARS) hg (by simpa using hr) hok.1 (by simpa [MAX_RECORD_CHARS] using hok.2.2)⟩
      · exact ⟨_, Stream.getline_line (n := MAX_RECORD_CHARS) hg hr hok.1 (by simpa [MAX_RECORD_CHARS] using hok.2.2)⟩
    have hline := sp3Line_other buf e vec n errno hok hnp
    rw [if_pos heof] at hline
    refine Or.inl ⟨rfl, ⟨-1, t, vec, n, s', errno⟩, ?_⟩
    unfold sp3Loop
    simp only [hpk, peekedStar, hgl]
    rw [hline]
    rfl
  | nothing => exact Or.inr ⟨rfl, sp3Loop_end _ _ _ _ _ _ _ _ hg hr⟩

/-- What a result of the model means for the caller. -/
def fateOf : Res Sp3Dated → Option CallFate
  | .ok _ => some .returns
  | .ub => some .undefined
  | .diverge => some .never
  | .terminate => some .killed
  | .throw _ => none

/-- The calendar takes the date. -/
def Sp3Lib.Takes (L : Sp3Lib) (t : Sp3Epoch) : Prop := ∃ d, L.date t = .ok d

/-- Every call has one of the fates. -/
theorem epoch_fate {L : Sp3Lib} (hL : ∀ t, L.Takes t ∨ ∃ e, L.date t = .throw e)
    {h : List Char} {ls : List (List Char)} (hh : LineOK h) (h20 : 20 ≤ h.length) (hls : EpochLines ls) {junk : List Char} (hj : junk.length = 128)
    {fuel : Nat} (hf : ls.length < fuel) (t0 : MicroTime) (vec : List Sp3Rec) (sr : Int) {s : Stream} {errno : Int} (he : errno ≠ ERANGE) (hg : s.good = true)
    {tail : List Char} {b : Bool} (hc : EpochClose tail b) (hr : s.rest = h ++ '\n' :: (linesText ls ++ tail)) :
    ∃ x, fateOf (sp3NextEpoch L junk fuel t0 vec sr s errno) = some x ∧ EpochFate h ls vec.length b L.Takes x := by
  have hgl := Stream.getline_line (n := MAX_RECORD_CHARS) hg hr hh.1 (by simpa [MAX_RECORD_CHARS] using hh.2.2)
  have hr1 : (s.adv (h.length + 1)).rest = linesText ls ++ tail := by
    have := Stream.adv_rest_append (s := s) (a := h ++ ['\n']) (b := linesText ls ++ tail) (by rw [hr]; simp)
    simpa using this
  have hrest : ((s.adv (h.length + 1)).adv (linesText ls).length).rest = tail := Stream.adv_rest_append hr1
  unfold sp3NextEpoch
  simp only [hg, Bool.not_true, Bool.false_eq_true, if_false, hgl]
  have hfill : fillLine junk h = h ++ NUL :: junk.drop (h.length + 1) := rfl
  obtain ⟨f, rfl⟩ : ∃ f, fuel = ls.length + (f + 1) := ⟨fuel - ls.length - 1, by omega⟩
  rcases header_fate (l := h) (tail := junk.drop (h.length + 1)) h20 he with ⟨t, h1, h2, h3⟩ | ⟨st, e, h1, h2⟩ | ⟨t, h1, h2, h3⟩
  swap
  · rw [hfill, h1]
    exact ⟨_, rfl, .header st h2⟩
  swap
  · rw [hfill, h1]
    exact ⟨_, rfl, .seconds t h2 h3⟩
  rw [hfill, h1, Res.bind_ok, ← hfill]
  simp only
  rcases hL t with hd | ⟨e, hd⟩
  swap
  · rw [hd]
    exact ⟨_, rfl, .date t h2 h3 (by rintro ⟨d, hd'⟩; rw [hd] at hd'; cases hd')⟩
  have hv := hd
  obtain ⟨d, hd⟩ := hd
  rw [hd, Res.bind_ok]
  rcases sp3Loop_fate t sr he tail (f + 1) ls (fillLine junk h) [] vec (s.adv (h.length + 1)) hls hg hr1 (fillLine_length _ _ _ (by omega)) with
    ⟨recs, buf', g1, g2, g3, g4⟩ | ⟨recs, j, l, st, o, g1, g2, g3, g4, g5, g6⟩ | ⟨recs, j, l, r, g1, g2, g3, g4, g5, g6⟩
  · simp only [List.nil_append, List.length_nil, Nat.zero_add] at g4
    rw [g4]
    rcases sp3Loop_close t sr f buf' (recs ++ vec.drop recs.length) recs.length ((s.adv (h.length + 1)).adv (linesText ls).length) errno hg (by rw [hrest]; exact hc) with
      ⟨hb, o, ho⟩ | ⟨hb, ho⟩
    · rw [ho]
      exact ⟨_, rfl, .closed t recs h2 h3 hv g1 g2 hb⟩
    · rw [ho]
      exact ⟨_, rfl, .unclosed t recs h2 h3 hv g1 g2 hb⟩
  · simp only [List.nil_append, List.length_nil] at g6
    rw [g6]
    exact ⟨_, rfl, .record t recs j l st h2 h3 hv g1 g2 g3 g4 g5⟩
  · simp only [List.nil_append, List.length_nil] at g6
    rw [g6]
    exact ⟨_, rfl, .overflow t recs j l r h2 h3 hv g1 g2 g3 g4 g5⟩

theorem records_length {ls : List (List Char)} {recs : List Sp3Rec} (h : List.Forall₂ PosGives ls recs) : recs.length = ls.length := h.length_eq.symm

theorem filter_take_le (p : List Char → Bool) {ls : List (List Char)} {i j : Nat} (hij : i < j) {l : List Char} (hl : ls[i]? = some l) (hp : p l = true) :
    ((ls.take i).filter p).length < ((ls.take j).filter p).length := by
  have h1 : ls.take (i + 1) = ls.take i ++ [l] := by rw [List.take_add_one, hl]; rfl
  have h2 : ls.take j = ls.take (i + 1) ++ (ls.drop (i + 1)).take (j - (i + 1)) := by
    rw [← List.take_add]; congr 1; omega
  rw [h2, h1]
  simp [List.filter_append, hp]

theorem filter_take_lt (p : List Char → Bool) {ls : List (List Char)} {i : Nat} {l : List Char} (hl : ls[i]? = some l) (hp : p l = true) :
    ((ls.take i).filter p).length < (ls.filter p).length := by
  have hi : i < ls.length := (List.getElem?_eq_some_iff.1 hl).1
  have := filter_take_le p hi hl hp
  rwa [List.take_length] at this

/-- C109: the lines leave no choice. -/
theorem C109_determined {h : List Char} {ls : List (List Char)} {room : Nat} {b : Bool} {valid : Sp3Epoch → Prop} {x y : CallFate}
    (hh : ¬ OddNumber (h.drop 20)) (ho : ∀ l ∈ ls, isPLine l = true → PlainPos l) (h1 : EpochFate h ls room b valid x) (h2 : EpochFate h ls room b valid y) : x = y := by
  have hfit : ∀ {t t' : Sp3Epoch}, HeadGives h t → InLong t.micros → HeadGives h t' → ¬ InLong t'.micros → False := by
    intro t t' g1 g2 g3 g4
    rw [g1.unique hh g3] at g2
    exact g4 g2
  have hval : ∀ {t t' : Sp3Epoch}, HeadGives h t → valid t → HeadGives h t' → ¬ valid t' → False := by
    intro t t' g1 g2 g3 g4
    rw [g1.unique hh g3] at g2
    exact g4 g2
  have hmem : ∀ {i : Nat} {l : List Char}, ls[i]? = some l → isPLine l = true → PlainPos l := fun hl hp => ho _ (List.mem_of_getElem? hl) hp
  have hbad : ∀ {i j : Nat} {l : List Char} {st : Int} {recs}, ls[i]? = some l → isPLine l = true → PosFails l st → i < j →
      List.Forall₂ PosGives ((ls.take j).filter isPLine) recs → False := by
    intro i j l st recs g1 g2 g3 g4 g5
    obtain ⟨r, hr⟩ := gives_mem g5 (mem_before g1 g4 g2)
    exact hr.not_fails (hmem g1 g2) g3
  have hbad' : ∀ {i : Nat} {l : List Char} {st : Int} {recs}, ls[i]? = some l → isPLine l = true → PosFails l st →
      List.Forall₂ PosGives (ls.filter isPLine) recs → False := by
    intro i l st recs g1 g2 g3 g5
    obtain ⟨r, hr⟩ := gives_mem g5 (List.mem_filter.2 ⟨List.mem_of_getElem? g1, g2⟩)
    exact hr.not_fails (hmem g1 g2) g3
  have hover : ∀ {i : Nat} {l : List Char} {ra rb : List Sp3Rec}, ls[i]? = some l → isPLine l = true → List.Forall₂ PosGives ((ls.take i).filter isPLine) ra →
      ra.length = room → List.Forall₂ PosGives (ls.filter isPLine) rb → rb.length ≤ room → False := by
    intro i l ra rb g1 g2 g3 g4 g5 g6
    have := filter_take_lt isPLine g1 g2
    rw [records_length g3] at g4
    rw [records_length g5] at g6
    omega
  have hmix : ∀ {i j : Nat} {l q : List Char} {st : Int} {r : Sp3Rec} {ra rb : List Sp3Rec}, ls[i]? = some l → isPLine l = true → PosFails l st →
      List.Forall₂ PosGives ((ls.take i).filter isPLine) ra → ra.length ≤ room → ls[j]? = some q → isPLine q = true → PosGives q r →
      List.Forall₂ PosGives ((ls.take j).filter isPLine) rb → rb.length = room → False := by
    intro i j l q st r ra rb g1 g2 g3 g4 g5 k1 k2 k3 k4 k5
    rcases Nat.lt_trichotomy i j with hl | rfl | hl
    · exact hbad g1 g2 g3 hl k4
    · rw [g1] at k1
      cases k1
      exact k3.not_fails (hmem g1 g2) g3
    · have := filter_take_le isPLine hl k1 k2
      rw [records_length g4] at g5
      rw [records_length k4] at k5
      omega
  cases h1 with
  | header st g =>
    cases h2 with
    | header => rfl
    | seconds t k => exact (k.not_fails hh g).elim
    | date t k => exact (k.not_fails hh g).elim
    | record t recs j l st k => rfl
    | overflow t recs j l r k => exact (k.not_fails hh g).elim
    | closed => rfl
    | unclosed t recs k => exact (k.not_fails hh g).elim
  | seconds t g1 g2 =>
    cases h2 with
    | header st k => exact (g1.not_fails hh k).elim
    | seconds => rfl
    | date t k1 k2 => exact (hfit k1 k2 g1 g2).elim
    | record t recs j l st k1 k2 => exact (hfit k1 k2 g1 g2).elim
    | overflow => rfl
    | closed t recs k1 k2 => exact (hfit k1 k2 g1 g2).elim
    | unclosed t recs k1 k2 => exact (hfit k1 k2 g1 g2).elim
  | date t g1 g2 g3 =>
    cases h2 with
    | header st k => exact (g1.not_fails hh k).elim
    | seconds t k1 k2 => exact (hfit g1 g2 k1 k2).elim
    | date => rfl
    | record t recs j l st k1 k2 kv => exact (hval k1 kv g1 g3).elim
    | overflow t recs j l r k1 k2 kv => exact (hval k1 kv g1 g3).elim
    | closed t recs k1 k2 kv => exact (hval k1 kv g1 g3).elim
    | unclosed t recs k1 k2 kv => exact (hval k1 kv g1 g3).elim
  | record t recs j l st g1 g2 gv g3 g4 g5 g6 g7 =>
    cases h2 with
    | header => rfl
    | seconds t k1 k2 => exact (hfit g1 g2 k1 k2).elim
    | date t k1 k2 k3 => exact (hval g1 gv k1 k3).elim
    | record => rfl
    | overflow t recs j l r k1 k2 kv k3 k4 k5 k6 k7 => exact (hmix g3 g4 g5 g6 g7 k3 k4 k5 k6 k7).elim
    | closed => rfl
    | unclosed t recs k1 k2 kv k3 => exact (hbad' g3 g4 g5 k3).elim
  | overflow t recs j l r g1 g2 gv g3 g4 g5 g6 g7 =>
    cases h2 with
    | header st k => exact (g1.not_fails hh k).elim
    | seconds => rfl
    | date t k1 k2 k3 => exact (hval g1 gv k1 k3).elim
    | record t recs j l st k1 k2 kv k3 k4 k5 k6 k7 => exact (hmix k3 k4 k5 k6 k7 g3 g4 g5 g6 g7).elim
    | overflow => rfl
    | closed t recs k1 k2 kv k3 k4 => exact (hover g3 g4 g6 g7 k3 k4).elim
    | unclosed t recs k1 k2 kv k3 k4 => exact (hover g3 g4 g6 g7 k3 k4).elim
  | closed t recs g1 g2 gv g3 g4 g5 =>
    cases h2 with
    | header => rfl
    | seconds t k1 k2 => exact (hfit g1 g2 k1 k2).elim
    | date t k1 k2 k3 => exact (hval g1 gv k1 k3).elim
    | record => rfl
    | overflow t recs j l r k1 k2 kv k3 k4 k5 k6 k7 => exact (hover k3 k4 k6 k7 g3 g4).elim
    | closed => rfl
    | unclosed t recs k1 k2 kv k3 k4 k5 => rw [g5] at k5; cases k5
  | unclosed t recs g1 g2 gv g3 g4 g5 =>
    cases h2 with
    | header st k => exact (g1.not_fails hh k).elim
    | seconds t k1 k2 => exact (hfit g1 g2 k1 k2).elim
    | date t k1 k2 k3 => exact (hval g1 gv k1 k3).elim
    | record t recs j l st k1 k2 kv k3 k4 k5 => exact (hbad' k3 k4 k5 g3).elim
    | overflow t recs j l r k1 k2 kv k3 k4 k5 k6 k7 => exact (hover k3 k4 k6 k7 g3 g4).elim
    | closed t recs k1 k2 kv k3 k4 k5 => rw [g5] at k5; cases k5
    | unclosed => rfl

/-- C109: whatever the lines of an epoch look like, reading it returns, is undefined, goes on for ever or ends the process exactly in the cases of the specification. -/
theorem C109_fate {L : Sp3Lib} (hL : ∀ t, L.Takes t ∨ ∃ e, L.date t = .throw e)
    {h : List Char} {ls : List (List Char)} (hh : LineOK h) (h20 : 20 ≤ h.length) (hls : EpochLines ls) {junk : List Char} (hj : junk.length = 128)
    {fuel : Nat} (hf : ls.length < fuel) (t0 : MicroTime) (vec : List Sp3Rec) (sr : Int) {s : Stream} {errno : Int} (he : errno ≠ ERANGE) (hg : s.good = true)
    {tail : List Char} {b : Bool} (hc : EpochClose tail b) (hr : s.rest = h ++ '\n' :: (linesText ls ++ tail))
    (hodd : ¬ OddNumber (h.drop 20)) (ho : ∀ l ∈ ls, isPLine l = true → PlainPos l) :
    ((∃ o, sp3NextEpoch L junk fuel t0 vec sr s errno = .ok o) ↔ EpochFate h ls vec.length b L.Takes .returns) ∧
    (sp3NextEpoch L junk fuel t0 vec sr s errno = .ub ↔ EpochFate h ls vec.length b L.Takes .undefined) ∧
    (sp3NextEpoch L junk fuel t0 vec sr s errno = .diverge ↔ EpochFate h ls vec.length b L.Takes .never) ∧
    (sp3NextEpoch L junk fuel t0 vec sr s errno = .terminate ↔ EpochFate h ls vec.length b L.Takes .killed) ∧
    ∀ e, sp3NextEpoch L junk fuel t0 vec sr s errno ≠ .throw e := by
  obtain ⟨x, h1, h2⟩ := epoch_fate hL hh h20 hls hj hf t0 vec sr he hg hc hr
  have key : ∀ y, EpochFate h ls vec.length b L.Takes y ↔ x = y := fun y => ⟨fun h3 => C109_determined hodd ho h2 h3, fun h3 => h3 ▸ h2⟩
  simp only [key]
  cases hrun : sp3NextEpoch L junk fuel t0 vec sr s errno <;> rw [hrun] at h1 <;> simp only [fateOf, Option.some.injEq, reduceCtorEq] at h1 <;> subst h1 <;> simp

end Ggnss
