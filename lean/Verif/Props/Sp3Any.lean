import Verif.Props.Sp3
import Verif.Props.NavAny
/-! # C32, C48: the SP3 epoch reader on arbitrary bytes -/
namespace Ggnss

theorem nodiv_bind' {α β : Type} {x : Res α} {f : α → Res β} (hx : x ≠ .diverge)
    (hf : ∀ a, f a ≠ .diverge) : (x >>= f) ≠ .diverge := nodiv_bind hx (fun a _ => hf a)

/-- Number of lines of a text that begin with 'P' (`atStart`: the text begins at a line start). -/
def pLines : (atStart : Bool) → List Char → Nat
  | _, [] => 0
  | b, c :: r => (if b && c == 'P' then 1 else 0) + pLines (c == '\n') r

theorem pLines_line (l tail : List Char) (h : '\n' ∉ l) (b : Bool) :
    pLines b (l ++ '\n' :: tail) = (if b && isPLine l then 1 else 0) + pLines true tail := by
  induction l generalizing b with
  | nil => simp [pLines, isPLine]
  | cons c l ih =>
    simp only [List.mem_cons, not_or] at h
    have hc : (c == '\n') = false := by simpa using Ne.symm h.1
    rw [List.cons_append, pLines, hc, ih h.2]
    simp [isPLine]

theorem pLines_head (l tail : List Char) : (if isPLine l then 1 else 0) ≤ pLines true (l ++ tail) := by
  cases l with
  | nil => simp [isPLine]
  | cons c l => simp [pLines, isPLine]

/-- A call of `getline` consumes the line it delivers. -/
theorem getline_pLines (s : Stream) :
    (if isPLine (s.getline MAX_RECORD_CHARS).1 then 1 else 0) +
      (if (s.getline MAX_RECORD_CHARS).2.good then pLines true (s.getline MAX_RECORD_CHARS).2.rest else 0) ≤
      (if s.good then pLines true s.rest else 0) := by
  cases hg : s.good with
  | false => rw [Stream.getline_bad hg]; simp [isPLine, Stream.good]
  | true =>
    cases hgl : s.getline MAX_RECORD_CHARS with
    | mk l s' =>
    simp only [if_true]
    cases hf : s'.fail with
    | false =>
      obtain ⟨_, h2, _, h4⟩ := Stream.getline_ok hgl hf
      rcases h4 with ⟨h5, _, h6, _⟩ | ⟨tail, h5, h6⟩
      · have : s'.good = false := by simp [Stream.good, h6]
        rw [this, h5]
        have := pLines_head l []
        simpa using this
      · rw [h6, Stream.adv_good, hg, h5, pLines_line l tail h2]
        have := Stream.adv_rest_append (s := s) (a := l ++ ['\n']) (b := tail) (by rw [h5]; simp)
        simp only [List.length_append, List.length_cons, List.length_nil, Nat.zero_add] at this
        simp [this]
    | true =>
      have : s'.good = false := by simp [Stream.good, hf]
      rw [this]
      have hl : ∃ r, s.rest = l ++ r := by
        unfold Stream.getline at hgl
        rw [if_pos hg] at hgl
        simp only at hgl
        have hp : s.rest.takeWhile (fun c => decide (c ≠ '\n')) <+: s.rest := List.takeWhile_prefix _
        obtain ⟨r, hr⟩ := hp
        split at hgl
        · split at hgl <;> (injection hgl with h1 h2; rw [← h1]; exact ⟨r, hr.symm⟩)
        · injection hgl with h1 h2
          rw [← h1]
          refine ⟨(s.rest.takeWhile (fun c => decide (c ≠ '\n'))).drop (MAX_RECORD_CHARS - 1) ++ r, ?_⟩
          rw [← List.append_assoc, List.take_append_drop, hr]
      obtain ⟨r, hr⟩ := hl
      rw [hr]
      have := pLines_head l r
      simpa using this

theorem strtolA_term {buf : List Char} (h : Term buf) {k : Nat} (hk : k ≤ 127) :
    strtolA (buf.drop k) = .ok (strtol (buf.drop k)) := by
  unfold strtolA; rw [if_pos (h.nul hk)]

theorem strtodA_term {buf : List Char} (h : Term buf) {k : Nat} (hk : k ≤ 127) :
    strtodA (buf.drop k) = .ok (strtod (buf.drop k)) := by
  unfold strtodA; rw [if_pos (h.nul hk)]

theorem getAt_term {buf : List Char} (h : Term buf) {k : Nat} (hk : k ≤ 127) :
    ∃ c, getAt buf k = .ok c := ⟨_, getAt_lt (by have := h.1; omega)⟩

theorem sp3Cols_term {buf : List Char} (h : Term buf) (errno : Int) :
    ∀ n i, n + i ≤ 8 → ∃ r, sp3Cols errno buf n i = .ok r := by
  intro n
  induction n with
  | zero => intro i _; exact ⟨_, rfl⟩
  | succ n ih =>
    intro i hi
    obtain ⟨r, hr⟩ := ih (i + 1) (by omega)
    unfold sp3Cols
    rw [strtodA_term h (by omega)]
    simp only [Res.bind_ok]
    split
    · exact ⟨_, rfl⟩
    · split
      · exact ⟨_, rfl⟩
      · rw [hr]; exact ⟨_, rfl⟩

/-- Decoding a position line of any bytes touches nothing outside the line array. -/
theorem getNextPosition_term {buf : List Char} (h : Term buf) (r : Sp3Rec) (errno : Int) :
    ∃ o, getNextPosition buf r errno = .ok o := by
  obtain ⟨c0, h0⟩ := getAt_term h (k := 0) (by omega)
  obtain ⟨c1, h1⟩ := getAt_term h (k := 1) (by omega)
  unfold getNextPosition
  simp only [h0, h1, Res.bind_ok, strtolA_term h (show 2 ≤ 127 by omega)]
  split
  · exact ⟨_, rfl⟩
  · split
    · generalize (if strtolErr (strtol (buf.drop 2)) = true then ERANGE else errno) = errno2
      split
      · exact ⟨_, rfl⟩
      · obtain ⟨cols, hc⟩ := sp3Cols_term h errno2 4 0 (by omega)
        rw [hc]
        simp only [Res.bind_ok]
        split
        · exact ⟨_, rfl⟩
        · obtain ⟨fl, hf, _⟩ := sp3Flags_get (sp3Scale cols.1) buf (by have := h.1; omega)
          rw [hf]; exact ⟨_, rfl⟩
    · exact ⟨_, rfl⟩

theorem fillLine_head (buf l : List Char) (c : Char) (h : getAt (fillLine buf l) 0 = .ok c) (hc : c = 'P') :
    isPLine l = true := by
  rw [getAt_head] at h
  injection h with h
  subst hc
  cases l with
  | nil => exact absurd h (by decide)
  | cons x l => simp at h; simp [isPLine, h]

theorem strncmp3_term {buf : List Char} (h : Term buf) : ∃ b, strncmpEq 3 buf (cArr c!"EOF") = .ok b := by
  have hl := h.1
  match buf, hl with
  | a :: b :: c :: r, _ =>
    simp only [cArr, List.cons_append, strncmpEq]
    split
    · split
      · exact ⟨_, rfl⟩
      · split
        · split
          · exact ⟨_, rfl⟩
          · split
            · split <;> exact ⟨_, rfl⟩
            · exact ⟨_, rfl⟩
        · exact ⟨_, rfl⟩
    · exact ⟨_, rfl⟩

/-- One line of any bytes: defined behaviour as long as there is room for a record. -/
theorem sp3Line_term (buf l : List Char) (h : Term (fillLine buf l)) (vec : List Sp3Rec) (n : Nat) (errno : Int)
    (hroom : (if isPLine l then 1 else 0) + n ≤ vec.length) :
    ∃ x, sp3Line (fillLine buf l) vec n errno = .ok x ∧
      ∀ vec' n' e', x = .inl (vec', n', e') → vec'.length = vec.length ∧ n' ≤ (if isPLine l then 1 else 0) + n := by
  obtain ⟨c0, h0⟩ := getAt_term h (k := 0) (by omega)
  unfold sp3Line
  rw [h0]
  simp only [Res.bind_ok]
  split
  · rename_i hc
    have hp := fillLine_head buf l c0 h0 hc
    rw [hp] at hroom ⊢
    simp only [if_true] at hroom ⊢
    obtain ⟨o, ho⟩ := getNextPosition_term h {} errno
    rw [ho]
    simp only [Res.bind_ok]
    split
    · exact ⟨_, rfl, by intro _ _ _ hx; cases hx⟩
    · unfold vecStore
      rw [if_pos (by omega)]
      refine ⟨_, rfl, ?_⟩
      intro v n' e' hx
      injection hx with hx
      injection hx with h1 h2
      injection h2 with h2 h3
      subst h1 h2
      exact ⟨by simp, by omega⟩
  · obtain ⟨b, hb⟩ := strncmp3_term h
    rw [hb]
    simp only [Res.bind_ok]
    cases b
    · refine ⟨_, rfl, ?_⟩
      intro v n' e' hx
      injection hx with hx
      injection hx with h1 h2
      injection h2 with h2 h3
      subst h1 h2
      exact ⟨rfl, by omega⟩
    · exact ⟨_, rfl, by intro _ _ _ hx; cases hx⟩

theorem sp3Loop_safe (t : Sp3Epoch) (sr : Int) : ∀ (fuel : Nat) (buf : List Char) (vec : List Sp3Rec) (n : Nat)
    (s : Stream) (errno : Int), Term buf → n + (if s.good then pLines true s.rest else 0) ≤ vec.length →
    (∃ o, sp3Loop t sr fuel buf vec n s errno = .ok o ∧ o.vec.length = vec.length) ∨
      sp3Loop t sr fuel buf vec n s errno = .diverge := by
  intro fuel
  induction fuel with
  | zero => intros; right; rfl
  | succ fuel ih =>
    intro buf vec n s errno hT hroom
    unfold sp3Loop
    simp only
    split
    · left; exact ⟨_, rfl, rfl⟩
    · have hpk : (if s.peek.2.good then pLines true s.peek.2.rest else 0) ≤ (if s.good then pLines true s.rest else 0) := by
        cases hp : s.peek with
        | mk c s' =>
          cases c with
          | none =>
            rcases Stream.peek_none hp with ⟨h1, h2, h3⟩ | ⟨h1, h3⟩
            · simp [h3, Stream.good]
            · simp [h3, Stream.good]
          | some c =>
            obtain ⟨h1, _, _⟩ := Stream.peek_some hp
            simp [h1]
      have hgl := getline_pLines s.peek.2
      have hT' := hT.fill s.peek.2
      obtain ⟨x, hx, hx2⟩ := sp3Line_term buf (s.peek.2.getline MAX_RECORD_CHARS).1 hT' vec n errno (by omega)
      rw [hx]
      match x, hx2 with
      | .inl (vec', n', e'), hx2 =>
        obtain ⟨h1, h2⟩ := hx2 vec' n' e' rfl
        simp only
        rcases ih (fillLine buf (s.peek.2.getline MAX_RECORD_CHARS).1) vec' n' (s.peek.2.getline MAX_RECORD_CHARS).2 e' hT'
          (by omega) with ⟨o, h3, h4⟩ | h3
        · left; exact ⟨o, h3, by omega⟩
        · right; exact h3
      | .inr (st, e'), _ =>
        simp only
        left
        split
        · exact ⟨_, rfl, rfl⟩
        · exact ⟨_, rfl, rfl⟩

theorem sp3Date_term {buf : List Char} (h : Term buf) (errno : Int) :
    ∀ n i, n + i ≤ 8 → ∃ r, sp3Date errno buf n i = .ok r := by
  intro n
  induction n with
  | zero => intro i _; exact ⟨_, rfl⟩
  | succ n ih =>
    intro i hi
    obtain ⟨r, hr⟩ := ih (i + 1) (by omega)
    unfold sp3Date
    rw [strtolA_term h (by omega)]
    simp only [Res.bind_ok]
    generalize (if strtolErr (strtol (buf.drop (8 + 3 * (i - 1)))) = true then ERANGE else errno) = errno2
    split
    · exact ⟨_, rfl⟩
    · rw [hr]; exact ⟨_, rfl⟩

/-- The header on any bytes: defined, unless the seconds do not fit a `long` of microseconds. -/
theorem sp3Header_term {buf : List Char} (h : Term buf) (errno : Int) :
    (∃ r, sp3Header buf errno = .ok r) ∨
      (sp3Header buf errno = .ub ∧ ∃ v r, strtod (buf.drop 20) = some (v, r, false) ∧ castLong (v * 1000000) = .ub) := by
  obtain ⟨c0, h0⟩ := getAt_term h (k := 0) (by omega)
  obtain ⟨c1, h1⟩ := getAt_term h (k := 1) (by omega)
  unfold sp3Header
  simp only [h0, h1, Res.bind_ok, strtolA_term h (show 3 ≤ 127 by omega), strtodA_term h (show 20 ≤ 127 by omega)]
  split
  · left; exact ⟨_, rfl⟩
  · generalize (if strtolErr (strtol (buf.drop 3)) = true then ERANGE else errno) = errno2
    split
    · left; exact ⟨_, rfl⟩
    · obtain ⟨d, hd⟩ := sp3Date_term h errno2 4 1 (by omega)
      rw [hd]
      simp only [Res.bind_ok]
      split
      · left; exact ⟨_, rfl⟩
      · cases hs : strtod (buf.drop 20) with
        | none => left; exact ⟨_, rfl⟩
        | some v =>
          obtain ⟨v, r, er⟩ := v
          simp only
          cases er with
          | true => left; exact ⟨_, rfl⟩
          | false =>
          rw [if_neg (by simp)]
          cases hc : castLong (v * 1000000) with
          | ok a => left; exact ⟨_, rfl⟩
          | ub => right; exact ⟨rfl, v, r, rfl, hc⟩
          | throw e => unfold castLong at hc; split at hc <;> cases hc
          | terminate => unfold castLong at hc; split at hc <;> cases hc
          | diverge => unfold castLong at hc; split at hc <;> cases hc

/-- C32, the part that holds: whatever the bytes of the file, a call never writes outside a vector
that has at least as many elements as there are lines beginning with 'P' in the rest of the file;
the vector keeps its size.  (Hypotheses: the line array is terminated somewhere; the seconds of the
header fit a `long` of microseconds, the other way to undefined behaviour.)  Missing: vectors of
fewer elements, for which it is false (`C32_overflow`). -/
theorem C32_in_bounds_partial (junk : List Char) (hj : Term junk) (fuel : Nat) (t0 : Sp3Epoch) (vec : List Sp3Rec)
    (sr : Int) (s : Stream) (errno : Int) (hsz : pLines true s.rest ≤ vec.length)
    (hsec : ∀ v r, strtod ((fillLine junk (s.getline MAX_RECORD_CHARS).1).drop 20) = some (v, r, false) →
      castLong (v * 1000000) ≠ .ub) :
    (∃ o, getNextEpoch junk fuel t0 vec sr s errno = .ok o ∧ o.vec.length = vec.length) ∨
      getNextEpoch junk fuel t0 vec sr s errno = .diverge := by
  unfold getNextEpoch
  cases hg : s.good with
  | false => left; exact ⟨_, rfl, rfl⟩
  | true =>
    simp only [Bool.not_true, Bool.false_eq_true, if_false]
    rcases sp3Header_term (hj.fill s) errno with ⟨r, hr⟩ | ⟨_, v, r, h2, h3⟩
    · rw [hr]
      simp only [Res.bind_ok]
      match r with
      | (.error e, e2) => left; exact ⟨_, rfl, rfl⟩
      | (.ok t, e2) =>
        simp only
        have hgl := getline_pLines s
        rw [hg] at hgl
        simp only [if_true] at hgl
        rcases sp3Loop_safe t sr fuel (fillLine junk (s.getline MAX_RECORD_CHARS).1) vec 0
          (s.getline MAX_RECORD_CHARS).2 e2 (hj.fill s) (by omega) with ⟨o, h1, h2⟩ | h1
        · left; exact ⟨o, by rw [h1]; rfl, h2⟩
        · right; rw [h1]; rfl
    · exact absurd h3 (hsec v r h2)

/-! ## C48: termination -/

/-- A stream that is not good any more keeps the loop running for ever. -/
theorem sp3Loop_bad (t : Sp3Epoch) (sr : Int) : ∀ (fuel : Nat) (buf : List Char) (vec : List Sp3Rec) (n : Nat)
    (s : Stream) (errno : Int), s.good = false → sp3Loop t sr fuel buf vec n s errno = .diverge := by
  intro fuel
  induction fuel with
  | zero => intros; rfl
  | succ fuel ih =>
    intro buf vec n s errno hg
    have hpk : s.peek = (none, { s with fail := true }) := by unfold Stream.peek; simp [hg]
    have hb : ({ s with fail := true } : Stream).good = false := by simp [Stream.good]
    have hgl := Stream.getline_bad (n := MAX_RECORD_CHARS) hb
    unfold sp3Loop
    simp only [hpk, peekedStar, hgl, Bool.false_eq_true, if_false]
    rw [sp3Line_other buf [] vec n errno (by refine ⟨?_, ?_, ?_⟩ <;> simp) rfl]
    simp only [List.take_nil, reduceCtorEq, if_false]
    exact ih _ _ _ _ _ hb

theorem sp3Loop_end (t : Sp3Epoch) (sr : Int) (fuel : Nat) (buf : List Char) (vec : List Sp3Rec) (n : Nat)
    (s : Stream) (errno : Int) (hg : s.good = true) (hr : s.rest = []) :
    sp3Loop t sr fuel buf vec n s errno = .diverge := by
  cases fuel with
  | zero => rfl
  | succ fuel =>
    have hpk := Stream.peek_nil hg hr
    have hb : ({ s with eof := true } : Stream).good = false := by simp [Stream.good]
    have hgl := Stream.getline_bad (n := MAX_RECORD_CHARS) hb
    unfold sp3Loop
    simp only [hpk, peekedStar, hgl, Bool.false_eq_true, if_false]
    rw [sp3Line_other buf [] vec n errno (by refine ⟨?_, ?_, ?_⟩ <;> simp) rfl]
    simp only [List.take_nil, reduceCtorEq, if_false]
    exact sp3Loop_bad _ _ _ _ _ _ _ _ (by simp [Stream.good])

/-- C48 is false as it stands: on a file whose last epoch is not followed by an "EOF" line the call
never returns, however long it runs. -/
theorem C48_missing_eof_line_diverges {h : EpochLine} (hw : h.WF) {ls : List (List Char)} {ps : List PosLine}
    (hb : IsEpochBody ls ps) (junk : List Char) (hj : junk.length = 128)
    (t0 : Sp3Epoch) (vec : List Sp3Rec) (hsz : ps.length ≤ vec.length) (sr : Int) (s : Stream)
    {errno : Int} (he : errno ≠ ERANGE) (hg : s.good = true)
    (hr : s.rest = h.line ++ '\n' :: linesText ls) (fuel : Nat) (hf : ls.length ≤ fuel) :
    getNextEpoch junk fuel t0 vec sr s errno = .diverge := by
  obtain ⟨t, h1, h2, h3⟩ := getNextEpoch_head hw junk fuel t0 vec sr s he hg hr
  obtain ⟨f, rfl⟩ : ∃ f, fuel = ls.length + f := ⟨fuel - ls.length, by omega⟩
  obtain ⟨recs, buf', h4, h5, h6⟩ := sp3Loop_body t sr f errno he [] ls ps (fillLine junk h.line) []
    vec (s.adv (h.line.length + 1)) hb hg (by simpa using h3) (fillLine_length _ _ _ (by omega)) hsz
  simp only [List.nil_append, List.length_nil, Nat.zero_add] at h6
  have hrest : ((s.adv (h.line.length + 1)).adv (linesText ls).length).rest = [] :=
    Stream.adv_rest_append (by simpa using h3)
  rw [h2, h6, sp3Loop_end _ _ _ _ _ _ ((s.adv (h.line.length + 1)).adv (linesText ls).length) _ hg hrest]
  rfl

theorem sp3Loop_terminates (t : Sp3Epoch) (sr : Int) (e tail : List Char) (htail : tail = [] ∨ ∃ r, tail = '\n' :: r)
    (hE : endsEpoch e = true) (he1 : '\n' ∉ e) (he2 : e.length ≤ 127) :
    ∀ (ls : List (List Char)) (fuel : Nat) (buf : List Char) (vec : List Sp3Rec) (n : Nat) (s : Stream) (errno : Int),
      (∀ l ∈ ls, '\n' ∉ l ∧ l.length ≤ 127) → s.good = true → s.rest = linesText ls ++ (e ++ tail) → ls.length < fuel →
      sp3Loop t sr fuel buf vec n s errno ≠ .diverge := by
  have line_nodiv : ∀ buf vec n errno, sp3Line buf vec n errno ≠ .diverge := by
    intro buf vec n errno
    have hs : ∀ k a b, strncmpEq k a b ≠ .diverge := by
      intro k
      induction k with
      | zero => intro a b; simp [strncmpEq]
      | succ k ih =>
        intro a b
        cases a with
        | nil => simp [strncmpEq]
        | cons x a =>
          cases b with
          | nil => simp [strncmpEq]
          | cons y b =>
            simp only [strncmpEq]
            split
            · split
              · simp
              · exact ih a b
            · simp
    have hg : ∀ i (b : List Char), getAt b i ≠ .diverge := by intro i b; unfold getAt; split <;> simp
    have hd : ∀ a, strtodA a ≠ .diverge := by intro a; unfold strtodA; split <;> simp
    have hc : ∀ errno (line : List Char) n i, sp3Cols errno line n i ≠ .diverge := by
      intro errno line n
      induction n with
      | zero => intro i; simp [sp3Cols]
      | succ n ih =>
        intro i
        unfold sp3Cols
        refine nodiv_bind' (hd _) ?_
        intro v
        split
        · simp
        · split
          · simp
          · exact nodiv_bind' (ih _) (fun _ => by simp)
    have hf : ∀ vals line, sp3Flags vals line ≠ .diverge := by
      intro vals line
      unfold sp3Flags
      exact nodiv_bind' (hg _ _) fun _ => nodiv_bind' (hg _ _) fun _ => nodiv_bind' (hg _ _) fun _ =>
        nodiv_bind' (hg _ _) fun _ => by simp
    unfold sp3Line
    refine nodiv_bind' (hg _ _) ?_
    intro c0
    split
    · refine nodiv_bind' ?_ ?_
      · unfold getNextPosition
        refine nodiv_bind' (hg _ _) ?_
        intro c
        split
        · simp
        · refine nodiv_bind' (hg _ _) ?_
          intro c1
          split
          · refine nodiv_bind' (by unfold strtolA; split <;> simp) ?_
            intro p
            generalize (if strtolErr p = true then ERANGE else errno) = errno2
            simp only
            split
            · simp
            · refine nodiv_bind' (hc _ _ _ _) ?_
              intro cols
              split
              · simp
              · exact nodiv_bind' (hf _ _) (fun _ => by simp)
          · simp
      · intro o
        split
        · simp
        · refine nodiv_bind' (by unfold vecStore; split <;> simp) (fun _ => by simp)
    · refine nodiv_bind' (hs _ _ _) ?_
      intro b
      split <;> simp
  intro ls
  induction ls with
  | nil =>
    intro fuel buf vec n s errno hls hg hr hfuel
    obtain ⟨f, rfl⟩ : ∃ f, fuel = f + 1 := ⟨fuel - 1, by simp at hfuel; omega⟩
    simp only [linesText, List.map_nil, List.flatten_nil, List.nil_append] at hr
    by_cases hstar : e.head? = some '*'
    · obtain ⟨e', rfl⟩ : ∃ e', e = '*' :: e' := by
        cases e with
        | nil => simp at hstar
        | cons c e' => simp at hstar; exact ⟨e', by rw [hstar]⟩
      have hpk := Stream.peek_cons hg (c := '*') (tail := e' ++ tail) (by rw [hr]; rfl)
      unfold sp3Loop
      simp [hpk, peekedStar]
    · have hEOF : e.take 3 = c!"EOF" := by simpa [endsEpoch, hstar] using hE
      obtain ⟨e', rfl⟩ : ∃ e', e = 'E' :: 'O' :: 'F' :: e' := by
        match e, hEOF with
        | a :: b :: c :: r, h => simp at h; exact ⟨r, by rw [h.1, h.2.1, h.2.2]⟩
        | [], h => simp at h
        | [_], h => simp at h
        | [_, _], h => simp at h
      have hpk := Stream.peek_cons hg (c := 'E') (tail := 'O' :: 'F' :: e' ++ tail) (by rw [hr]; rfl)
      have hgl : (s.getline MAX_RECORD_CHARS).1 = 'E' :: 'O' :: 'F' :: e' := by
        rcases htail with rfl | ⟨r, rfl⟩
        · rw [Stream.getline_last hg (by simpa using hr) he1 (by simpa [MAX_RECORD_CHARS] using he2)]
        · rw [Stream.getline_line hg hr he1 (by simpa [MAX_RECORD_CHARS] using he2)]
      have hline : ∀ buf vec n errno, sp3Line (fillLine buf ('E' :: 'O' :: 'F' :: e')) vec n errno = .ok (.inr (-1, errno)) := by
        intro buf vec n errno
        unfold sp3Line
        simp [fillLine, getAt, strncmpEq, cArr]
      unfold sp3Loop
      simp [hpk, peekedStar, hgl, hline]
  | cons l ls ih =>
    intro fuel buf vec n s errno hls hg hr hfuel
    obtain ⟨f, rfl⟩ : ∃ f, fuel = f + 1 := ⟨fuel - 1, by simp at hfuel; omega⟩
    have hr' : s.rest = l ++ '\n' :: (linesText ls ++ (e ++ tail)) := by
      rw [hr, linesText_cons]; simp
    obtain ⟨hl1, hl2⟩ := hls l (by simp)
    by_cases hstar : l.head? = some '*'
    · obtain ⟨l', rfl⟩ : ∃ e', l = '*' :: e' := by
        cases l with
        | nil => simp at hstar
        | cons c e' => simp at hstar; exact ⟨e', by rw [hstar]⟩
      have hpk := Stream.peek_cons hg (c := '*') (by rw [hr']; rfl)
      unfold sp3Loop
      simp [hpk, peekedStar]
    · obtain ⟨c, hp, hc⟩ : ∃ c, s.peek = (some c, s) ∧ c ≠ '*' := by
        cases l with
        | nil => exact ⟨'\n', Stream.peek_cons hg hr', by decide⟩
        | cons c l => exact ⟨c, Stream.peek_cons hg hr', by simpa using hstar⟩
      have hgl := Stream.getline_line (n := MAX_RECORD_CHARS) hg hr' hl1 (by simpa [MAX_RECORD_CHARS] using hl2)
      have hrest : (s.adv (l.length + 1)).rest = linesText ls ++ (e ++ tail) := by
        have := Stream.adv_rest_append (s := s) (a := l ++ ['\n']) (b := linesText ls ++ (e ++ tail)) (by rw [hr']; simp)
        simpa using this
      unfold sp3Loop
      simp only [hp, peekedStar, hc, decide_false, Bool.false_eq_true, if_false, hgl]
      have hnd := line_nodiv (fillLine buf l) vec n errno
      cases hx : sp3Line (fillLine buf l) vec n errno with
      | ok x =>
        match x with
        | .inl (v', n', e') => exact ih f _ _ _ _ _ (fun x hx => hls x (by simp [hx])) hg hrest (by simpa using hfuel)
        | .inr (st, e') => simp only; split <;> simp
      | throw e => simp
      | terminate => simp
      | ub => simp
      | diverge => exact absurd hx hnd

/-- C48, the part that holds: whatever the bytes, a call returns if among the following lines (none
longer than the line array) there is an epoch header or an "EOF" line.  Missing: files without such
a line and lines that are too long, for which it is false (`C48_missing_eof_line_diverges`,
`C48_long_line_diverges`). -/
theorem C48_terminates_partial (junk : List Char) (fuel : Nat) (t0 : Sp3Epoch) (vec : List Sp3Rec) (sr : Int)
    (s : Stream) (errno : Int) (h : List Char) (ls : List (List Char)) (e tail : List Char)
    (hr : s.rest = h ++ '\n' :: (linesText ls ++ (e ++ tail))) (hlines : ∀ l ∈ h :: e :: ls, '\n' ∉ l ∧ l.length ≤ 127)
    (htail : tail = [] ∨ ∃ r, tail = '\n' :: r) (hE : endsEpoch e = true) (hfuel : ls.length < fuel) :
    getNextEpoch junk fuel t0 vec sr s errno ≠ .diverge := by
  unfold getNextEpoch
  apply noexcept_nodiv
  cases hg : s.good with
  | false => simp
  | true =>
    simp only [Bool.not_true, Bool.false_eq_true, if_false]
    obtain ⟨hh1, hh2⟩ := hlines h (by simp)
    obtain ⟨he1, he2⟩ := hlines e (by simp)
    rw [Stream.getline_line hg hr hh1 (by simpa [MAX_RECORD_CHARS] using hh2)]
    refine nodiv_bind' ?_ ?_
    · have hg : ∀ i (b : List Char), getAt b i ≠ .diverge := by intro i b; unfold getAt; split <;> simp
      have hd : ∀ a, strtodA a ≠ .diverge := by intro a; unfold strtodA; split <;> simp
      have hl : ∀ a, strtolA a ≠ .diverge := by intro a; unfold strtolA; split <;> simp
      have hdt : ∀ errno (line : List Char) n i, sp3Date errno line n i ≠ .diverge := by
        intro errno line n
        induction n with
        | zero => intro i; simp [sp3Date]
        | succ n ih =>
          intro i
          unfold sp3Date
          refine nodiv_bind' (hl _) ?_
          intro p
          generalize (if strtolErr p = true then ERANGE else errno) = errno2
          split
          · simp
          · exact nodiv_bind' (ih _) (fun _ => by simp)
      unfold sp3Header
      refine nodiv_bind' (hg _ _) fun c0 => nodiv_bind' (hg _ _) fun c1 => ?_
      split
      · simp
      · refine nodiv_bind' (hl _) fun p => ?_
        generalize (if strtolErr p = true then ERANGE else errno) = errno2
        simp only
        split
        · simp
        · refine nodiv_bind' (hdt _ _ _ _) fun d => ?_
          split
          · simp
          · refine nodiv_bind' (hd _) fun v => ?_
            split
            · simp
            · split
              · simp
              · exact nodiv_bind' (castLong_nodiv _) (fun _ => by simp)
    · intro r
      split
      · simp
      · refine sp3Loop_terminates _ _ e tail htail hE he1 he2 ls fuel _ _ _ _ _
          (fun l hl => hlines l (by simp [hl])) hg ?_ hfuel
        have := Stream.adv_rest_append (s := s) (a := h ++ ['\n']) (b := linesText ls ++ (e ++ tail)) (by rw [hr]; simp)
        simpa using this

/-- C48 is also false for a line longer than the line array, even when the "EOF" line follows. -/
theorem C48_long_line_diverges {h : EpochLine} (hw : h.WF) {ls : List (List Char)} {ps : List PosLine}
    (hb : IsEpochBody ls ps) (junk : List Char) (hj : junk.length = 128)
    (t0 : Sp3Epoch) (vec : List Sp3Rec) (hsz : ps.length ≤ vec.length) (sr : Int) (s : Stream)
    {errno : Int} (he : errno ≠ ERANGE) (hg : s.good = true) (long tail : List Char) (hlong : 127 < long.length)
    (hl1 : '\n' ∉ long) (hl2 : NUL ∉ long) (hl3 : endsEpoch long = false) (hl4 : isPLine long = false)
    (hr : s.rest = h.line ++ '\n' :: (linesText ls ++ (long ++ '\n' :: tail))) (fuel : Nat) (hf : ls.length ≤ fuel) :
    getNextEpoch junk fuel t0 vec sr s errno = .diverge := by
  obtain ⟨t, h1, h2, h3⟩ := getNextEpoch_head hw junk fuel t0 vec sr s he hg hr
  obtain ⟨f, rfl⟩ : ∃ f, fuel = ls.length + f := ⟨fuel - ls.length, by omega⟩
  obtain ⟨recs, buf', h4, h5, h6⟩ := sp3Loop_body t sr f errno he (long ++ '\n' :: tail) ls ps (fillLine junk h.line) []
    vec (s.adv (h.line.length + 1)) hb hg h3 (fillLine_length _ _ _ (by omega)) hsz
  simp only [List.nil_append, List.length_nil, Nat.zero_add] at h6
  have hrest : ((s.adv (h.line.length + 1)).adv (linesText ls).length).rest = long ++ '\n' :: tail :=
    Stream.adv_rest_append h3
  rw [h2, h6]
  generalize hS : (s.adv (h.line.length + 1)).adv (linesText ls).length = S at *
  have hgS : S.good = true := by rw [← hS]; exact hg
  cases f with
  | zero => rfl
  | succ f =>
    obtain ⟨c, l', rfl⟩ : ∃ c l', long = c :: l' := by
      cases long with
      | nil => simp at hlong
      | cons c l' => exact ⟨c, l', rfl⟩
    have hc := (ends_false hl3).1
    simp at hc
    have hpk := Stream.peek_cons hgS (c := c) (by rw [hrest]; rfl)
    have hgl : S.getline MAX_RECORD_CHARS = ((c :: l').take 127, { S with pos := S.pos + 127, fail := true }) := by
      exact Stream.getline_long hgS hrest hl1 (by simpa [MAX_RECORD_CHARS] using hlong)
    have hlo : LineOK ((c :: l').take 127) := by
      refine ⟨fun hm => hl1 (List.mem_of_mem_take hm), fun hm => hl2 (List.mem_of_mem_take hm), by simp⟩
    have hnp : isPLine ((c :: l').take 127) = false := by simpa [isPLine] using hl4
    have hne : ((c :: l').take 127).take 3 ≠ c!"EOF" := by
      have := (ends_false hl3).2
      rwa [List.take_take]
    unfold sp3Loop
    simp only [hpk, peekedStar, hc, decide_false, Bool.false_eq_true, if_false, hgl]
    rw [sp3Line_other buf' _ _ _ errno hlo hnp, if_neg hne]
    simp only
    rw [sp3Loop_bad _ _ _ _ _ _ _ _ (by simp [Stream.good])]
    rfl

end Ggnss
