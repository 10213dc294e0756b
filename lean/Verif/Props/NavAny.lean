import Verif.Props.NavSearch
import Mathlib.Tactic.Linarith
import Mathlib.Algebra.Order.Field.Basic
/-!
# C19 (soundness for arbitrary bytes), C20, C21
-/
namespace Ggnss

open NavItem

/-! ## C19 for arbitrary files -/

/-- A record that was read has the system announced by its first char. -/
theorem read_sys {strptime : List Char → Res DateTime} {junk : List Char} {f : NavFrame} {s s1 : Stream}
    {errno : Int} {o : NavOut} {sys : SatSys} (hp : peakSatsys s = (0, sys, s1))
    (h : readNextRecord strptime junk f s1 errno = .ok o) (h0 : o.status = 0) : o.frame.sys = sys ∧ s1 = s := by
  have key : s1 = s ∧ ∃ c tl, s.good = true ∧ s.rest = c :: tl ∧ charToSatsys c = .ok sys := by
    unfold peakSatsys at hp
    split at hp
    rename_i c s2 hpk
    split at hp
    · simp at hp
    · rename_i hne
      cases c with
      | none => simp [peekedEof] at hne
      | some c =>
        obtain ⟨rfl, hg, tl, hr⟩ := Stream.peek_some hpk
        simp only [Option.getD_some] at hp
        split at hp
        · rename_i sy hsy
          simp at hp
          obtain ⟨rfl, rfl⟩ := hp
          exact ⟨rfl, c, tl, hg, hr, hsy⟩
        · simp at hp
  obtain ⟨rfl, c, tl, hg, hr, hc⟩ := key
  refine ⟨?_, rfl⟩
  unfold readNextRecord at h
  rw [Stream.peek_cons hg hr] at h
  simp only at h
  unfold setFromRnx3 at h
  rw [Res.noexcept_eq_ok, Res.bind_eq_ok] at h
  obtain ⟨o1, ho1, h⟩ := h
  have h1 : o1.status = 0 ∧ o.frame.sys = o1.frame.sys := by
    split at h
    · rename_i hne; simp at h; subst h; exact absurd h0 hne
    · rename_i hne
      split at h
      · rw [Res.bind_eq_ok] at h
        obtain ⟨toe, _, h⟩ := h
        simp at h; subst h; exact ⟨by simpa using hne, rfl⟩
      · simp at h; subst h; exact ⟨h0, rfl⟩
  obtain ⟨sys', hs', _, hfr, _⟩ := readBlock_skip hr ho1 h1.1
  rw [hc] at hs'
  injection hs' with hs'
  rw [h1.2, hfr, hs']

theorem findLoop_sound (strptime : List Char → Res DateTime) (junk : Nat → List Char)
    (accept : NavFrame → Res (Option Int)) (sys : SatSys) :
    ∀ (fuel : Nat) (f : NavFrame) (s : Stream) (errno : Int) (o : NavOut),
      findLoop strptime junk accept sys fuel f s errno = .ok o → o.status = 0 →
      accept o.frame = .ok (some 0) ∧ o.frame.sys = sys := by
  intro fuel
  induction fuel with
  | zero => intro f s errno o h; simp [findLoop] at h
  | succ fuel ih =>
    intro f s errno o h h0
    rw [findLoop] at h
    split at h
    rename_i status csys s1 hpk
    split at h
    · rename_i hne; simp at h; subst h; exact absurd h0 hne
    · rename_i hst
      split at h
      · rename_i hcs
        rw [Res.bind_eq_ok] at h
        obtain ⟨o1, ho1, h⟩ := h
        split at h
        · rename_i hne; simp at h; subst h; exact absurd h0 hne
        · rename_i hz
          rw [Res.bind_eq_ok] at h
          obtain ⟨a, ha, h⟩ := h
          split at h
          · simp at h; subst h
            simp only at h0 ⊢
            rw [h0] at ha
            have hst' : status = 0 := by simpa using hst
            subst hst'
            have := (read_sys hpk ho1 (by simpa using hz)).1
            exact ⟨ha, this.trans hcs⟩
          · exact ih _ _ _ _ h h0
      · split at h
        split at h
        · rename_i hne; simp at h; subst h; exact absurd h0 hne
        · exact ih _ _ _ _ h h0

/-- C19: whatever bytes the file holds, when `find_next_valid` reports success the frame belongs to
the requested satellite, is reported healthy, and its validity interval contains the requested time
(and its time of clock is not more than four hours ahead). -/
theorem C19_sound (strptime : List Char → Res DateTime) (junk : Nat → List Char) (fuel : Nat) (t : Int)
    (sys : SatSys) (prn : Int) (f : NavFrame) (s : Stream) (errno : Int) (p : Option Nat) (o : NavOut)
    (h : findNextValid strptime junk fuel t sys prn f s errno = .ok (p, o)) (h0 : o.status = 0) :
    o.frame.sys = sys ∧ o.frame.prn = prn ∧ svHealth o.frame = .ok 0 ∧
    ∃ fit, fitInterval o.frame = .ok fit ∧
      (if sys = .glonass then
        1000 * (o.frame.toe.total - fit) ≤ t ∧ t < 1000 * (o.frame.toe.total + fit)
       else 1000 * o.frame.toc.total ≤ t ∧ t < 1000 * (o.frame.toc.total + fit)) ∧
      1000 * o.frame.toc.total - t ≤ 4 * 3600 * 1000 := by
  unfold findNextValid at h
  rw [Res.noexcept_eq_ok] at h
  simp only at h
  rw [Res.bind_eq_ok] at h
  obtain ⟨o1, ho1, h⟩ := h
  simp at h
  obtain ⟨_, rfl⟩ := h
  obtain ⟨ha, hs⟩ := findLoop_sound _ _ _ _ _ _ _ _ _ ho1 h0
  refine ⟨hs, ?_⟩
  unfold acceptValid at ha
  split at ha
  · rename_i hp
    refine ⟨hp.symm, ?_⟩
    simp only at ha
    split at ha
    · simp at ha
    · rename_i hlate
      rw [Res.bind_eq_ok] at ha
      obtain ⟨hh, hhh, ha⟩ := ha
      split at ha
      · rename_i hz
        subst hz
        refine ⟨hhh, ?_⟩
        rw [Res.bind_eq_ok] at ha
        obtain ⟨fit, hfit, ha⟩ := ha
        refine ⟨fit, hfit, ?_, by omega⟩
        split at ha
        · rename_i hg
          rw [if_neg hg]
          simp at ha
          omega
        · rename_i hg
          simp at hg
          rw [if_pos hg]
          simp at ha
          omega
      · simp at ha
  · simp at ha

/-! ## C20 -/

/-- No line of the text begins with the letter of the mixed system. -/
def NoMixedLine (l : List Char) : Prop :=
  ∀ pre tail, l = pre ++ tail → (pre = [] ∨ pre.getLast? = some '\n') → tail.head? ≠ some 'M'

theorem NoMixedLine.tail {a b : List Char} (h : NoMixedLine (a ++ '\n' :: b)) : NoMixedLine b := by
  intro pre tail hb hp
  apply h (a ++ '\n' :: pre) tail (by rw [hb]; simp)
  right
  rcases hp with rfl | hp
  · simp
  · rw [List.getLast?_append]
    cases pre with
    | nil => simp at hp
    | cons x xs => rw [List.getLast?_cons_cons]; simp [hp]

theorem NoMixedLine.nil : NoMixedLine [] := by
  intro pre tail h _; simp at h; simp [h]

theorem skipLines_progress (n : Nat) : ∀ (s s' : Stream), skipLines (n + 1) s = (true, s') →
    s'.rest.length < s.rest.length ∧ (NoMixedLine s.rest → NoMixedLine s'.rest) := by
  have step : ∀ s : Stream, (s.getline MAX_RECORD_CHARS).2.fail = false →
      (s.getline MAX_RECORD_CHARS).2.rest.length < s.rest.length ∧
      (NoMixedLine s.rest → NoMixedLine (s.getline MAX_RECORD_CHARS).2.rest) := by
    intro s hf
    refine ⟨Stream.getline_progress (l := (s.getline MAX_RECORD_CHARS).1) rfl hf, fun hm => ?_⟩
    obtain ⟨_, _, _, hcase⟩ := Stream.getline_ok (s' := (s.getline MAX_RECORD_CHARS).2) (l := (s.getline MAX_RECORD_CHARS).1) rfl hf
    rcases hcase with ⟨_, _, _, h⟩ | ⟨tl, h1, h2⟩
    · rw [h]; exact NoMixedLine.nil
    · rw [h2]
      have : (s.adv ((s.getline MAX_RECORD_CHARS).1.length + 1)).rest = tl := by
        have h3 : s.rest = ((s.getline MAX_RECORD_CHARS).1 ++ ['\n']) ++ tl := by rw [h1]; simp
        have := Stream.adv_rest_append h3
        simpa using this
      rw [this]; rw [h1] at hm; exact hm.tail
  have key : ∀ k t, skipLines (k + 1) t = if (t.getline MAX_RECORD_CHARS).2.fail then
        (false, (t.getline MAX_RECORD_CHARS).2) else skipLines k (t.getline MAX_RECORD_CHARS).2 := fun _ _ => rfl
  induction n with
  | zero =>
    intro s s' h
    rw [key] at h
    split at h
    · simp at h
    · rename_i hf
      simp [skipLines] at h
      rw [← h]; exact step s (by simpa using hf)
  | succ n ih =>
    intro s s' h
    rw [key] at h
    split at h
    · simp at h
    · rename_i hf
      have h1 := step s (by simpa using hf)
      have h2 := ih _ _ h
      exact ⟨by omega, fun hm => h2.2 (h1.2 hm)⟩

theorem nodiv_bind {α β : Type} {x : Res α} {f : α → Res β} (hx : x ≠ .diverge)
    (hf : ∀ a, x = .ok a → f a ≠ .diverge) : (x >>= f) ≠ .diverge := by
  cases x with
  | ok a => exact hf a rfl
  | diverge => exact absurd rfl hx
  | _ => simp

theorem for2cpp_nodiv (l : List Char) : for2cpp l ≠ .diverge := by
  induction l with
  | nil => simp [for2cpp]
  | cons c cs ih =>
    unfold for2cpp
    split
    · simp
    · exact nodiv_bind ih (fun _ _ => by simp)

theorem cstrOf_nodiv (l : List Char) : cstrOf l ≠ .diverge := by
  rcases cstrOf_total l with ⟨s, h⟩ | ⟨h, _⟩ <;> rw [h] <;> simp

theorem char2double_nodiv (e : Bool) (M N : Nat) (l : List Char) : char2double e M N l ≠ .diverge := by
  induction N generalizing l e with
  | zero => simp [char2double]
  | succ N ih =>
    unfold char2double
    refine nodiv_bind (by unfold strtodA; split <;> simp) (fun a _ => ?_)
    split
    · simp
    · exact nodiv_bind (ih _ _) (fun _ _ => by simp)

theorem storeAt_nodiv (d : List Rat) (o : Nat) (v : List Rat) : storeAt d o v ≠ .diverge := by
  unfold storeAt; split <;> simp

theorem charToSatsys_nodiv (c : Char) : charToSatsys c ≠ .diverge := by
  unfold charToSatsys; (repeat' split) <;> simp

theorem orbitLines_nodiv (sys : SatSys) (errno : Int) : ∀ n ln buf f s,
    orbitLines sys errno n ln buf f s ≠ .diverge := by
  intro n
  induction n with
  | zero => intro ln buf f s; simp [orbitLines]
  | succ n ih =>
    intro ln buf f s
    unfold orbitLines
    simp only
    split
    · simp
    · refine nodiv_bind (for2cpp_nodiv _) (fun b _ => nodiv_bind (char2double_nodiv _ _ _ _) (fun r _ =>
        nodiv_bind (storeAt_nodiv _ _ _) (fun d _ => ?_)))
      split
      · exact ih _ _ _ _
      · simp

theorem readBlock_nodiv (strptime : List Char → Res DateTime) (junk : List Char) (f : NavFrame) (s : Stream)
    (errno : Int) (hst : ∀ l, strptime l ≠ .diverge) : readBlock strptime junk f s errno ≠ .diverge := by
  unfold readBlock
  simp only
  split
  · simp
  · refine nodiv_bind (by unfold getAt; split <;> simp) (fun c _ => nodiv_bind (charToSatsys_nodiv _) (fun sys _ =>
      nodiv_bind (cstrOf_nodiv _) (fun dt _ => nodiv_bind (hst _) (fun toc _ =>
      nodiv_bind (by unfold strtolA; split <;> simp) (fun p _ => ?_)))))
    generalize (if strtolErr p = true then ERANGE else errno) = errno2
    split
    · simp
    · refine nodiv_bind (for2cpp_nodiv _) (fun b _ => nodiv_bind (char2double_nodiv _ _ _ _) (fun r _ =>
        nodiv_bind (storeAt_nodiv _ _ _) (fun d _ => ?_)))
      split
      · simp
      · split
        · simp
        · refine nodiv_bind (orbitLines_nodiv _ _ _ _ _ _ _) (fun o _ => ?_)
          split
          · simp
          · simp
          · split
            · simp
            · refine nodiv_bind (for2cpp_nodiv _) (fun b _ => nodiv_bind (char2double_nodiv _ _ _ _) (fun r _ =>
                nodiv_bind (storeAt_nodiv _ _ _) (fun d _ => ?_)))
              split <;> simp

theorem noexcept_nodiv {α : Type} {x : Res α} (h : x ≠ .diverge) : Res.noexcept x ≠ .diverge := by
  cases x <;> simp_all

theorem castInt_nodiv (q : Rat) : castInt q ≠ .diverge := by unfold castInt; split <;> simp
theorem castLong_nodiv (q : Rat) : castLong q ≠ .diverge := by unfold castLong; split <;> simp
theorem dataAt_nodiv (d : List Rat) (i : Nat) : dataAt d i ≠ .diverge := by unfold dataAt; split <;> simp

theorem toe2date_nodiv (f : NavFrame) : toe2date f ≠ .diverge := by
  have g : gpsToe f ≠ .diverge := nodiv_bind (dataAt_nodiv _ _) (fun _ _ => nodiv_bind (castInt_nodiv _) (fun _ _ =>
    nodiv_bind (dataAt_nodiv _ _) (fun _ _ => nodiv_bind (castLong_nodiv _) (fun _ _ => by simp))))
  have b : bdsToe f ≠ .diverge := nodiv_bind (dataAt_nodiv _ _) (fun _ _ => nodiv_bind (castInt_nodiv _) (fun _ _ =>
    nodiv_bind (dataAt_nodiv _ _) (fun _ _ => nodiv_bind (castLong_nodiv _) (fun _ _ => by simp))))
  have r : gloToe f ≠ .diverge := nodiv_bind (dataAt_nodiv _ _) (fun _ _ => nodiv_bind (castLong_nodiv _)
    (fun _ _ => by simp))
  unfold toe2date
  split <;> first | exact g | exact b | exact r | simp

theorem readNextRecord_nodiv (strptime : List Char → Res DateTime) (junk : List Char) (f : NavFrame) (s : Stream)
    (errno : Int) (hst : ∀ l, strptime l ≠ .diverge) : readNextRecord strptime junk f s errno ≠ .diverge := by
  unfold readNextRecord
  split
  · unfold setFromRnx3
    apply noexcept_nodiv
    refine nodiv_bind (readBlock_nodiv _ _ _ _ _ hst) (fun o _ => ?_)
    split
    · simp
    · split
      · exact nodiv_bind (toe2date_nodiv _) (fun _ _ => by simp)
      · simp
  · split <;> simp

theorem findLoop_terminates (strptime : List Char → Res DateTime) (junk : Nat → List Char)
    (accept : NavFrame → Res (Option Int)) (sys : SatSys) (hst : ∀ l, strptime l ≠ .diverge)
    (hacc : ∀ f, accept f ≠ .diverge) :
    ∀ (fuel : Nat) (f : NavFrame) (s : Stream) (errno : Int), s.rest.length < fuel → NoMixedLine s.rest →
      findLoop strptime junk accept sys fuel f s errno ≠ .diverge := by
  intro fuel
  induction fuel with
  | zero => intro f s errno h; omega
  | succ fuel ih =>
    intro f s errno hlen hm
    rw [findLoop]
    split
    rename_i status csys s1 hpk
    split
    · simp
    · rename_i hst0
      have hst' : status = 0 := by simpa using hst0
      subst hst'
      -- the stream is good and its first char is a system letter other than 'M'
      have key : s1 = s ∧ ∃ c tl, s.good = true ∧ s.rest = c :: tl ∧ charToSatsys c = .ok csys := by
        unfold peakSatsys at hpk
        split at hpk
        rename_i c s2 hp2
        split at hpk
        · simp at hpk
        · rename_i hne
          cases c with
          | none => simp [peekedEof] at hne
          | some c =>
            obtain ⟨rfl, hg, tl, hr⟩ := Stream.peek_some hp2
            simp only [Option.getD_some] at hpk
            split at hpk
            · rename_i sy hsy
              simp at hpk
              obtain ⟨rfl, rfl⟩ := hpk
              exact ⟨rfl, c, tl, hg, hr, hsy⟩
            · simp at hpk
      obtain ⟨rfl, c, tl, hg, hr, hc⟩ := key
      have hcM : c ≠ 'M' := by
        have := hm [] (c :: tl) (by simp [hr]) (Or.inl rfl)
        simpa using this
      have hnm : csys ≠ .mixed := by
        intro he; subst he
        unfold charToSatsys at hc
        repeat' split at hc
        all_goals contradiction
      have hprog : ∀ s', ignoreNextBlock s1 = (0, s') →
          s'.rest.length < s1.rest.length ∧ (NoMixedLine s1.rest → NoMixedLine s'.rest) := by
        intro s' hig
        have hff : peekedEof (some c) = false := by simp [peekedEof, charToSatsys_ne_ff hc]
        unfold ignoreNextBlock at hig
        simp only [Stream.peek_cons hg hr, hff, Bool.false_eq_true, if_false, Option.getD_some, hc] at hig
        obtain ⟨m, hm2⟩ : ∃ m, (linesPerSatsys csys).1.toNat = m + 1 := by
          cases csys <;> first | exact ⟨7, rfl⟩ | exact ⟨3, rfl⟩ | exact absurd rfl hnm
        rw [hm2] at hig
        split at hig
        · rename_i hok
          simp at hig
          apply skipLines_progress m
          exact Prod.ext hok hig
        · simp at hig
      split
      · rename_i hcs
        refine nodiv_bind (readNextRecord_nodiv _ _ _ _ _ hst) (fun o ho => ?_)
        split
        · simp
        · rename_i hz
          have hskip := C16_skip_like_read _ _ _ _ _ _ ho (by simpa using hz)
          have hp := hprog _ hskip
          refine nodiv_bind (hacc _) (fun a _ => ?_)
          split
          · simp
          · exact ih _ _ _ (by omega) (hp.2 hm)
      · split
        rename_i st s' hig
        split
        · simp
        · rename_i hz
          have hz' : st = 0 := by simpa using hz
          subst hz'
          have hp := hprog _ hig
          exact ih _ _ _ (by omega) (hp.2 hm)

theorem acceptValid_nodiv (t : Int) (sys : SatSys) (prn : Int) (f : NavFrame) :
    acceptValid t sys prn f ≠ .diverge := by
  have h1 : svHealth f ≠ .diverge := by
    unfold svHealth
    split <;> first | exact nodiv_bind (dataAt_nodiv _ _) (fun _ _ => castInt_nodiv _) | simp
  have h2 : fitInterval f ≠ .diverge := by
    unfold fitInterval
    split <;> first
      | exact nodiv_bind (dataAt_nodiv _ _) (fun _ _ => nodiv_bind (castInt_nodiv _) (fun _ _ => by simp))
      | simp
  unfold acceptValid
  split
  · simp only
    split
    · simp
    · refine nodiv_bind h1 (fun h _ => ?_)
      split
      · refine nodiv_bind h2 (fun h _ => ?_)
        split <;> simp
      · simp
  · simp

/-- The stream as `tellg` leaves it has the same unread bytes. -/
theorem tellg_rest (s : Stream) : s.tellg.2.rest = s.rest := by
  unfold Stream.tellg; split <;> rfl

/-- C20 (partial): on any byte content, from any stream state, a search returns after at most one
iteration per unread byte, provided no line begins with 'M' (and the external date parser returns).
Missing from the full statement: lines that begin with 'M', for which it is false (next theorem). -/
theorem C20_terminates_partial (strptime : List Char → Res DateTime) (junk : Nat → List Char) (fuel : Nat)
    (t : Int) (sys : SatSys) (prn : Int) (f : NavFrame) (s : Stream) (errno : Int)
    (hst : ∀ l, strptime l ≠ .diverge) (hm : NoMixedLine s.rest) (hfuel : s.rest.length < fuel) :
    findNext strptime junk fuel sys prn f s errno ≠ .diverge ∧
    findNextValid strptime junk fuel t sys prn f s errno ≠ .diverge ∧
    readNextRecord strptime (junk s.pos) f s errno ≠ .diverge := by
  refine ⟨?_, ?_, readNextRecord_nodiv _ _ _ _ _ hst⟩
  · unfold findNext
    refine nodiv_bind (findLoop_terminates _ _ _ _ hst (fun f => by simp [acceptPrn]) _ _ _ _ ?_ ?_) (fun _ _ => by simp)
    · rw [tellg_rest]; exact hfuel
    · rw [tellg_rest]; exact hm
  · unfold findNextValid
    apply noexcept_nodiv
    refine nodiv_bind (findLoop_terminates _ _ _ _ hst (acceptValid_nodiv t sys prn) _ _ _ _ ?_ ?_) (fun _ _ => by simp)
    · rw [tellg_rest]; exact hfuel
    · rw [tellg_rest]; exact hm

/-- The full statement of C20 is false: if a record boundary is followed by the letter 'M', a search
for any other system never returns: skipping the "mixed" block consumes nothing, and the iteration
limit is never reached because its counter is never incremented. -/
theorem C20_mixed_line_loops_forever (strptime : List Char → Res DateTime) (junk : Nat → List Char)
    (sys : SatSys) (prn t : Int) (f : NavFrame) (s : Stream) (errno : Int) (tl : List Char)
    (hg : s.good = true) (hr : s.rest = 'M' :: tl) (hs : sys ≠ .mixed) :
    ∀ fuel, findNext strptime junk fuel sys prn f s errno = .diverge ∧
      findNextValid strptime junk fuel t sys prn f s errno = .diverge := by
  have key : ∀ accept fuel, findLoop strptime junk accept sys fuel f s errno = .diverge := by
    intro accept fuel
    induction fuel with
    | zero => rfl
    | succ fuel ih =>
      have h1 : peakSatsys s = (0, .mixed, s) := by
        unfold peakSatsys; simp [Stream.peek_cons hg hr, peekedEof, charToSatsys]
      have h2 : ignoreNextBlock s = (0, s) := by
        unfold ignoreNextBlock; simp [Stream.peek_cons hg hr, peekedEof, charToSatsys, linesPerSatsys, skipLines]
      rw [findLoop]
      simp only [h1, h2, ne_eq, not_true_eq_false, if_false, if_neg (Ne.symm hs)]
      exact ih
  intro fuel
  constructor
  · unfold findNext; simp [tellg_good hg, key]
  · unfold findNextValid; simp [tellg_good hg, key]

/-! ## C21 -/

/-- C21: health and validity length of every frame of the four handled systems; asking for either for
another system raises an exception. -/
theorem C21_rules (f : NavFrame) :
    (f.sys = .glonass → (∀ v, f.data[6]? = some v → svHealth f = castInt v) ∧ fitInterval f = .ok 900) ∧
    ((f.sys = .gps ∨ f.sys = .galileo ∨ f.sys = .beidou) → ∀ v, f.data[24]? = some v → svHealth f = castInt v) ∧
    ((f.sys = .galileo ∨ f.sys = .beidou) → fitInterval f = .ok 14400) ∧
    (f.sys = .gps → ∀ hours : Int, -596523 ≤ hours → hours ≤ 596523 → f.data[28]? = some (hours : Rat) →
      fitInterval f = .ok (3600 * hours)) ∧
    (¬ Handled f.sys → svHealth f = .throw .runtime_error ∧ fitInterval f = .throw .runtime_error) := by
  refine ⟨?_, ?_, ?_, ?_, ?_⟩
  · intro h; refine ⟨fun v hv => ?_, by simp [fitInterval, h]⟩
    simp [svHealth, h, dataAt, hv]
  · rintro (h | h | h) v hv <;> simp [svHealth, h, dataAt, hv]
  · rintro (h | h) <;> simp [fitInterval, h]
  · intro h hours h0 h1 hv
    simp only [fitInterval, h, gpsFitInterval, dataAt, hv, Res.bind_ok]
    rw [castInt_int (by omega) (by omega)]
    simp only [Res.bind_ok, Res.pure_eq]
    rw [toInt32_small (by omega) (by omega)]
  · intro h
    unfold Handled at h
    cases hs : f.sys <;> simp_all [svHealth, fitInterval]

/-- C21: "healthy" means that the integer part of the health word is zero, i.e. |word| < 1. -/
theorem C21_healthy_iff (v : Rat) : castInt v = .ok 0 ↔ -1 < v ∧ v < 1 := by
  unfold castInt truncRat
  have hden : (0 : Int) < v.den := by exact_mod_cast v.den_pos
  have h : v.num.tdiv v.den = 0 ↔ -1 < v ∧ v < 1 := by
    have hv : v = v.num / v.den := (Rat.num_div_den v).symm
    have hd : (0 : Rat) < v.den := by exact_mod_cast v.den_pos
    have e1 : (-1 < v ∧ v < 1) ↔ (-(v.den : Int) < v.num ∧ v.num < v.den) := by
      constructor
      · rintro ⟨a, b⟩
        rw [hv] at a b
        rw [lt_div_iff₀ hd] at a
        rw [div_lt_iff₀ hd] at b
        constructor
        · have : (-(v.den : Rat)) < v.num := by linarith
          exact_mod_cast this
        · have : (v.num : Rat) < v.den := by linarith
          exact_mod_cast this
      · rintro ⟨a, b⟩
        rw [hv]
        rw [lt_div_iff₀ hd, div_lt_iff₀ hd]
        constructor
        · have : (-(v.den : Rat)) < v.num := by exact_mod_cast a
          linarith
        · have : (v.num : Rat) < v.den := by exact_mod_cast b
          linarith
    rw [e1]
    constructor
    · intro h
      have h2 := Int.mul_tdiv_add_tmod v.num v.den
      rw [h] at h2
      have h3 := Int.lt_tmod_of_pos v.num hden
      have h4 := Int.tmod_lt_of_pos v.num hden
      omega
    · rintro ⟨a, b⟩
      rcases le_total 0 v.num with hn | hn
      · exact Int.tdiv_eq_zero_of_lt hn b
      · have : (-v.num).tdiv v.den = 0 := Int.tdiv_eq_zero_of_lt (by omega) (by omega)
        rw [Int.neg_tdiv] at this
        omega
  constructor
  · intro hh
    split at hh
    · injection hh with hh; exact h.1 hh
    · cases hh
  · intro hh
    rw [h.2 hh]; simp

/-- C21: a search for a satellite of a system without rules (SBAS, QZSS, IRNSS) that meets a record of
that satellite ends the program. -/
theorem C21_unhandled_terminates (dateOf : List Char → Res DateTime) (junk : Nat → List Char) (fuel : Nat) (t : Int)
    (f : NavFrame) (s : Stream) (r : NavItem) (tail : List Char) (hg : s.good = true)
    (hrest : s.rest = r.text ++ tail) (hl : f.data.length = 31) (hr : r.WF dateOf) (hs : ¬ Handled r.sys)
    (hn : ¬ r.TooLate t) : findNextValid dateOf junk (fuel + 1) t r.sys r.prn f s 0 = .terminate := by
  obtain ⟨g, hg1, hg2, _⟩ := C17_record dateOf (junk s.pos) f s r tail hr hg hrest hl
  unfold findNextValid
  simp only [tellg_good hg]
  rw [findLoop]
  simp only [peakSatsys_block hr.record.toIsBlock hg hrest, ne_eq, not_true_eq_false, if_false, if_true, hg1,
    Res.bind_ok]
  have hsv : svHealth g = .throw .runtime_error := by
    have := hg2.sys
    unfold Handled at hs
    cases h : r.sys <;> simp_all [svHealth]
  have : acceptValid t r.sys r.prn g = .throw .runtime_error := by
    unfold acceptValid
    rw [hg2.prn, if_pos rfl, hg2.toc]
    simp only
    rw [if_neg (by unfold TooLate at hn; omega), hsv]
    rfl
  rw [this]
  rfl

/-! ## C47 -/

/-- C47 is false of the code: a search with PRN -1 passes over every record of a well formed file and
reports end of file, whatever valid messages the file holds. -/
theorem C47_any_satellite_never_found (dateOf : List Char → Res DateTime) (junk : Nat → List Char) (fuel : Nat) (t : Int)
    (sys : SatSys) (f : NavFrame) (s : Stream) (rs : List NavItem)
    (hg : s.good = true) (hrest : s.rest = fileText rs) (hl : f.data.length = 31)
    (hrs : ∀ p ∈ rs, p.WFV dateOf) (hfuel : rs.length < fuel) :
    ∃ f' s', findNextValid dateOf junk fuel t sys (-1) f s 0 = .ok (some s.pos, ⟨-1, f', s', 0⟩) ∧ s'.rest = [] := by
  obtain ⟨f', s', h1, h2, _⟩ := C19_gives_up_eof dateOf junk fuel t sys (-1) f s rs hg hrest hl (fun p hp => by
    by_cases h : p.sys = sys
    · refine Or.inr ⟨h, hrs p hp, Or.inl ?_⟩
      have hrec := (hrs p hp).record
      have hne : p.lines ≠ [] := by
        intro he
        have hc : 0 = specLines p.sys := by have := hrec.count; rw [he] at this; exact this
        have hm : p.sys ≠ .mixed := hrec.notMixed
        clear hrec
        revert hc hm
        cases p.sys <;> simp [specLines]
      obtain ⟨l, ls, hll⟩ := List.exists_cons_of_ne_nil hne
      obtain ⟨_, _, _, _, _, _, _, _, h0, _⟩ := hrec.prn l (by rw [hll]; rfl)
      omega
    · exact Or.inl ⟨h, (hrs p hp).record.toIsBlock⟩) hfuel
  exact ⟨f', s', h1, h2⟩

end Ggnss
