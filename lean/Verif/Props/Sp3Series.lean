import Verif.Spec.Sp3Series
import Verif.Props.Sp3Fate
import Verif.Props.BadDate
/-! # Reading an SP3 file with arbitrary lines epoch by epoch (C115) -/
namespace Ggnss

/-- A call with the conversion of the date does what the call without it does. -/
theorem dated_inv {L : Sp3Lib} {junk : List Char} {fuel : Nat} {t : MicroTime} {vec : List Sp3Rec} {sr : Int} {s : Stream} {errno : Int} {o : Sp3Dated} (hg : s.good = true)
    (h : sp3NextEpoch L junk fuel t vec sr s errno = .ok o) (c0 : Sp3Epoch) :
    (∃ e, sp3Header (fillLine junk (s.getline MAX_RECORD_CHARS).1) errno = .ok (.error o.status, e) ∧ o.vec = vec ∧ o.satsRead = sr) ∨
    (∃ c e o', sp3Header (fillLine junk (s.getline MAX_RECORD_CHARS).1) errno = .ok (.ok c, e) ∧ L.date c = .ok o.t ∧ getNextEpoch junk fuel c0 vec sr s errno = .ok o' ∧
      o'.t = c ∧ o'.status = o.status ∧ o'.vec = o.vec ∧ o'.satsRead = o.satsRead ∧ o'.strm = o.strm ∧ o'.errno = o.errno) := by
  unfold sp3NextEpoch at h
  rw [Res.noexcept_eq_ok] at h
  simp only [hg, Bool.not_true, Bool.false_eq_true, if_false] at h
  obtain ⟨x, h1, h2⟩ := Res.bind_eq_ok.1 h
  cases hx : x.1 with
  | error e =>
    rw [hx] at h2
    cases h2
    refine Or.inl ⟨x.2, ?_, rfl, rfl⟩
    rw [h1, ← hx]
  | ok c =>
    rw [hx] at h2
    obtain ⟨d, h3, h4⟩ := Res.bind_eq_ok.1 h2
    obtain ⟨q, h5, h6⟩ := Res.bind_eq_ok.1 h4
    cases h6
    refine Or.inr ⟨c, x.2, q, by rw [h1, ← hx], h3, ?_, sp3Loop_t _ _ _ _ _ _ _ _ _ h5, rfl, rfl, rfl, rfl, rfl⟩
    unfold getNextEpoch
    rw [Res.noexcept_eq_ok]
    simp only [hg, Bool.not_true, Bool.false_eq_true, if_false]
    rw [h1, Res.bind_ok, hx]
    exact h5

/-- What becomes of a call that comes to nothing. -/
theorem fate_says {L : Sp3Lib} {e : Sp3EpochText} {closed : Bool} {vec : List Sp3Rec} {x : CallFate} (h : EpochFate e.1 e.2 vec.length closed L.Takes x) (fin sr : Int) :
    (x = .undefined → Sp3EpochSays L.date e closed fin vec sr .undefined) ∧ (x = .never → Sp3EpochSays L.date e closed fin vec sr .never) ∧
    (x = .killed → Sp3EpochSays L.date e closed fin vec sr .killed) := by
  cases h with
  | header st h1 => simp
  | seconds t h1 h2 => exact ⟨fun _ => .seconds t h1 h2, nofun, nofun⟩
  | date t h1 h2 h3 => exact ⟨nofun, nofun, fun _ => .date t h1 h2 fun d hd => h3 ⟨d, hd⟩⟩
  | record => simp
  | overflow t recs j l r h1 h2 h3 h4 h5 h6 h7 h8 =>
    obtain ⟨d, h3⟩ := h3
    exact ⟨fun _ => .overflow t d recs j l r h1 h2 h3 h4 h5 h6 h7 h8, nofun, nofun⟩
  | closed => simp
  | unclosed t recs h1 h2 h3 h4 h5 h6 =>
    obtain ⟨d, h3⟩ := h3
    exact ⟨nofun, fun _ => .never t d recs h1 h2 h3 h4 h5 h6, nofun⟩

/-- How the loop ends behind the last line of an epoch. -/
theorem loop_tail {c : Sp3Epoch} {sr : Int} {fuel : Nat} {buf : List Char} {vec : List Sp3Rec} {n : Nat} {s : Stream} {errno : Int} (hg : s.good = true) {b : Bool}
    (hc : EpochClose s.rest b) {o : Sp3Out} (h : sp3Loop c sr fuel buf vec n s errno = .ok o) :
    b = true ∧ o.vec = vec ∧ o.satsRead = n ∧ (s.rest.head? = some '*' → o.status = 0 ∧ o.strm = s ∧ o.errno = errno) ∧ (s.rest.head? ≠ some '*' → o.status = -1) := by
  cases fuel with
  | zero => cases h
  | succ f =>
    generalize hr : s.rest = R at hc
    cases hc with
    | star tail =>
      have hpk := Stream.peek_cons (s := s) hg hr
      unfold sp3Loop at h
      simp only [hpk, peekedStar, decide_true, if_true] at h
      cases h
      simp
    | eof e tail hok heof htail =>
      obtain ⟨e', hE⟩ : ∃ e', e = 'E' :: e' := by
        cases e with
        | nil => simp at heof
        | cons c e' => simp at heof; exact ⟨e', by rw [heof.1]⟩
      have hnp : isPLine e = false := by rw [hE]; simp [isPLine]
      have hpk : s.peek = (some 'E', s) := Stream.peek_cons hg (by rw [hr, hE]; rfl)
      obtain ⟨s', hgl⟩ : ∃ s', s.getline MAX_RECORD_CHARS = (e, s') := by
        rcases htail with rfl | ⟨r, rfl⟩
        · exact ⟨_, Stream.getline_last (n := MAX_RECORD_CHARS) hg (by simpa using hr) hok.1 (by simpa [MAX_RECORD_CHARS] using hok.2.2)⟩
        · exact ⟨_, Stream.getline_line (n := MAX_RECORD_CHARS) hg hr hok.1 (by simpa [MAX_RECORD_CHARS] using hok.2.2)⟩
      have hline := sp3Line_other buf e vec n errno hok hnp
      rw [if_pos heof] at hline
      have hloop : sp3Loop c sr (f + 1) buf vec n s errno = .ok ⟨-1, c, vec, n, s', errno⟩ := by
        unfold sp3Loop
        simp only [hpk, peekedStar, hgl]
        rw [hline]
        rfl
      rw [hloop] at h
      cases h
      refine ⟨rfl, rfl, rfl, ?_, fun _ => rfl⟩
      rw [hE]
      simp
    | nothing =>
      rcases sp3Loop_close c sr f buf vec n s errno hg (by rw [hr]; exact .nothing) with ⟨hb, _⟩ | ⟨_, hd⟩
      · cases hb
      · rw [hd] at h; cases h

theorem outcome_defect {h : List Char} {ls : List (List Char)} {fin : Int} {c0 c : Sp3Epoch} {vec v : List Sp3Rec} {sr st n : Int} {k : Nat}
    (h1 : EpochOutcome h ls fin c0 vec sr st c v n k) (hp : 0 < st) (hfin : fin ≤ 0) :
    (HeadFails h st ∧ v = vec ∧ n = sr) ∨
    (∃ recs j l st', HeadGives h c ∧ ls[j]? = some l ∧ isPLine l = true ∧ PosFails l st' ∧ List.Forall₂ PosGives ((ls.take j).filter isPLine) recs ∧ recs.length ≤ vec.length ∧
      st = 20 + st' ∧ v = recs ++ vec.drop recs.length ∧ n = sr) := by
  cases h1 with
  | complete => omega
  | header _ a => exact Or.inl ⟨a, rfl, rfl⟩
  | record _ recs j l st' a1 a2 a3 a4 a5 a6 => exact Or.inr ⟨recs, j, l, st', a1, a2, a3, a4, a5, a6, rfl, rfl, rfl⟩

/-- One call. -/
theorem epoch_course {L : Sp3Lib} (hL : ∀ t, L.Takes t ∨ ∃ e, L.date t = .throw e) {e : Sp3EpochText} (hok : e.OK) {junk : List Char} (hj : junk.length = 128)
    {fuel : Nat} (hf : e.2.length < fuel) (t0 : MicroTime) (vec : List Sp3Rec) (sr : Int) {s : Stream} {errno : Int} (he : errno ≠ ERANGE) (hg : s.good = true)
    {tail : List Char} {b : Bool} (hc : EpochClose tail b) (hr : s.rest = e.1 ++ '\n' :: (linesText e.2 ++ tail)) {fin : Int}
    (hfin : fin = if tail.head? = some '*' then 0 else -1) :
    ∃ a, Sp3EpochSays L.date e b fin vec sr a ∧ Sp3Seen a (sp3NextEpoch L junk fuel t0 vec sr s errno) ∧
      (∀ st t v n, a = .epoch st t v n → st = 0 → v.length = vec.length ∧
        sp3NextEpoch L junk fuel t0 vec sr s errno = .ok ⟨0, t, v, n, s.adv (linesText (e.1 :: e.2)).length, errno⟩) ∧
      (∀ st v n, a = .defect st v n → st ≠ 0) := by
  obtain ⟨x, h1, h2⟩ := epoch_fate hL hok.head hok.long hok.lines hj hf t0 vec sr he hg hc hr
  cases hrun : sp3NextEpoch L junk fuel t0 vec sr s errno with
  | throw e => rw [hrun] at h1; cases h1
  | terminate => rw [hrun] at h1; cases h1; exact ⟨.killed, (fate_says h2 fin sr).2.2 rfl, rfl, nofun, nofun⟩
  | ub => rw [hrun] at h1; cases h1; exact ⟨.undefined, (fate_says h2 fin sr).1 rfl, rfl, nofun, nofun⟩
  | diverge => rw [hrun] at h1; cases h1; exact ⟨.never, (fate_says h2 fin sr).2.1 rfl, rfl, nofun, nofun⟩
  | ok o =>
    have hgl := Stream.getline_line (n := MAX_RECORD_CHARS) hg hr hok.head.1 (by simpa [MAX_RECORD_CHARS] using hok.head.2.2)
    have hfill : fillLine junk e.1 = e.1 ++ NUL :: junk.drop (e.1.length + 1) := rfl
    have hrest : (s.adv (linesText (e.1 :: e.2)).length).rest = tail := Stream.adv_rest_append (by rw [hr, linesText_cons]; simp)
    rcases dated_inv hg hrun ⟨0, 0, 0, 0, 0, 0⟩ with ⟨er, k1, k2, k3⟩ | ⟨c, er, o', k1, k2, k3, k4, k5, k6, k7, k8, k9⟩
    · rw [hgl] at k1
      simp only [hfill] at k1
      rcases header_fate (tail := junk.drop (e.1.length + 1)) hok.long he with ⟨t, g1, _⟩ | ⟨st, er', g1, g2⟩ | ⟨t, g1, _⟩
      · rw [g1] at k1; cases k1
      · rw [g1] at k1
        cases k1
        refine ⟨.defect o.status vec sr, .header _ g2, ⟨o, rfl, rfl, k2, k3⟩, nofun, ?_⟩
        intro st v n h
        cases h
        have := g2.pos
        omega
      · rw [g1] at k1; cases k1
    · rw [hgl] at k1
      simp only [hfill] at k1
      obtain ⟨g2, g3⟩ : HeadGives e.1 c ∧ InLong c.micros := by
        rcases header_fate (tail := junk.drop (e.1.length + 1)) hok.long he with ⟨t, g1, g2, g3⟩ | ⟨st, er', g1, g2⟩ | ⟨t, g1, _⟩
        · rw [g1] at k1; cases k1; exact ⟨g2, g3⟩
        · rw [g1] at k1; cases k1
        · rw [g1] at k1; cases k1
      rcases epoch_text hok.head hok.long hok.lines hj he hg hr k3 fin with ⟨t, recs, buf', fuel', h1, h2, h3, h4⟩ | ⟨k, h1, hp, h2⟩
      · obtain ⟨hb, q1, q2, q3, q4⟩ := loop_tail (s := s.adv (linesText (e.1 :: e.2)).length) (b := b) hg (by rw [hrest]; exact hc) h4
        rw [hrest] at q3 q4
        have hst : o.status = fin := by
          rw [← k5, hfin]
          split
          · rename_i hs; exact (q3 hs).1
          · rename_i hs; exact q4 hs
        refine ⟨.epoch fin o.t (recs ++ vec.drop recs.length) recs.length, .epoch c o.t recs g2 g3 k2 h2 h3 hb, ⟨o, rfl, hst, rfl, by rw [← k6, q1], by rw [← k7, q2]⟩, ?_, nofun⟩
        intro st t' v n h h0
        cases h
        have hs : tail.head? = some '*' := by
          by_contra hs
          rw [if_neg hs, h0] at hfin
          cases hfin
        obtain ⟨p1, p2, p3⟩ := q3 hs
        refine ⟨by rw [List.length_append, List.length_drop]; omega, ?_⟩
        congr 1
        cases o
        simp only at *
        simp [← k6, ← k7, ← k8, ← k9, ← k5, p1, p2, p3, q1, q2]
      · rw [k4, k5, k6, k7] at h1
        rw [k5] at hp
        rcases outcome_defect h1 hp (by rw [hfin]; split <;> decide) with ⟨q1, q2, q3⟩ | ⟨recs, j, l, st, q1, q2, q3, q4, q5, q6, q7, q8, q9⟩
        · refine ⟨.defect o.status vec sr, .header _ q1, ⟨o, rfl, rfl, q2, q3⟩, nofun, ?_⟩
          intro st v n h
          cases h
          omega
        · refine ⟨.defect (20 + st) (recs ++ vec.drop recs.length) sr, .record c o.t recs j l st g2 g3 k2 q2 q3 q4 q5 q6, ⟨o, rfl, q7, q8, q9⟩, nofun, ?_⟩
          intro st' v n h
          cases h
          omega

/-! ## There is no choice -/

theorem Sp3EpochSays.fate {L : Sp3Lib} {e : Sp3EpochText} {b : Bool} {fin : Int} {vec : List Sp3Rec} {sr : Int} {a : Sp3Answer} (h : Sp3EpochSays L.date e b fin vec sr a) :
    EpochFate e.1 e.2 vec.length b L.Takes (match a with | .epoch .. => .returns | .defect .. => .returns | .undefined => .undefined | .never => .never | .killed => .killed) := by
  cases h with
  | header st h1 => exact .header st h1
  | seconds c h1 h2 => exact .seconds c h1 h2
  | date c h1 h2 h3 => exact .date c h1 h2 fun ⟨d, hd⟩ => h3 d hd
  | record c t recs j l st h1 h2 h3 h4 h5 h6 h7 h8 => exact .record c recs j l st h1 h2 ⟨t, h3⟩ h4 h5 h6 h7 h8
  | overflow c t recs j l r h1 h2 h3 h4 h5 h6 h7 h8 => exact .overflow c recs j l r h1 h2 ⟨t, h3⟩ h4 h5 h6 h7 h8
  | epoch c t recs h1 h2 h3 h4 h5 h6 => exact .closed c recs h1 h2 ⟨t, h3⟩ h4 h5 h6
  | never c t recs h1 h2 h3 h4 h5 h6 => exact .unclosed c recs h1 h2 ⟨t, h3⟩ h4 h5 h6

theorem Sp3EpochSays.epoch_outcome {date : Sp3Epoch → Res MicroTime} {e : Sp3EpochText} {b : Bool} {fin : Int} {vec : List Sp3Rec} {sr st n : Int} {t : MicroTime} {v : List Sp3Rec}
    (h : Sp3EpochSays date e b fin vec sr (.epoch st t v n)) (c0 : Sp3Epoch) : ∃ c k, EpochOutcome e.1 e.2 fin c0 vec sr st c v n k ∧ date c = .ok t ∧ st = fin := by
  cases h with
  | epoch c t recs h1 h2 h3 h4 h5 h6 => exact ⟨c, _, .complete c recs h1 h4 h5, h3, rfl⟩

theorem Sp3EpochSays.defect_outcome {date : Sp3Epoch → Res MicroTime} {e : Sp3EpochText} {b : Bool} {fin : Int} {vec : List Sp3Rec} {sr st n : Int} {v : List Sp3Rec}
    (h : Sp3EpochSays date e b fin vec sr (.defect st v n)) (c0 : Sp3Epoch) : ∃ c k, EpochOutcome e.1 e.2 fin c0 vec sr st c v n k ∧ 0 < st := by
  cases h with
  | header _ h1 => exact ⟨c0, _, .header st h1, h1.pos⟩
  | record c t recs j l st h1 h2 h3 h4 h5 h6 h7 h8 => exact ⟨c, _, .record c recs j l st h1 h4 h5 h6 h7 h8, by cases h6 <;> omega⟩

theorem Sp3EpochSays.unique {L : Sp3Lib} {e : Sp3EpochText} {b : Bool} {fin : Int} (hfin : fin ≤ 0) {vec : List Sp3Rec} {sr : Int} {x y : Sp3Answer} (hp : e.Plain)
    (h1 : Sp3EpochSays L.date e b fin vec sr x) (h2 : Sp3EpochSays L.date e b fin vec sr y) : x.core = y.core := by
  have hf := C109_determined hp.1 hp.2 h1.fate h2.fate
  cases x <;> cases y <;> try first | rfl | cases hf
  case epoch.epoch =>
    obtain ⟨c, k, a1, a2, a3⟩ := h1.epoch_outcome ⟨0, 0, 0, 0, 0, 0⟩
    obtain ⟨c', k', b1, b2, b3⟩ := h2.epoch_outcome ⟨0, 0, 0, 0, 0, 0⟩
    obtain ⟨q1, q2, q3, q4, _⟩ := C100_determined hp.1 hp.2 a1 b1
    rw [q2, b2] at a2
    cases a2
    simp [Sp3Answer.core, q1, q3, q4]
  case epoch.defect =>
    obtain ⟨c, k, a1, a2, a3⟩ := h1.epoch_outcome ⟨0, 0, 0, 0, 0, 0⟩
    obtain ⟨c', k', b1, b2⟩ := h2.defect_outcome ⟨0, 0, 0, 0, 0, 0⟩
    have := (C100_determined hp.1 hp.2 a1 b1).1
    omega
  case defect.epoch =>
    obtain ⟨c, k, a1, a2⟩ := h1.defect_outcome ⟨0, 0, 0, 0, 0, 0⟩
    obtain ⟨c', k', b1, b2, b3⟩ := h2.epoch_outcome ⟨0, 0, 0, 0, 0, 0⟩
    have := (C100_determined hp.1 hp.2 a1 b1).1
    omega
  case defect.defect =>
    obtain ⟨c, k, a1, a2⟩ := h1.defect_outcome ⟨0, 0, 0, 0, 0, 0⟩
    obtain ⟨c', k', b1, b2⟩ := h2.defect_outcome ⟨0, 0, 0, 0, 0, 0⟩
    obtain ⟨q1, q2, q3, q4, _⟩ := C100_determined hp.1 hp.2 a1 b1
    simp [Sp3Answer.core, q1, q3, q4]

/-- The flags of the caller's vector do not matter. -/
theorem Sp3EpochSays.rebase {date : Sp3Epoch → Res MicroTime} {e : Sp3EpochText} {b : Bool} {fin : Int} {v w : List Sp3Rec} {sr : Int} {a : Sp3Answer}
    (h : Sp3EpochSays date e b fin w sr a) (hvw : v.map Sp3Rec.core = w.map Sp3Rec.core) : ∃ a', Sp3EpochSays date e b fin v sr a' ∧ a'.core = a.core := by
  have hl : v.length = w.length := by simpa using congrArg List.length hvw
  have hd : ∀ n, (v.drop n).map Sp3Rec.core = (w.drop n).map Sp3Rec.core := by intro n; rw [List.map_drop, List.map_drop, hvw]
  cases h with
  | header st h1 => exact ⟨_, .header st h1, by simp [Sp3Answer.core, hvw]⟩
  | seconds c h1 h2 => exact ⟨_, .seconds c h1 h2, rfl⟩
  | date c h1 h2 h3 => exact ⟨_, .date c h1 h2 h3, rfl⟩
  | record c t recs j l st h1 h2 h3 h4 h5 h6 h7 h8 => exact ⟨_, .record c t recs j l st h1 h2 h3 h4 h5 h6 h7 (by omega), by simp only [Sp3Answer.core, List.map_append, hd]⟩
  | overflow c t recs j l r h1 h2 h3 h4 h5 h6 h7 h8 => exact ⟨_, .overflow c t recs j l r h1 h2 h3 h4 h5 h6 h7 (by omega), rfl⟩
  | epoch c t recs h1 h2 h3 h4 h5 h6 => exact ⟨_, .epoch c t recs h1 h2 h3 h4 (by omega) h6, by simp only [Sp3Answer.core, List.map_append, hd]⟩
  | never c t recs h1 h2 h3 h4 h5 h6 => exact ⟨_, .never c t recs h1 h2 h3 h4 (by omega) h6, rfl⟩

theorem Sp3EpochSays.agree {L : Sp3Lib} {e : Sp3EpochText} {b : Bool} {fin : Int} (hfin : fin ≤ 0) {v w : List Sp3Rec} {sr : Int} {x y : Sp3Answer} (hp : e.Plain)
    (h1 : Sp3EpochSays L.date e b fin v sr x) (h2 : Sp3EpochSays L.date e b fin w sr y) (hvw : v.map Sp3Rec.core = w.map Sp3Rec.core) : x.core = y.core := by
  obtain ⟨z, h3, h4⟩ := h2.rebase hvw
  rw [h1.unique hfin hp h3, h4]

theorem answers_agree {L : Sp3Lib} {closed : Bool} {es : List Sp3EpochText} (hp : ∀ e ∈ es, e.Plain) {v : List Sp3Rec} {sr : Int} {x : List Sp3Answer}
    (h1 : Sp3FileSays L.date closed es v sr x) : ∀ {w : List Sp3Rec} {y : List Sp3Answer}, Sp3FileSays L.date closed es w sr y → v.map Sp3Rec.core = w.map Sp3Rec.core →
    x.map Sp3Answer.core = y.map Sp3Answer.core := by
  have stopped : ∀ {a b : Sp3Answer} {st t v n}, a = .epoch st t v n → a.core = b.core → (∀ st t v n, b ≠ .epoch st t v n) → False := by
    intro a b st t v n ha h hb
    subst ha
    cases b with
    | epoch st t v n => exact hb _ _ _ _ rfl
    | _ => simp [Sp3Answer.core] at h
  induction h1 with
  | next e e' es v sr t v1 n out g1 _ ih =>
    intro w y h2 hvw
    cases h2 with
    | next _ _ _ _ _ t' v2 n' out' g2 r2 =>
      have := g1.agree (by omega) (hp e (by simp)) g2 hvw
      have hn : n = n' := by simp [Sp3Answer.core] at this; exact this.2.2
      have hv : v1.map Sp3Rec.core = v2.map Sp3Rec.core := by simp [Sp3Answer.core] at this; exact this.2.1
      subst hn
      rw [List.map_cons, List.map_cons, this, ih (fun q hq => hp q (by simp [hq])) r2 hv]
    | stop _ _ _ _ _ a g2 hne => exact (stopped rfl (g1.agree (by omega) (hp e (by simp)) g2 hvw) hne).elim
  | stop e e' es v sr a g1 hne =>
    intro w y h2 hvw
    cases h2 with
    | next _ _ _ _ _ t' v2 n' out' g2 r2 => exact (stopped rfl (g1.agree (by omega) (hp e (by simp)) g2 hvw).symm hne).elim
    | stop _ _ _ _ _ a' g2 _ => rw [List.map_cons, List.map_cons, g1.agree (by omega) (hp e (by simp)) g2 hvw]
  | last e v sr a g1 =>
    intro w y h2 hvw
    cases h2 with
    | last _ _ _ a' g2 => rw [List.map_cons, List.map_cons, g1.agree (by omega) (hp e (by simp)) g2 hvw]

/-- **C115** (no choice).  The answers are determined by the lines of the file, flags apart. -/
theorem C115_determined {L : Sp3Lib} {closed : Bool} {es : List Sp3EpochText} (hp : ∀ e ∈ es, e.Plain) {vec : List Sp3Rec} {sr : Int} {x y : List Sp3Answer}
    (h1 : Sp3FileSays L.date closed es vec sr x) (h2 : Sp3FileSays L.date closed es vec sr y) : x.map Sp3Answer.core = y.map Sp3Answer.core := answers_agree hp h1 h2 rfl

/-! ## The file -/

/-- **C115**.  A caller that reads on while the status is 0 gets from an SP3 file, whatever is in its lines, the answers they stand for. -/
theorem C115_file {L : Sp3Lib} (hL : ∀ t, L.Takes t ∨ ∃ e, L.date t = .throw e) {junk : Nat → List Char} (hj : ∀ p, (junk p).length = 128) {fuel : Nat} {errno : Int}
    (he : errno ≠ ERANGE) {tail : List Char} {closed : Bool} (hc : Sp3FileClose tail closed) :
    ∀ (es : List Sp3EpochText), es ≠ [] → (∀ e ∈ es, e.OK) → (∀ e ∈ es, e.2.length < fuel) → ∀ (calls : Nat), es.length ≤ calls →
      ∀ (t0 : MicroTime) (vec : List Sp3Rec) (sr : Int) (s : Stream), s.good = true → s.rest = sp3EpochsText es ++ tail →
      ∃ out, Sp3FileSays L.date closed es vec sr out ∧ List.Forall₂ Sp3Seen out (sp3Calls L junk fuel calls t0 vec sr s errno) := by
  intro es
  induction es with
  | nil => intro h; exact absurd rfl h
  | cons e es ih =>
    intro _ hok hfu calls hcalls t0 vec sr s hg hr
    obtain ⟨k, rfl⟩ : ∃ k, calls = k + 1 := ⟨calls - 1, by simp at hcalls; omega⟩
    have one : ∀ {a : Sp3Answer}, Sp3Seen a (sp3NextEpoch L (junk s.pos) fuel t0 vec sr s errno) → (∀ st t v n, a = .epoch st t v n → st ≠ 0) → (∀ st v n, a = .defect st v n → st ≠ 0) →
        List.Forall₂ Sp3Seen [a] (sp3Calls L junk fuel (k + 1) t0 vec sr s errno) := by
      intro a hseen ha hd
      rw [sp3Calls]
      cases a with
      | epoch st t v n =>
        have hne := ha st t v n rfl
        obtain ⟨o, e1, e2, e3⟩ := hseen
        rw [e1]
        simp only
        rw [if_neg (by rw [e2]; exact hne)]
        exact .cons ⟨o, rfl, e2, e3⟩ .nil
      | defect st v n =>
        have hne := hd st v n rfl
        obtain ⟨o, e1, e2, e3⟩ := hseen
        rw [e1]
        simp only
        rw [if_neg (by rw [e2]; exact hne)]
        exact .cons ⟨o, rfl, e2, e3⟩ .nil
      | undefined =>
        have e1 : sp3NextEpoch L (junk s.pos) fuel t0 vec sr s errno = .ub := hseen
        rw [e1]
        exact .cons rfl .nil
      | never =>
        have e1 : sp3NextEpoch L (junk s.pos) fuel t0 vec sr s errno = .diverge := hseen
        rw [e1]
        exact .cons rfl .nil
      | killed =>
        have e1 : sp3NextEpoch L (junk s.pos) fuel t0 vec sr s errno = .terminate := hseen
        rw [e1]
        exact .cons rfl .nil
    cases es with
    | nil =>
      obtain ⟨a, h1, h2, _, h4⟩ := epoch_course hL (hok e (by simp)) (hj s.pos) (hfu e (by simp)) t0 vec sr he hg hc.1 (by rw [hr]; simp [sp3EpochsText]) (fin := -1)
        (by rw [if_neg hc.2])
      refine ⟨[a], .last e vec sr a h1, one h2 ?_ h4⟩
      rintro st t v n rfl h0
      have := (h1.epoch_outcome ⟨0, 0, 0, 0, 0, 0⟩)
      obtain ⟨_, _, _, _, h5⟩ := this
      omega
    | cons e' es =>
      obtain ⟨q, hq⟩ : ∃ q, sp3EpochsText (e' :: es) ++ tail = '*' :: q := by
        have := (hok e' (by simp)).star
        cases h' : e'.1 with
        | nil => rw [h'] at this; cases this
        | cons c r =>
          rw [h'] at this
          cases this
          exact ⟨r ++ '\n' :: (linesText e'.2 ++ sp3EpochsText es) ++ tail, by simp [sp3EpochsText, h']⟩
      have hr' : s.rest = e.1 ++ '\n' :: (linesText e.2 ++ (sp3EpochsText (e' :: es) ++ tail)) := by
        rw [hr]; simp [sp3EpochsText]
      obtain ⟨a, h1, h2, h3, h4⟩ := epoch_course hL (hok e (by simp)) (hj s.pos) (hfu e (by simp)) t0 vec sr he hg (b := true) (tail := sp3EpochsText (e' :: es) ++ tail)
        (by rw [hq]; exact .star q) hr' (fin := 0) (by rw [hq]; simp)
      have stop : (∀ st t v n, a ≠ .epoch st t v n) →
          ∃ out, Sp3FileSays L.date closed (e :: e' :: es) vec sr out ∧ List.Forall₂ Sp3Seen out (sp3Calls L junk fuel (k + 1) t0 vec sr s errno) := fun hne =>
        ⟨[a], .stop e e' es vec sr a h1 hne, one h2 (fun st t v n h => absurd h (hne st t v n)) h4⟩
      cases a with
      | epoch st t v n =>
        obtain ⟨_, _, _, _, rfl⟩ := h1.epoch_outcome ⟨0, 0, 0, 0, 0, 0⟩
        obtain ⟨_, hrun⟩ := h3 0 t v n rfl rfl
        obtain ⟨out, g1, g2⟩ := ih (by simp) (fun q hq => hok q (by simp [hq])) (fun q hq => hfu q (by simp [hq])) k (by simpa using hcalls) t v n
          (s.adv (linesText (e.1 :: e.2)).length) hg (Stream.adv_rest_append (by rw [hr', linesText_cons]; simp))
        refine ⟨.epoch 0 t v n :: out, .next e e' es vec sr t v n out h1 g1, ?_⟩
        rw [sp3Calls, hrun]
        simp only [if_true]
        exact .cons ⟨_, rfl, rfl, rfl, rfl, rfl⟩ g2
      | defect st v n => exact stop nofun
      | undefined => exact stop nofun
      | never => exact stop nofun
      | killed => exact stop nofun

/-- **C115** (with the answers given).  For plain lines the answers are the ones the lines stand for, flags apart. -/
theorem C115_answers {L : Sp3Lib} (hL : ∀ t, L.Takes t ∨ ∃ e, L.date t = .throw e) {junk : Nat → List Char} (hj : ∀ p, (junk p).length = 128) {fuel : Nat} {errno : Int}
    (he : errno ≠ ERANGE) {tail : List Char} {closed : Bool} (hc : Sp3FileClose tail closed) {es : List Sp3EpochText} (hne : es ≠ []) (hok : ∀ e ∈ es, e.OK)
    (hp : ∀ e ∈ es, e.Plain) (hf : ∀ e ∈ es, e.2.length < fuel) {calls : Nat} (hcalls : es.length ≤ calls) (t0 : MicroTime) {vec : List Sp3Rec} {sr : Int} {s : Stream}
    (hg : s.good = true) (hr : s.rest = sp3EpochsText es ++ tail) {out : List Sp3Answer} (hout : Sp3FileSays L.date closed es vec sr out) :
    ∃ out', out'.map Sp3Answer.core = out.map Sp3Answer.core ∧ List.Forall₂ Sp3Seen out' (sp3Calls L junk fuel calls t0 vec sr s errno) := by
  obtain ⟨out', h1, h2⟩ := C115_file hL hj he hc es hne hok hf calls hcalls t0 vec sr s hg hr
  exact ⟨out', C115_determined hp h1 hout, h2⟩

end Ggnss
