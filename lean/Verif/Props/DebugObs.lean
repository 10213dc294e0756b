import Verif.Model.Debug
import Verif.Props.ObsFile
import Verif.Props.ObsExample
/-!
# The build with `DEBUG`: observation epochs (C71)
-/
namespace Ggnss

theorem satEpochCollectD_room (raw0 : RawRnxObs) (buf : List Char) {sysobs : List IdPairs} {vals : List Rat} (errno : Int)
    (h : sysobs.length ≤ vals.length) : satEpochCollectD raw0 buf sysobs vals errno = satEpochCollect raw0 buf sysobs vals errno := by
  unfold satEpochCollectD cassert
  rw [if_pos (by simpa using h), Res.bind_ok]

/-- **C71** (one satellite line): a vector with too little room, into which the production build writes behind the end (C42), ends the program. -/
theorem C71_slot_short (raw0 : RawRnxObs) (buf : List Char) {sysobs : List IdPairs} {vals : List Rat} (errno : Int)
    (h : vals.length < sysobs.length) : satEpochCollectD raw0 buf sysobs vals errno = .terminate := by
  unfold satEpochCollectD cassert
  rw [if_neg (by simp; omega)]
  rfl

theorem collectLoopD_room {mmap : ReadMap} {raw0 : RawRnxObs} : ∀ (n i : Nat) (ov : List SatVals) (buf : List Char) (s : Stream) (errno : Int),
    3 ≤ buf.length → Room mmap ov → collectLoopD raw0 mmap n i ov buf s errno = collectLoop raw0 mmap n i ov buf s errno := by
  intro n
  induction n with
  | zero => intros; rfl
  | succ n ih =>
    intro i ov buf s errno hb h
    have hbl : (fillLine buf (s.getline buf.length).1).length = buf.length := by
      have := getline_lenN s buf.length
      simp [fillLine]; omega
    have hnul := nul_fill buf (s.getline buf.length).1
    unfold collectLoopD collectLoop
    simp only
    generalize fillLine buf (s.getline buf.length).1 = buf' at *
    generalize (s.getline buf.length).2 = s' at *
    rw [getAt_lt (by omega), Res.bind_ok, Res.bind_ok]
    cases hc : charToSatsys (buf'[0]'(by omega)) with
    | ok sys =>
      simp only
      cases hl : mmap.lookup sys with
      | none => simp only; exact ih i ov buf' s' errno (by omega) h
      | some sysobs =>
        simp only
        cases he : ov[i]? with
        | none => rfl
        | some e =>
          simp only
          have hroom := h e (List.mem_of_getElem? he) _ (lookup_mem hl)
          rw [satEpochCollectD_room raw0 buf' errno hroom]
          obtain ⟨st, prn, w, e', g1, g2, _⟩ := satEpochCollect_any (buf := buf') (by omega) hnul sysobs e.2 hroom raw0 errno
          rw [g1, Res.bind_ok, Res.bind_ok]
          simp only
          split
          · rfl
          · exact ih (i + 1) _ buf' s' e' (by omega) (h.set he g2)
    | _ => rfl

/-- **C71** (the satellites of an epoch, arbitrary bytes): with room for the requested observables in every slot, the two builds do the same when the
header lists no more satellites than there are slots. -/
theorem C71_collect (raw0 : RawRnxObs) (mmap : ReadMap) (numsats : Int) (ov : List SatVals) (buf : List Char) (s : Stream) (errno : Int)
    (hb : 3 ≤ buf.length) (hr : Room mmap ov) (h0 : 0 ≤ numsats) (h1 : numsats ≤ ov.length) :
    collectEpochD raw0 mmap numsats ov buf s errno = collectEpoch raw0 mmap numsats ov buf s errno := by
  unfold collectEpochD collectEpoch cassert
  rw [if_pos (by simp [h0, h1]), Res.bind_ok, collectLoopD_room _ _ _ _ _ _ hb hr]

/-- ... and else the `DEBUG` build ends the program, whatever follows. -/
theorem C71_collect_too_many (raw0 : RawRnxObs) (mmap : ReadMap) (numsats : Int) (ov : List SatVals) (buf : List Char) (s : Stream) (errno : Int)
    (h : numsats < 0 ∨ (ov.length : Int) < numsats) : collectEpochD raw0 mmap numsats ov buf s errno = .terminate := by
  unfold collectEpochD cassert
  rw [if_neg (by simp only [decide_eq_true_eq]; omega)]
  rfl

/-- The header lines are decoded alike, or the date is invalid and the `DEBUG` build ends the program. -/
theorem resolveEpochD (dateOk : Int → Int → Int → Bool) (mjdOf : Int → Int → Int → Res Int) (l : List Char) (errno : Int) :
    resolveEpoch (mjdOfD dateOk mjdOf) l errno = resolveEpoch mjdOf l errno ∨
      ((∃ y m d, dateOk y m d = false) ∧ resolveEpoch (mjdOfD dateOk mjdOf) l errno = .terminate) := by
  unfold resolveEpoch
  cases hc : cstrOf l with
  | ok str =>
    rw [Res.bind_ok, Res.bind_ok]
    cases hg : getAt l 0 with
    | ok c0 =>
      rw [Res.bind_ok, Res.bind_ok]
      by_cases h1 : c0 ≠ '>' ∨ str.length < 35
      · rw [if_pos h1, if_pos h1]; exact Or.inl rfl
      · rw [if_neg h1, if_neg h1]
        cases he : epochInts 5 (l.drop 2) errno with
        | ok x =>
          rw [Res.bind_ok, Res.bind_ok]
          match x with
          | some ([y, m, d, hh, mm], start) =>
            simp only
            by_cases hd : dateOk y m d = true
            · left
              have : mjdOfD dateOk mjdOf y m d = mjdOf y m d := by
                unfold mjdOfD cassert
                rw [if_pos hd, Res.bind_ok]
              rw [this]
            · right
              have : mjdOfD dateOk mjdOf y m d = .terminate := by
                unfold mjdOfD cassert
                rw [if_neg hd]; rfl
              rw [this]
              exact ⟨⟨y, m, d, by simpa using hd⟩, rfl⟩
          | none => exact Or.inl rfl
          | some ([], _) => exact Or.inl rfl
          | some ([_], _) => exact Or.inl rfl
          | some ([_, _], _) => exact Or.inl rfl
          | some ([_, _, _], _) => exact Or.inl rfl
          | some ([_, _, _, _], _) => exact Or.inl rfl
          | some (_ :: _ :: _ :: _ :: _ :: _ :: _, _) => exact Or.inl rfl
        | _ => exact Or.inl rfl
    | _ => exact Or.inl rfl
  | _ => exact Or.inl rfl

/-- **C71** (reading an epoch, arbitrary bytes): the two builds do the same, or the `DEBUG` build ends the program — which it does only when the date of
the header is not one of the calendar or the header lists a number of satellites that is negative or larger than the number of slots. -/
theorem C71_epoch_any (dateOk : Int → Int → Int → Bool) (mjdOf : Int → Int → Int → Res Int) (raw0 : RawRnxObs) (mmap : ReadMap) (ov : List SatVals)
    (buf : List Char) (s : Stream) (errno : Int) (hb : 3 ≤ buf.length) (hr : Room mmap ov) :
    readNextEpochD dateOk mjdOf raw0 mmap ov buf s errno = readNextEpoch mjdOf raw0 mmap ov buf s errno ∨
      (readNextEpochD dateOk mjdOf raw0 mmap ov buf s errno = .terminate ∧
        ((∃ y m d, dateOk y m d = false) ∨
          ∃ h, resolveEpoch mjdOf (fillLine buf (s.peek.2.getline buf.length).1) errno = .ok (.inr h) ∧ (h.numSats < 0 ∨ (ov.length : Int) < h.numSats))) := by
  unfold readNextEpochD readNextEpoch
  match hp : s.peek with
  | (none, s') => exact Or.inl rfl
  | (some c, s') =>
    simp only
    have hbl : (fillLine buf (s'.getline buf.length).1).length = buf.length := by
      have := getline_lenN s' buf.length
      simp [fillLine]; omega
    rcases resolveEpochD dateOk mjdOf (fillLine buf (s'.getline buf.length).1) errno with h | ⟨hd, h⟩
    · rw [h]
      cases hx : resolveEpoch mjdOf (fillLine buf (s'.getline buf.length).1) errno with
      | ok x =>
        rw [Res.bind_ok, Res.bind_ok]
        cases x with
        | inl e => exact Or.inl rfl
        | inr hh =>
          simp only
          by_cases hn : 0 ≤ hh.numSats ∧ hh.numSats ≤ ov.length
          · rw [C71_collect raw0 mmap hh.numSats ov _ _ errno (by omega) hr hn.1 hn.2]
            exact Or.inl rfl
          · rw [C71_collect_too_many raw0 mmap hh.numSats ov _ _ errno (by omega)]
            exact Or.inr ⟨rfl, Or.inr ⟨hh, rfl, by omega⟩⟩
      | _ => exact Or.inl rfl
    · rw [h]
      exact Or.inr ⟨rfl, Or.inl hd⟩

/-- **C71** (safety): for arbitrary bytes whose header line can be processed, the `DEBUG` build ends normally or ends the program; in contrast to the production
build (C42) this needs no bound on the number of satellites the header lists. -/
theorem C71_epoch_safe (dateOk : Int → Int → Int → Bool) (mjdOf : Int → Int → Int → Res Int) (raw0 : RawRnxObs) (mmap : ReadMap) (ov : List SatVals)
    (buf : List Char) (s : Stream) (errno : Int) (hb : 3 ≤ buf.length) (hr : Room mmap ov)
    (hh : s.peek.1 ≠ none → ∃ x, resolveEpoch mjdOf (fillLine buf (s.peek.2.getline buf.length).1) errno = .ok x) :
    readNextEpochD dateOk mjdOf raw0 mmap ov buf s errno = .terminate ∨
      ∃ r, readNextEpochD dateOk mjdOf raw0 mmap ov buf s errno = .ok r ∧ r.satobs.length = ov.length ∧ Room mmap r.satobs ∧
        r.buf.length = buf.length ∧ r.sats ≤ ov.length := by
  rcases C71_epoch_any dateOk mjdOf raw0 mmap ov buf s errno hb hr with h | h
  · by_cases hc : s.peek.1 ≠ none → ∃ x, resolveEpoch mjdOf (fillLine buf (s.peek.2.getline buf.length).1) errno = .ok x ∧
        ∀ h, x = .inr h → h.numSats ≤ ov.length
    · right
      rw [h]
      exact C42_read_next_epoch mjdOf raw0 mmap ov buf s errno hb hr hc
    · left
      push Not at hc
      obtain ⟨hp, hc⟩ := hc
      obtain ⟨x, hx⟩ := hh hp
      obtain ⟨h', rfl, hn⟩ := hc x hx
      unfold readNextEpochD
      match hpk : s.peek with
      | (none, s') => rw [hpk] at hp; simp at hp
      | (some c, s') =>
        rw [hpk] at hx
        simp only at hx ⊢
        rcases resolveEpochD dateOk mjdOf (fillLine buf (s'.getline buf.length).1) errno with g | ⟨_, g⟩
        · rw [g, hx, Res.bind_ok]
          simp only
          rw [C71_collect_too_many raw0 mmap h'.numSats ov _ _ errno (Or.inr hn)]
          rfl
        · rw [g]; rfl
  · exact Or.inl h.1

theorem BlockSees.debug {dateOk : Int → Int → Int → Bool} {mjdOf : Int → Int → Int → Res Int} {mmap : ReadMap} {n : Nat} {b : ObsEpochBlock}
    {h : EpochHead} {out : List SatVals} (hb : BlockSees mjdOf mmap n b h out) (hd : ∀ y m d, dateOk y m d = true) :
    BlockSees (mjdOfD dateOk mjdOf) mmap n b h out := by
  have : mjdOfD dateOk mjdOf = mjdOf := by
    funext y m d
    unfold mjdOfD cassert
    rw [if_pos (hd y m d), Res.bind_ok]
  rw [this]; exact hb

theorem EpochText.Says.line_len {e : EpochText} {y mo d h mi flag nsat : Nat} {sec : Rat} {clock : Option Rat}
    (hs : e.Says y mo d h mi sec flag nsat clock) : 35 ≤ e.line.length := by
  obtain ⟨n, _, n2, n3, _⟩ := hs.seconds
  simp [EpochText.line, hs.year.1, hs.month.1, hs.day.1, hs.hour.1, hs.min.1, ← n2, n3, hs.nsatIs.1]
  omega

theorem BlockSees.buf {mjdOf : Int → Int → Int → Res Int} {mmap : ReadMap} {n : Nat} {b : ObsEpochBlock} {h : EpochHead} {out : List SatVals}
    (hb : BlockSees mjdOf mmap n b h out) : 36 ≤ n := by
  obtain ⟨_, _, _, _, _, _, _, _, hs, _⟩ := hb.head
  have := hs.line_len
  have := hb.fit.1.2.2
  omega

/-- The date of a block. -/
def DateGood (dateOk : Int → Int → Int → Bool) (b : ObsEpochBlock) : Prop :=
  ∀ (y mo d hh mi flag nsat : Nat) (sec : Rat) (clock : Option Rat), b.head.Says y mo d hh mi sec flag nsat clock → dateOk y mo d = true

theorem readNextEpochD_same {dateOk : Int → Int → Int → Bool} {mjdOf : Int → Int → Int → Res Int} {mmap : ReadMap} {b : ObsEpochBlock} {h : EpochHead}
    {out : List SatVals} (raw0 : RawRnxObs) {ov : List SatVals} {buf : List Char} (hb : BlockSees mjdOf mmap buf.length b h out) (hd : DateGood dateOk b)
    {s : Stream} {t : List Char} (hg : s.good = true) (hr : s.rest = b.text ++ t) (hov : b.lines.length ≤ ov.length) (hroom : Room mmap ov) :
    readNextEpochD dateOk mjdOf raw0 mmap ov buf s 0 = readNextEpoch mjdOf raw0 mmap ov buf s 0 := by
  obtain ⟨y, mo, d, hh, mi, flag, nsat, sec, hs, hm, hsec, hfl, hns, hnl⟩ := hb.head
  obtain ⟨f1, f2, f3⟩ := hb.fit.1
  have hhead : h = ⟨h.mjd, (hh : Rat) * 3600 + mi * 60 + sec, flag, nsat, h.clock⟩ := by
    cases h; simp_all
  unfold ObsEpochBlock.text at hr
  have hb3 : 3 ≤ buf.length := by
    have h35 := hs.line_len
    omega
  have hgl := getline_past (n := buf.length) hg hr f1 f3
  have hpk : s.peek = (some '>', s) := by
    apply Stream.peek_cons hg
    rw [hr, linesText_cons]; rfl
  have hdm : mjdOfD dateOk mjdOf y mo d = .ok h.mjd := by
    unfold mjdOfD cassert
    rw [if_pos (hd _ _ _ _ _ _ _ _ _ hs), Res.bind_ok, hm]
  have hres : ∀ m : Int → Int → Int → Res Int, m y mo d = .ok h.mjd → resolveEpoch m (fillLine buf b.head.line) 0 = .ok (.inr h) := by
    intro m hm'
    unfold fillLine; rw [C43_header hs hm', ← hhead]
  have hbl : (fillLine buf b.head.line).length = buf.length := by simp [fillLine]; omega
  unfold readNextEpochD readNextEpoch
  rw [hpk]
  simp only
  rw [hgl]
  simp only [hres _ hm, hres _ hdm, Res.bind_ok]
  rw [C71_collect raw0 mmap h.numSats ov _ _ 0 (by omega) hroom (by rw [hns]; omega) (by rw [hns]; omega)]

/-- **C71** (well-formed epochs): when every epoch has a valid date and no more satellite lines than the vector has slots, the `DEBUG` build gives what the
production build gives (C57). -/
theorem C71_epoch_partial {dateOk : Int → Int → Int → Bool} {mjdOf : Int → Int → Int → Res Int} {mmap : ReadMap} {b : ObsEpochBlock} {h : EpochHead}
    {out : List SatVals} (raw0 : RawRnxObs) {ov : List SatVals} {buf : List Char} (hb : BlockSees mjdOf mmap buf.length b h out) (hd : DateGood dateOk b)
    {s : Stream} {t : List Char} (hg : s.good = true) (hr : s.rest = b.text ++ t) (hov : b.lines.length ≤ ov.length) (hroom : Room mmap ov) :
    ∃ ov' buf', readNextEpoch mjdOf raw0 mmap ov buf s 0 = .ok ⟨0, out.length, some h, ov', buf', s.past (b.head.line :: b.lines), 0⟩ ∧
      readNextEpochD dateOk mjdOf raw0 mmap ov buf s 0 = .ok ⟨0, out.length, some h, ov', buf', s.past (b.head.line :: b.lines), 0⟩ ∧
      Holds ov ov' out ∧ buf'.length = buf.length := by
  obtain ⟨ov', buf', h1, h2, h3⟩ := C57_exact raw0 hb (by have := hb.buf; omega) hg hr (le_trans hb.gives.length_le hov) hroom
  refine ⟨ov', buf', h1, ?_, h2, h3⟩
  rw [readNextEpochD_same raw0 hb hd hg hr hov hroom, h1]

/-- **C71** disagreement: an epoch with more data lines than slots whose requested satellites fit is read by the production build but ends the program in
the `DEBUG` build, even when all but one of the lines are of systems nobody asked for. -/
theorem C71_many_satellites {dateOk : Int → Int → Int → Bool} {mjdOf : Int → Int → Int → Res Int} {mmap : ReadMap} {b : ObsEpochBlock} {h : EpochHead}
    {out : List SatVals} (raw0 : RawRnxObs) {ov : List SatVals} {buf : List Char} (hb : BlockSees mjdOf mmap buf.length b h out)
    {s : Stream} {t : List Char} (hg : s.good = true) (hr : s.rest = b.text ++ t) (hov : out.length ≤ ov.length) (hmany : ov.length < b.lines.length)
    (hroom : Room mmap ov) :
    (∃ r, readNextEpoch mjdOf raw0 mmap ov buf s 0 = .ok r ∧ r.status = 0 ∧ r.sats = out.length) ∧
      readNextEpochD dateOk mjdOf raw0 mmap ov buf s 0 = .terminate := by
  obtain ⟨ov', buf', h1, _⟩ := C57_exact raw0 hb (by have := hb.buf; omega) hg hr hov hroom
  refine ⟨⟨_, h1, rfl, rfl⟩, ?_⟩
  obtain ⟨y, mo, d, hh, mi, flag, nsat, sec, hs, hm, hsec, hfl, hns, hnl⟩ := hb.head
  obtain ⟨f1, f2, f3⟩ := hb.fit.1
  have hhead : h = ⟨h.mjd, (hh : Rat) * 3600 + mi * 60 + sec, flag, nsat, h.clock⟩ := by
    cases h; simp_all
  unfold ObsEpochBlock.text at hr
  have hgl := getline_past (n := buf.length) hg hr f1 f3
  have hpk : s.peek = (some '>', s) := by
    apply Stream.peek_cons hg
    rw [hr, linesText_cons]; rfl
  have hres : resolveEpoch mjdOf (fillLine buf b.head.line) 0 = .ok (.inr h) := by
    unfold fillLine; rw [C43_header hs hm, ← hhead]
  unfold readNextEpochD
  rw [hpk]
  simp only
  rw [hgl]
  simp only
  rcases resolveEpochD dateOk mjdOf (fillLine buf b.head.line) 0 with g | ⟨_, g⟩
  · rw [g, hres, Res.bind_ok]
    simp only
    rw [C71_collect_too_many raw0 mmap h.numSats ov _ _ 0 (Or.inr (by rw [hns, hnl]; omega))]
    rfl
  · rw [g]; rfl

/-- **C71** disagreement: a header with a date that does not exist (the 30th of February, say) is decoded by the production build, if the conversion of
ggdatetime gives a day, but ends the program in the `DEBUG` build. -/
theorem C71_invalid_date {dateOk : Int → Int → Int → Bool} {mjdOf : Int → Int → Int → Res Int} {e : EpochText} {y mo d h mi flag nsat : Nat} {sec : Rat}
    {clock : Option Rat} (hs : e.Says y mo d h mi sec flag nsat clock) (hd : dateOk y mo d = false) (raw0 : RawRnxObs) (mmap : ReadMap) (ov : List SatVals)
    {buf : List Char} (hf : LineFits (buf.length - 1) e.line) {s : Stream} {t : List Char} (hg : s.good = true) (hr : s.rest = e.line ++ '\n' :: t) :
    readNextEpochD dateOk mjdOf raw0 mmap ov buf s 0 = .terminate := by
  obtain ⟨f1, f2, f3⟩ := hf
  have hr' : s.rest = linesText [e.line] ++ t := by rw [hr]; simp [linesText]
  have hgl := getline_past (n := buf.length) hg hr' f1 f3
  have hpk : s.peek = (some '>', s) := Stream.peek_cons hg (by rw [hr]; rfl)
  have key : resolveEpoch (mjdOfD dateOk mjdOf) (fillLine buf e.line) 0 = .terminate := by
    have h1 := C43_header (mjdOf := fun a b c => if a = y ∧ b = mo ∧ c = d then .ok 0 else .terminate) hs (mjd := 0) (by simp) (buf.drop (e.line.length + 1))
    unfold fillLine
    unfold resolveEpoch at h1 ⊢
    cases hc : cstrOf (e.line ++ NUL :: buf.drop (e.line.length + 1)) with
    | ok str =>
      rw [hc, Res.bind_ok] at h1
      rw [Res.bind_ok]
      cases hg : getAt (e.line ++ NUL :: buf.drop (e.line.length + 1)) 0 with
      | ok c0 =>
        rw [hg, Res.bind_ok] at h1
        rw [Res.bind_ok]
        split at h1
        · rw [Res.noexcept_eq_ok] at h1; cases h1
        · rename_i hno
          rw [if_neg hno]
          cases he : epochInts 5 ((e.line ++ NUL :: buf.drop (e.line.length + 1)).drop 2) 0 with
          | ok x =>
            rw [he, Res.bind_ok] at h1
            rw [Res.bind_ok]
            match x with
            | some ([y', m', d', hh, mm], start) =>
              simp only at h1 ⊢
              by_cases hq : y' = y ∧ m' = mo ∧ d' = d
              · obtain ⟨rfl, rfl, rfl⟩ := hq
                have : mjdOfD dateOk mjdOf (y : Int) mo d = .terminate := by
                  unfold mjdOfD cassert
                  rw [if_neg (by simp [hd])]; rfl
                rw [this]; rfl
              · rw [if_neg hq] at h1
                cases h1
            | none => cases h1
            | some ([], _) => cases h1
            | some ([_], _) => cases h1
            | some ([_, _], _) => cases h1
            | some ([_, _, _], _) => cases h1
            | some ([_, _, _, _], _) => cases h1
            | some (_ :: _ :: _ :: _ :: _ :: _ :: _, _) => cases h1
          | _ => rw [he] at h1; cases h1
      | _ => rw [hg] at h1; cases h1
    | _ => rw [hc] at h1; cases h1
  unfold readNextEpochD
  rw [hpk]
  simp only
  rw [hgl]
  simp only
  rw [key]
  rfl

/-- A client that keeps calling `read_next_epoch`, as `obsReadEpochs`, in the `DEBUG` build. -/
def obsReadEpochsD (dateOk : Int → Int → Int → Bool) (mjdOf : Int → Int → Int → Res Int) (raw0 : RawRnxObs) (mmap : ReadMap) :
    (n : Nat) → List SatVals → List Char → Stream → Int → Res (List (Int × Nat × Option EpochHead × List SatVals) × Stream)
  | 0, _, _, s, _ => .ok ([], s)
  | n + 1, ov, buf, s, errno => do
      let o ← readNextEpochD dateOk mjdOf raw0 mmap ov buf s errno
      let r ← obsReadEpochsD dateOk mjdOf raw0 mmap n o.satobs o.buf o.strm o.errno
      pure ((o.status, o.sats, o.head, o.satobs) :: r.1, r.2)

theorem obsReadEpochsD_eof (dateOk : Int → Int → Int → Bool) (mjdOf : Int → Int → Int → Res Int) (raw0 : RawRnxObs) (mmap : ReadMap) (s : Stream) (errno : Int)
    (hg : s.good = true) (hr : s.rest = []) : ∀ (n : Nat) (ov : List SatVals) (buf : List Char),
    obsReadEpochsD dateOk mjdOf raw0 mmap n ov buf s errno = obsReadEpochs mjdOf raw0 mmap n ov buf s errno := by
  intro n
  induction n with
  | zero => intro ov buf; rfl
  | succ n ih =>
    intro ov buf
    have e : readNextEpochD dateOk mjdOf raw0 mmap ov buf s errno = readNextEpoch mjdOf raw0 mmap ov buf s errno := by
      unfold readNextEpochD readNextEpoch
      rw [Stream.peek_nil hg hr]
    unfold obsReadEpochsD obsReadEpochs
    rw [e, C58_eof mjdOf raw0 mmap ov buf s errno hg hr, Res.bind_ok, Res.bind_ok]
    simp only
    rw [ih ov buf]

/-- **C71** (whole observation files): a client that keeps calling `read_next_epoch` on a file of well-formed epochs (valid dates, no epoch with more
satellite lines than slots) gets the same from both builds (C58), however often it calls. -/
theorem C71_epochs_partial {dateOk : Int → Int → Int → Bool} {mjdOf : Int → Int → Int → Res Int} {mmap : ReadMap} (raw0 : RawRnxObs) (k : Nat) :
    ∀ (bs : List ObsEpochBlock) (exp : List (EpochHead × List SatVals)) (ov : List SatVals) (buf : List Char) (s : Stream),
    List.Forall₂ (fun b x => BlockSees mjdOf mmap buf.length b x.1 x.2) bs exp → (∀ b ∈ bs, DateGood dateOk b ∧ b.lines.length ≤ ov.length) → s.good = true →
    s.rest = (bs.map ObsEpochBlock.text).flatten → Room mmap ov →
    obsReadEpochsD dateOk mjdOf raw0 mmap (bs.length + k) ov buf s 0 = obsReadEpochs mjdOf raw0 mmap (bs.length + k) ov buf s 0 := by
  intro bs
  induction bs with
  | nil =>
    intro exp ov buf s _ _ hg hr _
    simpa using obsReadEpochsD_eof dateOk mjdOf raw0 mmap s 0 hg (by simpa using hr) k ov buf
  | cons b bs ih =>
    intro exp ov buf s hx hd hg hr hroom
    obtain ⟨⟨h, out⟩, exp, hb, hx', rfl⟩ := List.forall₂_cons_left_iff.1 hx
    simp only at hb
    have hr' : s.rest = b.text ++ (bs.map ObsEpochBlock.text).flatten := by simpa using hr
    obtain ⟨ov1, buf1, e1, e1', e2, e3⟩ := C71_epoch_partial raw0 hb (hd b (by simp)).1 hg hr' (hd b (by simp)).2 hroom
    rw [List.length_cons, show bs.length + 1 + k = (bs.length + k) + 1 by omega]
    unfold obsReadEpochsD obsReadEpochs
    rw [e1, e1', Res.bind_ok, Res.bind_ok]
    simp only
    rw [ih exp ov1 buf1 (s.past (b.head.line :: b.lines)) (by rw [e3]; exact hx')
      (fun x hxm => ⟨(hd x (by simp [hxm])).1, by rw [e2.length]; exact (hd x (by simp [hxm])).2⟩) hg
      (Stream.past_rest (by rw [hr']; rfl)) (e2.room hroom hb.gives.width)]

namespace ObsEx

/-- A calendar that knows the first of January only. -/
def dateOk (_ m d : Int) : Bool := m == 1 && d == 1

theorem block_date : DateGood dateOk block := by
  intro y mo d hh mi flag nsat sec clock hs
  obtain ⟨y', mo', d', _, _, _, _, _, hs', _⟩ := block_says.head
  have h1 := strtol_cols (rest := [NUL]) hs.month (by decide) (by decide) (by simp)
  have h2 := strtol_cols (rest := [NUL]) head_says.month (by decide) (by decide) (by simp)
  have h3 := strtol_cols (rest := [NUL]) hs.day (by decide) (by decide) (by simp)
  have h4 := strtol_cols (rest := [NUL]) head_says.day (by decide) (by decide) (by simp)
  have e : block.head = head := rfl
  rw [e] at h1 h3
  rw [h2] at h1
  rw [h4] at h3
  simp only [Res.ok.injEq, Option.some.injEq, Prod.mk.injEq] at h1 h3
  have a1 : ((1 : Nat) : Int) = mo := h1.1
  have a2 : ((1 : Nat) : Int) = d := h3.1
  simp [dateOk, ← a1, ← a2]

/-- `C71_epochs_partial` applies: the file with the epoch twice, read five times. -/
example (raw0 : RawRnxObs) : obsReadEpochsD dateOk mjdOf raw0 mmap 5 (initEpochVector mmap) buf ⟨block.text ++ block.text, 0, false, false⟩ 0 =
    obsReadEpochs mjdOf raw0 mmap 5 (initEpochVector mmap) buf ⟨block.text ++ block.text, 0, false, false⟩ 0 := by
  apply C71_epochs_partial raw0 3 [block, block] [(hd, [outG05, outG12]), (hd, [outG05, outG12])]
  · exact .cons block_says.sees (.cons block_says.sees .nil)
  · intro b hb
    have : b = block := by simpa using hb
    subst this
    exact ⟨block_date, by rw [(C42_initial mmap).1]; decide⟩
  · rfl
  · simp [Stream.rest]
  · exact (C42_initial mmap).2.1

/-- `C71_many_satellites` applies: three lines (two of them of GPS) and a vector of two slots. -/
example (raw0 : RawRnxObs) (t : List Char) :
    (∃ r, readNextEpoch mjdOf raw0 mmap (List.replicate 2 ((.mixed, -1), [0, 0, 0])) buf ⟨block.text ++ t, 0, false, false⟩ 0 = .ok r ∧ r.status = 0 ∧
      r.sats = 2) ∧
      readNextEpochD dateOk mjdOf raw0 mmap (List.replicate 2 ((.mixed, -1), [0, 0, 0])) buf ⟨block.text ++ t, 0, false, false⟩ 0 = .terminate :=
  C71_many_satellites raw0 block_says.sees (s := ⟨block.text ++ t, 0, false, false⟩) rfl rfl (by decide) (by decide) (by
    intro e he m hm
    have h1 := List.eq_of_mem_replicate he
    subst h1
    have : ∀ m ∈ mmap, m.2.length ≤ 3 := by decide
    exact this m hm)

/-- `C71_invalid_date` applies: a calendar without the first of January. -/
example (raw0 : RawRnxObs) (ov : List SatVals) (t : List Char) :
    readNextEpochD (fun _ _ d => d != 1) mjdOf raw0 mmap ov buf ⟨head.line ++ '\n' :: t, 0, false, false⟩ 0 = .terminate :=
  C71_invalid_date head_says rfl raw0 mmap ov (by decide) (s := ⟨head.line ++ '\n' :: t, 0, false, false⟩) rfl rfl

end ObsEx

end Ggnss
