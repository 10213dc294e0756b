import Verif.Model.Sp3Date
import Verif.Props.Sp3HeadBad
import Verif.Props.ObsRange
import Verif.Props.ObsHeadBad
import Verif.Props.NavBad

/-!
C95: what an impossible calendar date in a file does.
-/
namespace Ggnss

theorem sp3Loop_t (t : Sp3Epoch) (sr : Int) : ∀ (fuel : Nat) (buf : List Char) (vec : List Sp3Rec) (n : Nat) (s : Stream) (errno : Int)
    (o : Sp3Out), sp3Loop t sr fuel buf vec n s errno = .ok o → o.t = t := by
  intro fuel
  induction fuel with
  | zero => intro buf vec n s errno o h; simp [sp3Loop] at h
  | succ fuel ih =>
    intro buf vec n s errno o h
    rw [sp3Loop] at h
    by_cases hp : peekedStar s.peek.1 = true
    · simp only [hp, if_true, Res.ok.injEq] at h; subst h; rfl
    · simp only [hp] at h
      generalize hq : sp3Line _ vec n errno = q at h
      match q, h with
      | .ok (.inl (v, m, e)), h => exact ih _ _ _ _ _ _ h
      | .ok (.inr (st, e)), h =>
        simp only [Bool.false_eq_true, if_false] at h
        by_cases hst : st = -1
        · simp only [hst, if_true, Res.ok.injEq] at h; subst h; rfl
        · simp only [hst, if_false, Res.ok.injEq] at h; subst h; rfl
      | .throw _, h => simp at h
      | .terminate, h => simp at h
      | .ub, h => simp at h
      | .diverge, h => simp at h

/-- The reading of the epoch with the conversion of the date does what the reading without it does,
until the library refuses the date. -/
theorem sp3NextEpoch_agrees (L : Sp3Lib) {junk : List Char} {fuel : Nat} {t0 : Sp3Epoch} {vec : List Sp3Rec} {sr : Int} {s : Stream} {errno : Int}
    {o : Sp3Out} (h : getNextEpoch junk fuel t0 vec sr s errno = .ok o) (t : MicroTime) :
    (o.t = t0 ∧ sp3NextEpoch L junk fuel t vec sr s errno = .ok ⟨o.status, t, o.vec, o.satsRead, o.strm, o.errno⟩) ∨
      sp3NextEpoch L junk fuel t vec sr s errno =
        Res.noexcept (L.date o.t >>= fun d => .ok ⟨o.status, d, o.vec, o.satsRead, o.strm, o.errno⟩) := by
  rw [getNextEpoch, Res.noexcept_eq_ok] at h
  unfold sp3NextEpoch
  by_cases hg : s.good = true
  · simp only [hg, Bool.not_true, Bool.false_eq_true, if_false] at h ⊢
    obtain ⟨hd, h1, h2⟩ := Res.bind_eq_ok.1 h
    rw [h1, Res.bind_ok]
    cases he : hd.1 with
    | error e =>
      rw [he] at h2
      simp only [Res.pure_eq, Res.ok.injEq] at h2
      subst h2
      exact Or.inl ⟨rfl, rfl⟩
    | ok c =>
      rw [he] at h2
      simp only at h2 ⊢
      have := sp3Loop_t _ _ _ _ _ _ _ _ _ h2
      rw [this, h2]
      exact Or.inr rfl
  · simp only [hg, Bool.not_false, if_true, Res.ok.injEq] at h ⊢
    subst h
    exact Or.inl ⟨rfl, rfl⟩

/-- **C95 is false** (epoch of an SP3 file).  An epoch header with well formed columns whose calendar date the date library
refuses ends the program, whatever follows it. -/
theorem C95_sp3_epoch_kills (L : Sp3Lib) {h : EpochLine} (hw : h.WF) {e : Exc} (hd : ∀ t, h.Is t → L.date t = .throw e) (junk : List Char)
    (fuel : Nat) (t : MicroTime) (vec : List Sp3Rec) (sr : Int) (s : Stream) {errno : Int} (he : errno ≠ ERANGE) {tail : List Char}
    (hg : s.good = true) (hr : s.rest = h.line ++ '\n' :: tail) :
    sp3NextEpoch L junk fuel t vec sr s errno = .terminate := by
  have hgl := Stream.getline_line (n := MAX_RECORD_CHARS) hg hr hw.ok.1 (by simpa [MAX_RECORD_CHARS] using hw.ok.2.2)
  obtain ⟨c, h1, h2⟩ := sp3Header_wf hw (junk.drop (h.line.length + 1)) he
  have h1' : sp3Header (fillLine junk h.line) errno = .ok (.ok c, errno) := h1
  unfold sp3NextEpoch
  simp only [hg, Bool.not_true, Bool.false_eq_true, if_false, hgl, h1', Res.bind_ok, hd c h2]
  rfl

/-- One call delivered the epoch `b`, the library's date included. -/
def DeliversDate (L : Sp3Lib) (b : EpochBlock) (o : Sp3Dated) : Prop :=
  (∃ c, b.header.Is c ∧ L.date c = .ok o.t) ∧ o.satsRead = b.records.length ∧
    ∃ recs, recs <+: o.vec ∧ List.Forall₂ Decoded b.records recs

/-- The date on the epoch header is one the library accepts. -/
def GoodDate (L : Sp3Lib) (b : EpochBlock) : Prop := ∀ c, b.header.Is c → ∃ d, L.date c = .ok d

theorem sp3_one {L : Sp3Lib} {b : EpochBlock} (hgd : GoodDate L b) {junk : List Char} {fuel : Nat} {vec : List Sp3Rec} {sr : Int} {s : Stream}
    {errno : Int} {o : Sp3Out} {tail : List Char} (hw : b.header.WF) (he : errno ≠ ERANGE) (hg : s.good = true)
    (hr : s.rest = b.header.line ++ '\n' :: tail)
    (h : ∀ t0, ∃ c, getNextEpoch junk fuel t0 vec sr s errno = .ok ⟨o.status, c, o.vec, o.satsRead, o.strm, o.errno⟩ ∧ b.header.Is c) (t : MicroTime) :
    ∃ c d, b.header.Is c ∧ L.date c = .ok d ∧
      sp3NextEpoch L junk fuel t vec sr s errno = .ok ⟨o.status, d, o.vec, o.satsRead, o.strm, o.errno⟩ := by
  have hgl := Stream.getline_line (n := MAX_RECORD_CHARS) hg hr hw.ok.1 (by simpa [MAX_RECORD_CHARS] using hw.ok.2.2)
  obtain ⟨c, h1, h2⟩ := sp3Header_wf hw (junk.drop (b.header.line.length + 1)) he
  have h1' : sp3Header (fillLine junk b.header.line) errno = .ok (.ok c, errno) := h1
  obtain ⟨d, hd⟩ := hgd c h2
  obtain ⟨c', hc', _⟩ := h ⟨0, 0, 0, 0, 0, 0⟩
  refine ⟨c, d, h2, hd, ?_⟩
  rw [getNextEpoch, Res.noexcept_eq_ok] at hc'
  unfold sp3NextEpoch
  simp only [hg, Bool.not_true, Bool.false_eq_true, if_false, hgl, h1', Res.bind_ok] at hc' ⊢
  rw [hd, Res.bind_ok, hc', Res.bind_ok]
  rfl

theorem epoch_star {b : EpochBlock} (hw : b.header.WF) : ∃ r, b.header.line = '*' :: r := by
  have := hw.star
  cases hl : b.header.line with
  | nil => rw [hl] at this; simp at this
  | cons c r => rw [hl] at this; simp at this; exact ⟨r, by rw [this]⟩

/-- Reading the well formed epochs `bs` of a file in which the header of another one follows: every call
delivers its epoch and the reader stands before that header. -/
theorem sp3ReadAll_epochs (L : Sp3Lib) (junk : Nat → List Char) (hj : ∀ k, (junk k).length = 128) (fuel : Nat) {errno : Int} (he : errno ≠ ERANGE)
    (T : List Char) :
    ∀ (bs : List EpochBlock) (t0 : MicroTime) (vec : List Sp3Rec) (sr : Int) (s : Stream),
      (∀ b ∈ bs, b.WF vec.length fuel ∧ GoodDate L b) → s.good = true → s.rest = (bs.map EpochBlock.text).flatten ++ '*' :: T →
      ∃ (outs : List Sp3Dated) (t : MicroTime) (vec' : List Sp3Rec) (sr' : Int) (s' : Stream),
        List.Forall₂ (DeliversDate L) bs outs ∧ (∀ o ∈ outs, o.status = 0) ∧ vec'.length = vec.length ∧ s'.good = true ∧ s'.rest = '*' :: T ∧
        ∀ calls, sp3ReadAll L junk fuel (bs.length + calls) t0 vec sr s errno =
          (sp3ReadAll L junk fuel calls t vec' sr' s' errno >>= fun r => .ok (outs ++ r)) := by
  intro bs
  induction bs with
  | nil =>
    intro t0 vec sr s _ hg hr
    refine ⟨[], t0, vec, sr, s, .nil, by simp, rfl, hg, by simpa using hr, ?_⟩
    intro calls
    simp only [List.length_nil, Nat.zero_add, List.nil_append]
    cases sp3ReadAll L junk fuel calls t0 vec sr s errno <;> rfl
  | cons b bs ih =>
    intro t0 vec sr s hwf hg hr
    obtain ⟨hb, hgd⟩ := hwf b (by simp)
    obtain ⟨T', hT⟩ : ∃ T', (bs.map EpochBlock.text).flatten ++ '*' :: T = '*' :: T' := by
      cases bs with
      | nil => exact ⟨T, rfl⟩
      | cons b2 bs =>
        obtain ⟨r, hstar⟩ := epoch_star (hwf b2 (by simp)).1.header
        exact ⟨r ++ '\n' :: linesText b2.lines ++ ((bs.map EpochBlock.text).flatten ++ '*' :: T), by simp [EpochBlock.text, hstar]⟩
    have hr' : s.rest = b.header.line ++ '\n' :: (linesText b.lines ++ '*' :: T') := by
      rw [hr, ← hT]; simp [EpochBlock.text]
    have hone := fun t1 => C31_epoch_before_header hb.header hb.body (junk s.pos) (hj _) fuel hb.short t1 vec hb.size sr s T' he hg hr'
    obtain ⟨c0, recs, h1, h2, h3⟩ := hone ⟨0, 0, 0, 0, 0, 0⟩
    have hcall : ∃ c d, b.header.Is c ∧ L.date c = .ok d ∧ sp3NextEpoch L (junk s.pos) fuel t0 vec sr s errno =
        .ok ⟨0, d, recs ++ vec.drop b.records.length, b.records.length, s.adv (b.header.line.length + 1 + (linesText b.lines).length), errno⟩ := by
      rcases sp3NextEpoch_agrees L h1 t0 with ⟨e, h⟩ | h
      · obtain ⟨d, hd⟩ := hgd c0 h2
        have hgl := Stream.getline_line (n := MAX_RECORD_CHARS) hg hr' hb.header.ok.1 (by simpa [MAX_RECORD_CHARS] using hb.header.ok.2.2)
        obtain ⟨c, q1, q2⟩ := sp3Header_wf hb.header ((junk s.pos).drop (b.header.line.length + 1)) he
        obtain ⟨d', hd'⟩ := hgd c q2
        have q1' : sp3Header (fillLine (junk s.pos) b.header.line) errno = .ok (.ok c, errno) := q1
        refine ⟨c, d', q2, hd', ?_⟩
        rw [getNextEpoch, Res.noexcept_eq_ok] at h1
        unfold sp3NextEpoch
        simp only [hg, Bool.not_true, Bool.false_eq_true, if_false, hgl, q1', Res.bind_ok] at h1 ⊢
        rw [hd', Res.bind_ok, h1, Res.bind_ok]
        rfl
      · obtain ⟨d, hd⟩ := hgd c0 h2
        refine ⟨c0, d, h2, hd, ?_⟩
        rw [h, hd]; rfl
    obtain ⟨c, d, hc, hd, hcall⟩ := hcall
    have hlen : (recs ++ vec.drop b.records.length).length = vec.length := by
      have := h3.length_eq; have := hb.size; simp; omega
    have hrest : (s.adv (b.header.line.length + 1 + (linesText b.lines).length)).rest = (bs.map EpochBlock.text).flatten ++ '*' :: T := by
      rw [hT]
      have := Stream.adv_rest_append (s := s) (a := b.header.line ++ '\n' :: linesText b.lines) (b := '*' :: T')
        (by rw [hr']; simp)
      rw [← this]; congr 2; simp; omega
    obtain ⟨outs, t, vec', sr', s', o1, o2, o3, o4, o5, o6⟩ := ih d (recs ++ vec.drop b.records.length) b.records.length
      (s.adv (b.header.line.length + 1 + (linesText b.lines).length))
      (fun x hx => by rw [hlen]; exact hwf x (by simp [hx])) hg hrest
    refine ⟨⟨0, d, recs ++ vec.drop b.records.length, b.records.length,
        s.adv (b.header.line.length + 1 + (linesText b.lines).length), errno⟩ :: outs, t, vec', sr', s',
      .cons ⟨⟨c, hc, hd⟩, rfl, recs, List.prefix_append _ _, h3⟩ o1, ?_, by rw [o3, hlen], o4, o5, ?_⟩
    · intro o ho
      rcases List.mem_cons.1 ho with rfl | ho
      · rfl
      · exact o2 o ho
    · intro calls
      rw [show (b :: bs).length + calls = (bs.length + calls) + 1 by simp; omega, sp3ReadAll, hcall]
      simp only [Res.bind_ok, ne_eq, not_true_eq_false, if_false, o6]
      cases sp3ReadAll L junk fuel calls t vec' sr' s' errno <;> rfl

/-- **C95** (SP3, positive part).  When the library accepts the date of every epoch, reading the whole file delivers every epoch
with the library's date, in file order, each exactly once; all calls but the last return 0, the last one -1. -/
theorem C95_sp3_file (L : Sp3Lib) (junk : Nat → List Char) (hj : ∀ k, (junk k).length = 128) (fuel : Nat) {errno : Int} (he : errno ≠ ERANGE)
    {e tail : List Char} (hok : LineOK e) (heof : e.take 3 = c!"EOF") (htail : tail = [] ∨ ∃ r, tail = '\n' :: r) (bs : List EpochBlock)
    (b : EpochBlock) (t0 : MicroTime) (vec : List Sp3Rec) (sr : Int) (s : Stream) (hwf : ∀ x ∈ bs ++ [b], x.WF vec.length fuel ∧ GoodDate L x)
    (hg : s.good = true) (hr : s.rest = ((bs ++ [b]).map EpochBlock.text).flatten ++ (e ++ tail)) (calls : Nat) (hc : bs.length < calls) :
    ∃ outs, sp3ReadAll L junk fuel calls t0 vec sr s errno = .ok outs ∧ List.Forall₂ (DeliversDate L) (bs ++ [b]) outs ∧
      outs.map Sp3Dated.status = List.replicate bs.length 0 ++ [-1] := by
  obtain ⟨hb, hgd⟩ := hwf b (by simp)
  obtain ⟨r, hstar⟩ := epoch_star hb.header
  obtain ⟨outs, t, vec', sr', s', o1, o2, o3, o4, o5, o6⟩ := sp3ReadAll_epochs L junk hj fuel he
    (r ++ '\n' :: (linesText b.lines ++ (e ++ tail))) bs t0 vec sr s (fun x hx => hwf x (by simp [hx])) hg
    (by rw [hr]; simp [EpochBlock.text, hstar])
  have hr' : s'.rest = b.header.line ++ '\n' :: (linesText b.lines ++ (e ++ tail)) := by rw [o5, hstar]; simp
  rw [← o3] at hwf
  obtain ⟨hb, _⟩ := hwf b (by simp)
  obtain ⟨k, rfl⟩ : ∃ k, calls = bs.length + (k + 1) := ⟨calls - bs.length - 1, by omega⟩
  obtain ⟨c0, recs, s'', h1, h2, h3, _⟩ := C31_epoch_before_eof hb.header hb.body (junk s'.pos) (hj _) fuel hb.short
    ⟨0, 0, 0, 0, 0, 0⟩ vec' hb.size sr' s' e tail he o4 hok heof htail hr'
  have hcall : ∃ c d, b.header.Is c ∧ L.date c = .ok d ∧ sp3NextEpoch L (junk s'.pos) fuel t vec' sr' s' errno =
      .ok ⟨-1, d, recs ++ vec'.drop b.records.length, b.records.length, s'', errno⟩ :=
    sp3_one (o := ⟨-1, c0, recs ++ vec'.drop b.records.length, b.records.length, s'', errno⟩) hgd hb.header he o4 hr' (fun t1 => by
      have hgl := Stream.getline_line (n := MAX_RECORD_CHARS) o4 hr' hb.header.ok.1 (by simpa [MAX_RECORD_CHARS] using hb.header.ok.2.2)
      obtain ⟨c, q1, q2⟩ := sp3Header_wf hb.header ((junk s'.pos).drop (b.header.line.length + 1)) he
      have q1' : sp3Header (fillLine (junk s'.pos) b.header.line) errno = .ok (.ok c, errno) := q1
      refine ⟨c0, ?_, h2⟩
      rw [← h1]
      unfold getNextEpoch
      simp only [o4, Bool.not_true, Bool.false_eq_true, if_false, hgl, q1', Res.bind_ok]) t
  obtain ⟨c, d, hcI, hd, hcall⟩ := hcall
  refine ⟨outs ++ [⟨-1, d, recs ++ vec'.drop b.records.length, b.records.length, s'', errno⟩], ?_, ?_, ?_⟩
  · rw [o6, sp3ReadAll, hcall]; rfl
  · exact List.rel_append (R := DeliversDate L) o1 (.cons ⟨⟨c, hcI, hd⟩, rfl, recs, List.prefix_append _ _, h3⟩ .nil)
  · rw [List.map_append]
    congr 1
    rw [List.eq_replicate_iff]
    refine ⟨by rw [List.length_map, o1.length_eq], ?_⟩
    intro x hx
    obtain ⟨o, ho, rfl⟩ := List.mem_map.1 hx
    exact o2 o ho

/-- **C95 is false** (whole SP3 file).  A file whose epochs are well formed, one of them with a date the library refuses: reading on
from the beginning ends the program at that epoch, however many good ones precede it and whatever follows. -/
theorem C95_sp3_file_kills (L : Sp3Lib) (junk : Nat → List Char) (hj : ∀ k, (junk k).length = 128) (fuel : Nat) {errno : Int} (he : errno ≠ ERANGE)
    (bs : List EpochBlock) {h : EpochLine} (hw : h.WF) {x : Exc} (hd : ∀ t, h.Is t → L.date t = .throw x) (t0 : MicroTime) (vec : List Sp3Rec)
    (sr : Int) (s : Stream) (hwf : ∀ b ∈ bs, b.WF vec.length fuel ∧ GoodDate L b) (hg : s.good = true) {tail : List Char}
    (hr : s.rest = (bs.map EpochBlock.text).flatten ++ (h.line ++ '\n' :: tail)) (calls : Nat) (hc : bs.length < calls) :
    sp3ReadAll L junk fuel calls t0 vec sr s errno = .terminate := by
  obtain ⟨r, hstar⟩ := epoch_star (b := ⟨h, [], []⟩) hw
  simp only at hstar
  obtain ⟨outs, t, vec', sr', s', o1, o2, o3, o4, o5, o6⟩ := sp3ReadAll_epochs L junk hj fuel he
    (r ++ '\n' :: tail) bs t0 vec sr s hwf hg (by rw [hr, hstar]; simp)
  obtain ⟨k, rfl⟩ : ∃ k, calls = bs.length + (k + 1) := ⟨calls - bs.length - 1, by omega⟩
  rw [o6, sp3ReadAll, C95_sp3_epoch_kills L hw hd (junk s'.pos) fuel t vec' sr' s' he o4 (tail := tail) (by rw [o5, hstar]; simp)]
  rfl

/-- **C95 is false** (header of an SP3 file).  A first line with well formed columns whose calendar date the library refuses ends
the program; the exception is not the constructor's `std::runtime_error`. -/
theorem C95_sp3_header_kills {L : Sp3Lib} {junk : List Char} {h : Sp3Header} (hw : h.Dated) {x : Exc}
    (hd : ∀ t, h.StartIs t → L.date t = .throw x) (content : List Char) :
    sp3Open L false junk (h.first ++ '\n' :: content) = .terminate := by
  have hfirst : sp3First L false (fillLine junk h.first) = .throw x := by
    have hb := truncRat_bounds (q := h.sec.value * 1000000) (by have := hw.sec.2.1; linarith)
    have hdd := hd ⟨h.year, h.month, h.day, h.hour, h.minute, truncRat (h.sec.value * 1000000)⟩
      ⟨rfl, rfl, rfl, rfl, rfl, hb.1, hb.2⟩
    have hc := castLong_small (q := h.sec.value * 1000000) (by have := hw.sec.2.1; linarith) (by have := hw.sec.2.2; linarith)
    have hv : ¬ (h.version ≠ 'c' ∧ h.version ≠ 'd') := by
      rcases hw.ver with h | h <;> simp [h]
    unfold sp3First
    simp only [getAt_fill hw.first_is.1, getAt_fill hw.first_is.2, Res.bind_ok, ne_eq, not_true_eq_false, if_false]
    rw [if_neg hv]
    simp only [sp3Nonzero_nat hw.year.1 hw.year.2, sp3Nonzero_nat hw.month.1 hw.month.2, sp3Nonzero_nat hw.day.1 hw.day.2,
      sp3Conv_nat hw.hour, sp3Conv_nat hw.minute, Res.bind_ok]
    unfold sp3FirstEnd
    simp only [sp3Double_num hw.sec.1, Bool.or_false, sp3Nonzero_nat hw.epochs.1 hw.epochs.2, bytesAt_text hw.crdSys,
      bytesAt_text hw.orbType, bytesAt_text hw.agency3, hc, hdd, Res.bind_ok]
    rfl
  have hl := hw.first_fits
  have hs0 : (⟨h.first ++ '\n' :: content, 0, false, false⟩ : Stream).seekg 0 = ⟨h.first ++ '\n' :: content, 0, false, false⟩ := rfl
  have hr : (⟨h.first ++ '\n' :: content, 0, false, false⟩ : Stream).rest = linesText [h.first] ++ content := by
    rw [linesText_one]; simp [Stream.rest]
  have hg := getline_past (n := SP3_HEADER_CHARS) (s := ⟨h.first ++ '\n' :: content, 0, false, false⟩) rfl hr hl.1 hl.2.2
  unfold sp3Open sp3ReadHeader
  rw [hs0]
  simp only [hg, hfirst]
  rfl

/-- **C95 is false** (epoch of an observation file).  An epoch header whose calendar day the library refuses ends the program. -/
theorem C95_obs_epoch_kills {mjdOf : Int → Int → Int → Res Int} (raw0 : RawRnxObs) (mmap : ReadMap) (ov : List SatVals) (buf : List Char) (s : Stream)
    {l : List Char} (hl : NUL ∉ l) (hn : '\n' ∉ l) (hbuf : l.length < buf.length) (h0 : l.head? = some '>') (h35 : 35 ≤ l.length)
    {cy cm cd ch cmi t : List Char} {y mo d h mi : Nat} (h1 : IntCols 4 cy y) (h2 : IntCols 2 cm mo) (h3 : IntCols 2 cd d) (h4 : IntCols 2 ch h)
    (h5 : IntCols 2 cmi mi) (hdrop : l.drop 2 = cy ++ ' ' :: (cm ++ ' ' :: (cd ++ ' ' :: (ch ++ ' ' :: (cmi ++ ' ' :: t)))))
    {x : Exc} (hm : mjdOf y mo d = .throw x) {tail : List Char} (hg : s.good = true) (hr : s.rest = l ++ '\n' :: tail) :
    readNextEpoch mjdOf raw0 mmap ov buf s 0 = .terminate := by
  have hres : ∀ tail, resolveEpoch mjdOf (l ++ NUL :: tail) 0 = .terminate := by
    intro tail
    have hints : epochInts 5 ((l ++ NUL :: tail).drop 2) 0 = .ok (some ([(y : Int), mo, d, h, mi], t ++ NUL :: tail)) := by
      have e : (l ++ NUL :: tail).drop 2 = cy ++ ' ' :: (cm ++ ' ' :: (cd ++ ' ' :: (ch ++ ' ' :: (cmi ++ ' ' :: (t ++ NUL :: tail))))) := by
        rw [drop_line (by omega), hdrop]; simp
      rw [e]
      apply epochInts_cols h1 (by decide) (by simp)
      apply epochInts_cols h2 (by decide) (by simp)
      apply epochInts_cols h3 (by decide) (by simp)
      apply epochInts_cols h4 (by decide) (by simp)
      apply epochInts_cols h5 (by decide) (by simp)
      rfl
    unfold resolveEpoch
    rw [cstrOf_append hl, Res.bind_ok]
    have hg : getAt (l ++ NUL :: tail) 0 = .ok '>' := by
      cases l with
      | nil => simp at h0
      | cons c cs => simp at h0; subst h0; rfl
    rw [hg, Res.bind_ok, if_neg (by simp; omega), hints, Res.bind_ok]
    simp only [hm]
    rfl
  have hp : s.peek = (some '>', s) := by
    cases l with
    | nil => simp at h0
    | cons c cs => simp at h0; subst h0; exact Stream.peek_cons hg (by rw [hr]; rfl)
  unfold readNextEpoch
  rw [hp]
  simp only
  rw [Stream.getline_line (n := buf.length) hg hr hn (by omega)]
  simp only [fillLine]
  rw [hres]
  rfl

/-- **C95 is false** (header of an observation file).  Any exception of the date library other than `std::invalid_argument` on the
TIME OF FIRST OBS line ends the program (that one is turned into `std::runtime_error`: C60_bad_date_refused). -/
theorem C95_obs_header_kills {strptime : List Char → Res DateTime} {gAnt : Nat → List Char} {g0 : List Char} (hgA : ∀ k, (gAnt k).length = 41) (hg0 : g0.length = 41) (junk : List Char)
    (buf0 : Nat → List Char)
    {version : Numeral} {sys : SatSys} {first second : List Char} {items : List ObsItem} (h : HeadPrefix strptime version sys first second items)
    {l : List Char} (hl : Labelled l c!"TIME OF FIRST OBS") {x : Exc} (hx : x ≠ .invalid_argument) (hbad : ∀ line, strptime (fillLine line l) = .throw x)
    (t : List Char) :
    obsOpen strptime gAnt false g0 junk buf0 (linesText (prefixLines first second items) ++ (l ++ '\n' :: t)) = .terminate := by
  obtain ⟨o, line, s, k, hg, hr, _, he, _, ho⟩ := obsOpen_prefix (gAnt := gAnt) hgA hg0 junk buf0 h (l ++ '\n' :: t)
  rw [ho]
  have hr' : s.rest = linesText [l] ++ t := by rw [hr, linesText_one]; simp
  rw [show k + 10 = (k + 9) + 1 from rfl, obsHeadLoop, he, Res.bind_ok]
  simp only [Bool.false_eq_true, if_false]
  rw [getline_past (n := OBS_HEADER_CHARS) hg hr' hl.1.1 hl.1.2.2]
  simp only
  have h := labelsAre_labelled hl (by decide) line
  simp only [obsHeadLine, (h c!"MARKER NAME" (by decide)).2 (by decide), (h c!"MARKER NUMBER" (by decide)).2 (by decide),
    (h c!"REC # / TYPE / VERS" (by decide)).2 (by decide), (h c!"ANT # / TYPE" (by decide)).2 (by decide),
    (h c!"APPROX POSITION XYZ" (by decide)).2 (by decide), (h c!"ANTENNA: DELTA H/E/N" (by decide)).2 (by decide),
    (h c!"SYS / # / OBS TYPES" (by decide)).2 (by decide), (h c!"RCV CLOCK OFFS APPL" (by decide)).2 (by decide),
    (h c!"TIME OF FIRST OBS" (by decide)).1 rfl, Res.bind_ok, if_true, Bool.false_eq_true, if_false, hbad]
  cases x with
  | invalid_argument => exact absurd rfl hx
  | runtime_error => rfl
  | out_of_range => rfl

end Ggnss
