import Verif.Props.ObsSafe
import Verif.Props.NavSeq
/-!
# C57, C58: whole epochs and sequences of epochs
-/
namespace Ggnss

theorem collectLoop_got {mmap : ReadMap} {raw0 : RawRnxObs} {n : Nat} {t : List Char} : ∀ {ls : List (List Char)} {out : List SatVals},
    EpochGot mmap ls out → (∀ l ∈ ls, LineFits (n - 1) l) → ∀ (i : Nat) (ov : List SatVals) (buf : List Char) (s : Stream),
    buf.length = n → 1 ≤ n → s.good = true → s.rest = linesText ls ++ t → i + out.length ≤ ov.length → Room mmap ov →
    ∃ ov' buf', collectLoop raw0 mmap ls.length i ov buf s 0 = .ok ⟨0, i + out.length, ov', buf', s.past ls, 0⟩ ∧ buf'.length = n ∧
      ov'.length = ov.length ∧
      (∀ (j : Nat) (o : SatVals), out[j]? = some o → ∃ e, ov[i + j]? = some e ∧ ov'[i + j]? = some (o.1, o.2 ++ e.2.drop o.2.length)) ∧
      (∀ j, j < i ∨ i + out.length ≤ j → ov'[j]? = ov[j]?) := by
  intro ls out h
  induction h with
  | nil =>
    intro _ i ov buf s hb _ _ _ _ _
    exact ⟨ov, buf, by simp [collectLoop, Stream.past_nil], hb, rfl, by simp, by simp⟩
  | @skip l ls out sys h1 h2 _ ih =>
    intro hf i ov buf s hb hn hg hr hi hroom
    obtain ⟨hl1, hl2, hl3⟩ := hf l (by simp)
    have hgl := getline_past (n := n) hg hr hl1 hl3
    have hbl : (fillLine buf l).length = n := by simp [fillLine, hb]; omega
    obtain ⟨ov', buf', e1, e2, e3, e4, e5⟩ := ih (fun x hx => hf x (by simp [hx])) i ov (fillLine buf l) (s.past [l]) hbl hn hg (rest_cons hr) hi hroom
    refine ⟨ov', buf', ?_, e2, e3, e4, e5⟩
    simp only [List.length_cons]
    unfold collectLoop
    rw [hb, hgl]
    simp only
    rw [getAt_fill (l := l) (i := 0) (by rw [← List.head?_eq_getElem?]; exact h1), Res.bind_ok, charToSatsys_letter]
    simp only [h2]
    rw [e1, Stream.past_past]
    rfl
  | @sat l ls out sys prn sysobs xss h1 h2 h3 h4 h5 h6 h7 _ ih =>
    intro hf i ov buf s hb hn hg hr hi hroom
    obtain ⟨hl1, hl2, hl3⟩ := hf l (by simp)
    simp only [List.length_cons] at hi
    have hgl := getline_past (n := n) hg hr hl1 hl3
    have hbl : (fillLine buf l).length = n := by simp [fillLine, hb]; omega
    have hlt : i < ov.length := by omega
    have hv := hroom ov[i] (List.getElem_mem hlt) _ (lookup_mem h2)
    simp only at hv
    obtain ⟨st, hst, e⟩ := C39_collected hl2 h3 h4 h5 h6 h7 ov[i].2 hv buf raw0
    have hsx : sysobs.length = xss.length := h7.length_eq
    have hlen : (xss.map (codeSum · 0) ++ ov[i].2.drop sysobs.length).length = ov[i].2.length := by simp; omega
    have hroom' : Room mmap (ov.set i ((sys, (prn : Int)), xss.map (codeSum · 0) ++ ov[i].2.drop sysobs.length)) :=
      hroom.set (List.getElem?_eq_getElem hlt) hlen
    obtain ⟨ov', buf', e1, e2, e3, e4, e5⟩ := ih (fun x hx => hf x (by simp [hx])) (i + 1) _ (fillLine buf l) (s.past [l]) hbl hn hg (rest_cons hr)
      (by simp; omega) hroom'
    refine ⟨ov', buf', ?_, e2, by simpa using e3, ?_, ?_⟩
    · simp only [List.length_cons]
      unfold collectLoop
      rw [hb, hgl]
      simp only
      rw [getAt_fill (l := l) (i := 0) (by rw [← List.head?_eq_getElem?]; exact h1), Res.bind_ok, charToSatsys_letter]
      simp only [h2, List.getElem?_eq_getElem hlt]
      rw [e, Res.bind_ok]
      simp only
      rw [if_neg (by omega), e1, Stream.past_past]
      simp only [List.singleton_append, Res.ok.injEq, CollectOut.mk.injEq, true_and, and_true]
      omega
    · intro j o ho
      cases j with
      | zero =>
        simp only [List.getElem?_cons_zero, Option.some.injEq] at ho
        subst ho
        refine ⟨ov[i], by simp [List.getElem?_eq_getElem hlt], ?_⟩
        rw [Nat.add_zero, e5 i (Or.inl (by omega)), List.getElem?_set_self hlt]
        simp [hsx]
      | succ j =>
        simp only [List.getElem?_cons_succ] at ho
        obtain ⟨x, hx1, hx2⟩ := e4 j o ho
        rw [List.getElem?_set_ne (by omega)] at hx1
        exact ⟨x, by rw [← hx1]; congr 1; omega, by rw [← hx2]; congr 1; omega⟩
    · intro j hj
      simp only [List.length_cons] at hj
      rw [e5 j (by omega), List.getElem?_set_ne (by omega)]

/-- What a block says for a request: header and satellites. -/
structure BlockSays (mjdOf : Int → Int → Int → Res Int) (mmap : ReadMap) (n : Nat) (b : ObsEpochBlock) (h : EpochHead) (out : List SatVals) : Prop where
  head : ∃ y mo d hh mi flag nsat : Nat, ∃ sec : Rat, b.head.Says y mo d hh mi sec flag nsat h.clock ∧ mjdOf y mo d = .ok h.mjd ∧
    h.sec = hh * 3600 + mi * 60 + sec ∧ h.flag = flag ∧ h.numSats = nsat ∧ nsat = b.lines.length
  gives : EpochGives mmap b.lines out
  fit : LineFits (n - 1) b.head.line ∧ ∀ l ∈ b.lines, LineFits (n - 1) l

/-- As `BlockSays`, for any well-formed fields: the satellites with what the code makes of their
fields. -/
structure BlockSees (mjdOf : Int → Int → Int → Res Int) (mmap : ReadMap) (n : Nat) (b : ObsEpochBlock) (h : EpochHead) (out : List SatVals) : Prop where
  head : ∃ y mo d hh mi flag nsat : Nat, ∃ sec : Rat, b.head.Says y mo d hh mi sec flag nsat h.clock ∧ mjdOf y mo d = .ok h.mjd ∧
    h.sec = hh * 3600 + mi * 60 + sec ∧ h.flag = flag ∧ h.numSats = nsat ∧ nsat = b.lines.length
  gives : EpochGot mmap b.lines out
  fit : LineFits (n - 1) b.head.line ∧ ∀ l ∈ b.lines, LineFits (n - 1) l

theorem EpochGives.got {mmap : ReadMap} {ls : List (List Char)} {out : List SatVals} (h : EpochGives mmap ls out) : EpochGot mmap ls out := by
  induction h with
  | nil => exact .nil
  | skip sys h1 h2 _ ih => exact .skip sys h1 h2 ih
  | @sat l ls out sys prn sysobs xss h1 h2 h3 h4 h5 h6 h7 h8 _ ih =>
    have e : xss.map combination = xss.map (codeSum · 0) := List.map_congr_left (fun xs hxs => (codeSum_combination (h8 xs hxs)).symm)
    rw [e]
    exact .sat sys prn sysobs xss h1 h2 h3 h4 h5 h6 (List.Forall₂.imp (fun _ _ h => h.got) h7) ih

theorem BlockSays.sees {mjdOf : Int → Int → Int → Res Int} {mmap : ReadMap} {n : Nat} {b : ObsEpochBlock} {h : EpochHead} {out : List SatVals}
    (hb : BlockSays mjdOf mmap n b h out) : BlockSees mjdOf mmap n b h out := ⟨hb.head, hb.gives.got, hb.fit⟩

theorem EpochGot.length_le {mmap : ReadMap} {ls : List (List Char)} {out : List SatVals} (h : EpochGot mmap ls out) :
    out.length ≤ ls.length := by
  induction h with
  | nil => simp
  | skip _ _ _ _ ih => simp; omega
  | sat _ _ _ _ _ _ _ _ _ _ _ _ ih => simp; omega

theorem EpochGives.length_le {mmap : ReadMap} {ls : List (List Char)} {out : List SatVals} (h : EpochGives mmap ls out) :
    out.length ≤ ls.length := h.got.length_le

/-- The readings of a line, whatever its (well-formed) fields. -/
theorem gotAll_total {l : List Char} {prs : IdPairs} (h : ∀ pr ∈ prs, ∃ y, Reads l pr.1 y) : ∃ xs, GotAll l prs xs := by
  induction prs with
  | nil => exact ⟨[], .nil⟩
  | cons p prs ih =>
    obtain ⟨y, hy⟩ := h p (by simp)
    obtain ⟨x, d, hd, hg⟩ := C39_reading_total hy
    obtain ⟨xs, hxs⟩ := ih (fun pr hpr => h pr (by simp [hpr]))
    exact ⟨(x, p.2) :: xs, .cons ⟨⟨d, hd, hg⟩, rfl⟩ hxs⟩

/-- A data line all of whose requested fields are well formed. -/
structure DataLine (mmap : ReadMap) (l : List Char) : Prop where
  named : ∃ sys, l.head? = some (satsysToChar sys)
  number : ∃ prn : Nat, NatAt ((l.drop 1).take 2) 0 prn ∧ 1 ≤ prn ∧ prn ≤ 99
  len : 3 ≤ l.length
  fields : ∀ sys sysobs, l.head? = some (satsysToChar sys) → mmap.lookup sys = some sysobs → ∀ prs ∈ sysobs, ∀ pr ∈ prs, ∃ y, Reads l pr.1 y

/-- **C57** (the exact account covers every epoch of well-formed data lines). -/
theorem C57_lines_total {mmap : ReadMap} {ls : List (List Char)} (h : ∀ l ∈ ls, DataLine mmap l) : ∃ out, EpochGot mmap ls out := by
  induction ls with
  | nil => exact ⟨[], .nil⟩
  | cons l ls ih =>
    obtain ⟨out, ho⟩ := ih (fun x hx => h x (by simp [hx]))
    obtain ⟨⟨sys, h1⟩, ⟨prn, h2, h3, h4⟩, h5, h6⟩ := h l (by simp)
    cases hm : mmap.lookup sys with
    | none => exact ⟨out, .skip sys h1 hm ho⟩
    | some sysobs =>
      have : ∃ xss, List.Forall₂ (GotAll l) sysobs xss := by
        have hall := h6 sys sysobs h1 hm
        clear hm h6
        induction sysobs with
        | nil => exact ⟨[], .nil⟩
        | cons p ps ihp =>
          obtain ⟨xs, hxs⟩ := gotAll_total (hall p (by simp))
          obtain ⟨xss, hxss⟩ := ihp (fun q hq => hall q (by simp [hq]))
          exact ⟨xs :: xss, .cons hxs hxss⟩
      obtain ⟨xss, hx⟩ := this
      exact ⟨_, .sat sys prn sysobs xss h1 hm h2 h3 h4 h5 hx ho⟩

/-- **C57** (exact behaviour): reading an epoch.  The stream standing before a well-formed epoch (header
that lists as many satellites as data lines follow; lines that fit the buffer; well-formed fields),
the call returns 0, the date, the number of satellites of requested systems, and these satellites
with what the code makes of their fields in the first slots of the vector, in file order; other
systems are skipped; the other slots are not touched; the stream stands behind the epoch. -/
theorem C57_exact {mjdOf : Int → Int → Int → Res Int} {mmap : ReadMap} {b : ObsEpochBlock} {h : EpochHead} {out : List SatVals}
    (raw0 : RawRnxObs) {ov : List SatVals} {buf : List Char} (hb : BlockSees mjdOf mmap buf.length b h out) (hn : 1 ≤ buf.length)
    {s : Stream} {t : List Char} (hg : s.good = true) (hr : s.rest = b.text ++ t) (hov : out.length ≤ ov.length) (hroom : Room mmap ov) :
    ∃ ov' buf', readNextEpoch mjdOf raw0 mmap ov buf s 0 = .ok ⟨0, out.length, some h, ov', buf', s.past (b.head.line :: b.lines), 0⟩ ∧
      Holds ov ov' out ∧ buf'.length = buf.length := by
  obtain ⟨y, mo, d, hh, mi, flag, nsat, sec, hs, hm, hsec, hfl, hns, hnl⟩ := hb.head
  obtain ⟨f1, f2, f3⟩ := hb.fit.1
  have hhead : h = ⟨h.mjd, (hh : Rat) * 3600 + mi * 60 + sec, flag, nsat, h.clock⟩ := by
    cases h; simp_all
  unfold ObsEpochBlock.text at hr
  have hgl := getline_past (n := buf.length) hg hr f1 f3
  have hbl : (fillLine buf b.head.line).length = buf.length := by simp [fillLine]; omega
  have hpk : s.peek = (some '>', s) := by
    apply Stream.peek_cons hg
    rw [hr, linesText_cons]; rfl
  have hres : resolveEpoch mjdOf (fillLine buf b.head.line) 0 = .ok (.inr h) := by
    unfold fillLine; rw [C43_header hs hm, ← hhead]
  obtain ⟨ov', buf', e1, e2, e3, e4, e5⟩ := collectLoop_got (raw0 := raw0) hb.gives hb.fit.2 0 ov (fillLine buf b.head.line) (s.past [b.head.line])
    hbl hn hg (rest_cons hr) (by omega) hroom
  refine ⟨ov', buf', ?_, ⟨e3, ?_, ?_⟩, e2⟩
  · unfold readNextEpoch
    rw [hpk]
    simp only
    rw [hgl]
    simp only [hres, Res.bind_ok]
    unfold collectEpoch
    rw [hns, hnl, Int.toNat_natCast, e1, Res.bind_ok]
    simp only [Nat.zero_add, ne_eq, not_true_eq_false, if_false]
    unfold epochEnd
    have hgf : (s.past [b.head.line] |>.past b.lines).eof = false := ((Stream.good_iff s).1 hg).1
    rw [if_neg (by simp [hgf]), Stream.past_past]
    rfl
  · intro j o ho
    simpa using e4 j o ho
  · intro j hj
    exact e5 j (Or.inr (by omega))

/-- **C57**, partial: reading an epoch.  The stream standing before a well-formed epoch (header that
lists as many satellites as data lines follow; lines that fit the buffer; fields as in C39), the
call returns 0, the date, the number of satellites of requested systems, and these satellites with
their values in the first slots of the vector, in file order; other systems are skipped; the other
slots are not touched; the stream stands behind the epoch.  Missing: see C39 and C40 for the fields
the code gets wrong. -/
theorem C57_epoch_partial {mjdOf : Int → Int → Int → Res Int} {mmap : ReadMap} {b : ObsEpochBlock} {h : EpochHead} {out : List SatVals}
    (raw0 : RawRnxObs) {ov : List SatVals} {buf : List Char} (hb : BlockSays mjdOf mmap buf.length b h out) (hn : 1 ≤ buf.length)
    {s : Stream} {t : List Char} (hg : s.good = true) (hr : s.rest = b.text ++ t) (hov : out.length ≤ ov.length) (hroom : Room mmap ov) :
    ∃ ov' buf', readNextEpoch mjdOf raw0 mmap ov buf s 0 = .ok ⟨0, out.length, some h, ov', buf', s.past (b.head.line :: b.lines), 0⟩ ∧
      Holds ov ov' out ∧ buf'.length = buf.length :=
  C57_exact raw0 hb.sees hn hg hr hov hroom

theorem Holds.room {mmap : ReadMap} {ov ov' out : List SatVals} (h : Holds ov ov' out) (hr : Room mmap ov)
    (ho : ∀ o ∈ out, ∃ k, (o.1.1, k) ∈ mmap ∧ o.2.length = k.length) : Room mmap ov' := by
  intro e he m hm
  obtain ⟨j, hj⟩ := List.mem_iff_getElem?.1 he
  by_cases hlt : j < out.length
  · obtain ⟨x, hx1, hx2⟩ := h.slots j out[j] (List.getElem?_eq_getElem hlt)
    rw [hx2] at hj
    injection hj with hj
    subst hj
    have := hr x (List.mem_of_getElem? hx1) m hm
    obtain ⟨k, hk1, hk2⟩ := ho out[j] (List.getElem_mem hlt)
    simp only [List.length_append, List.length_drop]
    omega
  · rw [h.others j (by omega)] at hj
    exact hr e (List.mem_of_getElem? hj) m hm

theorem EpochGot.width {mmap : ReadMap} {ls : List (List Char)} {out : List SatVals} (h : EpochGot mmap ls out) :
    ∀ o ∈ out, ∃ k, (o.1.1, k) ∈ mmap ∧ o.2.length = k.length := by
  induction h with
  | nil => simp
  | skip _ _ _ _ ih => exact ih
  | sat sys prn sysobs xss h1 h2 h3 h4 h5 h6 h7 _ ih =>
    intro o ho
    rcases List.mem_cons.1 ho with rfl | ho
    · exact ⟨sysobs, lookup_mem h2, by simp [h7.length_eq]⟩
    · exact ih o ho

theorem EpochGives.width {mmap : ReadMap} {ls : List (List Char)} {out : List SatVals} (h : EpochGives mmap ls out) :
    ∀ o ∈ out, ∃ k, (o.1.1, k) ∈ mmap ∧ o.2.length = k.length := h.got.width

/-- A client that calls `read_next_epoch` `n` times with the same vector: what each call returned
(status, number of satellites, header, vector), and the stream at the end. -/
def obsReadEpochs (mjdOf : Int → Int → Int → Res Int) (raw0 : RawRnxObs) (mmap : ReadMap) : (n : Nat) → List SatVals → List Char → Stream → Int →
    Res (List (Int × Nat × Option EpochHead × List SatVals) × Stream)
  | 0, _, _, s, _ => .ok ([], s)
  | n + 1, ov, buf, s, errno => do
      let o ← readNextEpoch mjdOf raw0 mmap ov buf s errno
      let r ← obsReadEpochs mjdOf raw0 mmap n o.satobs o.buf o.strm o.errno
      pure ((o.status, o.sats, o.head, o.satobs) :: r.1, r.2)

/-- **C58** (end of file): the call returns -1, no satellites, nothing is touched and the stream is as
good as before (so that it can be repositioned). -/
theorem C58_eof (mjdOf : Int → Int → Int → Res Int) (raw0 : RawRnxObs) (mmap : ReadMap) (ov : List SatVals) (buf : List Char) (s : Stream) (errno : Int)
    (hg : s.good = true) (hr : s.rest = []) : readNextEpoch mjdOf raw0 mmap ov buf s errno = .ok ⟨-1, 0, none, ov, buf, s, errno⟩ := by
  unfold readNextEpoch
  rw [Stream.peek_nil hg hr]
  simp only [epochEnd, if_true]
  rw [clear_of_good hg]

theorem obsReadEpochs_eof (mjdOf : Int → Int → Int → Res Int) (raw0 : RawRnxObs) (mmap : ReadMap) (s : Stream) (errno : Int)
    (hg : s.good = true) (hr : s.rest = []) : ∀ (n : Nat) (ov : List SatVals) (buf : List Char),
    obsReadEpochs mjdOf raw0 mmap n ov buf s errno = .ok (List.replicate n (-1, 0, none, ov), s) := by
  intro n
  induction n with
  | zero => intro ov buf; rfl
  | succ n ih =>
    intro ov buf
    unfold obsReadEpochs
    rw [C58_eof mjdOf raw0 mmap ov buf s errno hg hr, Res.bind_ok]
    simp only
    rw [ih ov buf, Res.bind_ok]
    rfl

/-- What the calls must return: one entry per epoch, in order, each with status 0, the epoch's header and
satellites. -/
inductive EpochResults : List SatVals → List (EpochHead × List SatVals) → List (Int × Nat × Option EpochHead × List SatVals) → List SatVals → Prop
  | nil (ov : List SatVals) : EpochResults ov [] [] ov
  | cons {ov ov' ov'' : List SatVals} {h : EpochHead} {out : List SatVals} {rest : List (EpochHead × List SatVals)}
      {rs : List (Int × Nat × Option EpochHead × List SatVals)} :
      Holds ov ov' out → EpochResults ov' rest rs ov'' → EpochResults ov ((h, out) :: rest) ((0, out.length, some h, ov') :: rs) ov''

/-- **C58** (exact behaviour): a client that keeps calling `read_next_epoch` on a file of well-formed
epochs gets every epoch (with what the code makes of the fields), exactly once and in order, and
then -1 for ever. -/
theorem C58_exact {mjdOf : Int → Int → Int → Res Int} {mmap : ReadMap} (raw0 : RawRnxObs) (k : Nat) :
    ∀ (bs : List ObsEpochBlock) (exp : List (EpochHead × List SatVals)) (ov : List SatVals) (buf : List Char) (s : Stream),
    List.Forall₂ (fun b x => BlockSees mjdOf mmap buf.length b x.1 x.2) bs exp → 1 ≤ buf.length → s.good = true →
    s.rest = (bs.map ObsEpochBlock.text).flatten → (∀ x ∈ exp, x.2.length ≤ ov.length) → Room mmap ov →
    ∃ rs ov' s', obsReadEpochs mjdOf raw0 mmap (bs.length + k) ov buf s 0 = .ok (rs ++ List.replicate k (-1, 0, none, ov'), s') ∧
      EpochResults ov exp rs ov' ∧ s'.good = true ∧ s'.rest = [] ∧ s'.content = s.content := by
  intro bs
  induction bs with
  | nil =>
    intro exp ov buf s hx _ hg hr _ _
    cases hx
    refine ⟨[], ov, s, ?_, .nil ov, hg, by simpa using hr, rfl⟩
    simpa using obsReadEpochs_eof mjdOf raw0 mmap s 0 hg (by simpa using hr) k ov buf
  | cons b bs ih =>
    intro exp ov buf s hx hn hg hr hlen hroom
    obtain ⟨⟨h, out⟩, exp, hb, hx', rfl⟩ := List.forall₂_cons_left_iff.1 hx
    simp only at hb
    have hr' : s.rest = b.text ++ (bs.map ObsEpochBlock.text).flatten := by simpa using hr
    obtain ⟨ov1, buf1, e1, e2, e3⟩ := C57_exact raw0 hb hn hg hr' (hlen (h, out) (by simp)) hroom
    obtain ⟨rs, ov', s', g1, g2, g3, g4, g5⟩ := ih exp ov1 buf1 (s.past (b.head.line :: b.lines)) (by rw [e3]; exact hx') (by omega) hg
      (Stream.past_rest (by rw [hr']; rfl)) (fun x hxm => by rw [e2.length]; exact hlen x (by simp [hxm])) (e2.room hroom hb.gives.width)
    refine ⟨(0, out.length, some h, ov1) :: rs, ov', s', ?_, .cons e2 g2, g3, g4, g5⟩
    rw [List.length_cons, show bs.length + 1 + k = (bs.length + k) + 1 by omega]
    unfold obsReadEpochs
    rw [e1, Res.bind_ok]
    simp only
    rw [g1, Res.bind_ok]
    rfl

/-- **C58**, partial (as C57): a client that keeps calling `read_next_epoch` on a file of well-formed
epochs gets every epoch, exactly once and in order, and then -1 for ever. -/
theorem C58_sequence_partial {mjdOf : Int → Int → Int → Res Int} {mmap : ReadMap} (raw0 : RawRnxObs) (k : Nat) :
    ∀ (bs : List ObsEpochBlock) (exp : List (EpochHead × List SatVals)) (ov : List SatVals) (buf : List Char) (s : Stream),
    List.Forall₂ (fun b x => BlockSays mjdOf mmap buf.length b x.1 x.2) bs exp → 1 ≤ buf.length → s.good = true →
    s.rest = (bs.map ObsEpochBlock.text).flatten → (∀ x ∈ exp, x.2.length ≤ ov.length) → Room mmap ov →
    ∃ rs ov' s', obsReadEpochs mjdOf raw0 mmap (bs.length + k) ov buf s 0 = .ok (rs ++ List.replicate k (-1, 0, none, ov'), s') ∧
      EpochResults ov exp rs ov' ∧ s'.good = true ∧ s'.rest = [] ∧ s'.content = s.content := by
  intro bs exp ov buf s hx
  exact C58_exact raw0 k bs exp ov buf s (List.Forall₂.imp (fun _ _ h => h.sees) hx)

/-- **C57** disagreement: a file all of whose systems have at most one observation type has a line
buffer of at most 20 bytes, and no epoch can be read: every header line (35 chars or more) gives
status 21, and the stream is left in a failed state. -/
theorem C57_small_buffer {mjdOf : Int → Int → Int → Res Int} (raw0 : RawRnxObs) (mmap : ReadMap) (obst : ObsTypes) (hm : maxObs obst ≤ 1)
    {ov : List SatVals} {buf : List Char} (hbuf : buf.length = obsBufSize obst) {l : List Char} (hl1 : '\n' ∉ l) (hl2 : NUL ∉ l) (hlen : 35 ≤ l.length)
    {s : Stream} {t : List Char} (hg : s.good = true) (hr : s.rest = l ++ '\n' :: t) (errno : Int) :
    ∃ buf' s', readNextEpoch mjdOf raw0 mmap ov buf s errno = .ok ⟨21, 0, none, ov, buf', s', errno⟩ ∧ s'.fail = true := by
  have hb20 : buf.length ≤ 20 := by rw [hbuf]; unfold obsBufSize; omega
  have hgl := Stream.getline_long (n := buf.length) hg hr hl1 (by omega)
  have hpk : ∃ c, s.peek = (some c, s) := by
    cases l with
    | nil => simp at hlen
    | cons c cs => exact ⟨c, Stream.peek_cons hg (by rw [hr]; rfl)⟩
  obtain ⟨c, hpk⟩ := hpk
  refine ⟨fillLine buf (l.take (buf.length - 1)), { s with pos := s.pos + (buf.length - 1), fail := true }, ?_, rfl⟩
  unfold readNextEpoch
  rw [hpk]
  simp only
  rw [hgl]
  simp only
  unfold fillLine
  rw [C43_not_a_header (IsCStr.take hl2 _) (Or.inr (by simp; omega))]
  rfl

end Ggnss
