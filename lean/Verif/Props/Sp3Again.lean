import Verif.Spec.Sp3Again

/-!
C96: an SP3 file can be read again and again.
-/
namespace Ggnss

theorem sp3NextEpoch_notGood (L : Sp3Lib) (junk : List Char) (fuel : Nat) (t : MicroTime) (vec : List Sp3Rec) (sr : Int) (s : Stream) (errno : Int)
    (h : s.good = false) : sp3NextEpoch L junk fuel t vec sr s errno = .ok ⟨1, t, vec, sr, s, errno⟩ := by
  unfold sp3NextEpoch
  rw [h]
  rfl

/-- Any epoch but the last. -/
theorem sp3_epoch_mid {L : Sp3Lib} {b : EpochBlock} {n fuel : Nat} (hb : b.WF n fuel) (hgd : GoodDate L b) {junk : List Char} (hj : junk.length = 128)
    (t : MicroTime) {vec : List Sp3Rec} (hn : vec.length = n) (sr : Int) {s : Stream} {errno : Int} (he : errno ≠ ERANGE) (hg : s.good = true)
    {T : List Char} (hr : s.rest = b.text ++ '*' :: T) :
    ∃ o, sp3NextEpoch L junk fuel t vec sr s errno = .ok o ∧ DeliversDate L b o ∧ o.status = 0 ∧ o.vec.length = n ∧ o.errno = errno ∧
      o.strm.good = true ∧ o.strm.content = s.content ∧ o.strm.rest = '*' :: T := by
  subst hn
  have hr' : s.rest = b.header.line ++ '\n' :: (linesText b.lines ++ '*' :: T) := by rw [hr]; simp [EpochBlock.text]
  obtain ⟨c0, recs, h1, h2, h3⟩ := C31_epoch_before_header hb.header hb.body junk hj fuel hb.short ⟨0, 0, 0, 0, 0, 0⟩ vec hb.size sr s T he hg hr'
  obtain ⟨c, d, hc, hd, hcall⟩ := sp3_one (junk := junk) (fuel := fuel) (vec := vec) (sr := sr)
    (o := ⟨0, c0, recs ++ vec.drop b.records.length, b.records.length, s.adv (b.header.line.length + 1 + (linesText b.lines).length), errno⟩)
    hgd hb.header he hg hr' (fun t1 => by
      have hgl := Stream.getline_line (n := MAX_RECORD_CHARS) hg hr' hb.header.ok.1 (by simpa [MAX_RECORD_CHARS] using hb.header.ok.2.2)
      obtain ⟨c, q1, q2⟩ := sp3Header_wf hb.header (junk.drop (b.header.line.length + 1)) he
      have q1' : sp3Header (fillLine junk b.header.line) errno = .ok (.ok c, errno) := q1
      refine ⟨c0, ?_, h2⟩
      rw [← h1]
      unfold getNextEpoch
      simp only [hg, Bool.not_true, Bool.false_eq_true, if_false, hgl, q1', Res.bind_ok]) t
  refine ⟨_, hcall, ⟨⟨c, hc, hd⟩, rfl, recs, List.prefix_append _ _, h3⟩, rfl, ?_, rfl, hg, rfl, ?_⟩
  · have := h3.length_eq; have := hb.size; simp; omega
  · have := Stream.adv_rest_append (s := s) (a := b.header.line ++ '\n' :: linesText b.lines) (b := '*' :: T) (by rw [hr']; simp)
    show (s.adv (b.header.line.length + 1 + (linesText b.lines).length)).rest = _
    rw [← this]; congr 2; simp; omega

/-- The last epoch. -/
theorem sp3_epoch_last {L : Sp3Lib} {b : EpochBlock} {n fuel : Nat} (hb : b.WF n fuel) (hgd : GoodDate L b) {junk : List Char} (hj : junk.length = 128)
    (t : MicroTime) {vec : List Sp3Rec} (hn : vec.length = n) (sr : Int) {s : Stream} {errno : Int} (he : errno ≠ ERANGE) (hg : s.good = true)
    {e tail : List Char} (hok : LineOK e) (heof : e.take 3 = c!"EOF") (htail : tail = [] ∨ ∃ r, tail = '\n' :: r) (hr : s.rest = b.text ++ (e ++ tail)) :
    ∃ o, sp3NextEpoch L junk fuel t vec sr s errno = .ok o ∧ DeliversDate L b o ∧ o.status = -1 ∧ o.vec.length = n ∧ o.errno = errno ∧
      o.strm.fail = false ∧ (o.strm.eof = true ↔ tail = []) ∧ o.strm.content = s.content ∧ o.strm.rest = tail.drop 1 := by
  subst hn
  have hr' : s.rest = b.header.line ++ '\n' :: (linesText b.lines ++ (e ++ tail)) := by rw [hr]; simp [EpochBlock.text]
  obtain ⟨c0, recs, s', h1, h2, h3, h4, h5, h6, h7⟩ := C31_epoch_before_eof hb.header hb.body junk hj fuel hb.short ⟨0, 0, 0, 0, 0, 0⟩ vec hb.size sr s
    e tail he hg hok heof htail hr'
  obtain ⟨c, d, hc, hd, hcall⟩ := sp3_one (junk := junk) (fuel := fuel) (vec := vec) (sr := sr)
    (o := ⟨-1, c0, recs ++ vec.drop b.records.length, b.records.length, s', errno⟩)
    hgd hb.header he hg hr' (fun t1 => by
      have hgl := Stream.getline_line (n := MAX_RECORD_CHARS) hg hr' hb.header.ok.1 (by simpa [MAX_RECORD_CHARS] using hb.header.ok.2.2)
      obtain ⟨c, q1, q2⟩ := sp3Header_wf hb.header (junk.drop (b.header.line.length + 1)) he
      have q1' : sp3Header (fillLine junk b.header.line) errno = .ok (.ok c, errno) := q1
      refine ⟨c0, ?_, h2⟩
      rw [← h1]
      unfold getNextEpoch
      simp only [hg, Bool.not_true, Bool.false_eq_true, if_false, hgl, q1', Res.bind_ok]) t
  refine ⟨_, hcall, ⟨⟨c, hc, hd⟩, rfl, recs, List.prefix_append _ _, h3⟩, rfl, ?_, rfl, h6, h7, h5, h4⟩
  have := h3.length_eq; have := hb.size; simp; omega

/-- Where the stream of a caller standing before epoch `i` is. -/
def StandsAt (bs : List EpochBlock) (e tail content : List Char) (i : Nat) (s : Stream) : Prop :=
  s.content = content ∧ s.fail = false ∧
    ((i < bs.length ∧ s.eof = false ∧ s.rest = ((bs.drop i).map EpochBlock.text).flatten ++ (e ++ tail)) ∨
      (bs.length ≤ i ∧ (s.eof = true ↔ tail = []) ∧ s.rest = tail.drop 1))

theorem sp3Client_epoch {L : Sp3Lib} {fuel n : Nat} {e tail content : List Char} (hok : LineOK e) (heof : e.take 3 = c!"EOF")
    (htail : tail = [] ∨ ∃ r, tail = '\n' :: r) {bs : List EpochBlock} (hbs : ∀ b ∈ bs, b.WF n fuel ∧ GoodDate L b) {junk : List Char}
    (hj : junk.length = 128) {i : Nat} (hi : i < bs.length) (t : MicroTime) {vec : List Sp3Rec} (hn : vec.length = n) (sr : Int) {s : Stream} {errno : Int}
    (he : errno ≠ ERANGE) (hs : StandsAt bs e tail content i s) :
    ∃ b o, bs[i]? = some b ∧ sp3NextEpoch L junk fuel t vec sr s errno = .ok o ∧ DeliversDate L b o ∧
      o.status = (if i + 1 = bs.length then -1 else 0) ∧ o.vec.length = n ∧ o.errno = errno ∧ StandsAt bs e tail content (i + 1) o.strm := by
  obtain ⟨hc, hf, ⟨_, hE, hr⟩ | ⟨h, _⟩⟩ := hs
  · have hg : s.good = true := (Stream.good_iff s).2 ⟨hE, hf⟩
    have hd : bs.drop i = bs[i] :: bs.drop (i + 1) := List.drop_eq_getElem_cons hi
    obtain ⟨hb, hgd⟩ := hbs bs[i] (List.getElem_mem hi)
    rw [hd, List.map_cons, List.flatten_cons, List.append_assoc] at hr
    by_cases hl : i + 1 = bs.length
    · rw [show bs.drop (i + 1) = [] from List.drop_eq_nil_of_le (by omega)] at hr
      obtain ⟨o, o1, o2, o3, o4, o5, o6, o7, o8, o9⟩ := sp3_epoch_last hb hgd hj t hn sr he hg hok heof htail hr
      exact ⟨bs[i], o, by simp [hi], o1, o2, by rw [if_pos hl, o3], o4, o5, by rw [o8, hc], o6, Or.inr ⟨by omega, o7, o9⟩⟩
    · have hd2 : bs.drop (i + 1) = bs[i + 1]'(by omega) :: bs.drop (i + 2) := List.drop_eq_getElem_cons (by omega)
      obtain ⟨x, hx⟩ := epoch_star (hbs (bs[i + 1]'(by omega)) (List.getElem_mem _)).1.header
      obtain ⟨T, hT⟩ : ∃ T, ((bs.drop (i + 1)).map EpochBlock.text).flatten ++ (e ++ tail) = '*' :: T := by
        rw [hd2]
        exact ⟨_, by rw [List.map_cons, List.flatten_cons, EpochBlock.text, hx]; rfl⟩
      rw [hT] at hr
      obtain ⟨o, o1, o2, o3, o4, o5, o6, o7, o8⟩ := sp3_epoch_mid hb hgd hj t hn sr he hg hr
      have := (Stream.good_iff _).1 o6
      exact ⟨bs[i], o, by simp [hi], o1, o2, by rw [if_neg hl, o3], o4, o5, by rw [o7, hc], this.2,
        Or.inl ⟨by omega, this.1, by rw [o8, hT]⟩⟩
  · omega

/-- A caller standing before epoch `i`, of a file whose `EOF` line is not terminated or that never reads past the end. -/
theorem sp3Client_answers {L : Sp3Lib} {fuel n : Nat} {e tail content : List Char} (hok : LineOK e) (heof : e.take 3 = c!"EOF")
    (htail : tail = [] ∨ ∃ r, tail = '\n' :: r) {bs : List EpochBlock} (hbs : ∀ b ∈ bs, b.WF n fuel ∧ GoodDate L b) {junk : Nat → List Char}
    (hj : ∀ k, (junk k).length = 128) {eoh : Option Nat}
    (hrew : ∀ s : Stream, s.content = content → s.fail = false → StandsAt bs e tail content 0 (sp3Rewind eoh s none)) {errno : Int} (he : errno ≠ ERANGE) :
    ∀ (pre post : List Sp3Op) (i k : Nat) (t : MicroTime) (vec : List Sp3Rec) (sr : Int) (s : Stream), vec.length = n → StandsAt bs e tail content i s →
      (tail = [] ∨ NeverPast bs.length i pre) →
      ∃ outs t' vec' sr' s' i', vec'.length = n ∧ StandsAt bs e tail content i' s' ∧ (NeverPast bs.length i pre → i' = cursorAfter i pre) ∧
        Answers L bs i pre outs ∧
        sp3Client L eoh junk fuel (pre ++ post) k t vec sr s errno =
          (sp3Client L eoh junk fuel post (k + pre.length) t' vec' sr' s' errno >>= fun r => .ok (outs ++ r)) := by
  intro pre post
  induction pre with
  | nil =>
    intro i k t vec sr s hn hs _
    refine ⟨[], t, vec, sr, s, i, hn, hs, fun _ => rfl, .done i, ?_⟩
    simp only [List.nil_append, List.length_nil, Nat.add_zero]
    cases sp3Client L eoh junk fuel post k t vec sr s errno <;> rfl
  | cons op pre ih =>
    intro i k t vec sr s hn hs hp
    cases op with
    | rewind =>
      obtain ⟨outs, t', vec', sr', s', i', h1, h2, h3, h4, h5⟩ := ih 0 (k + 1) t vec sr _ hn (hrew s hs.1 hs.2.1) hp
      refine ⟨outs, t', vec', sr', s', i', h1, h2, h3, .rewind h4, ?_⟩
      rw [List.cons_append, sp3Client, h5]
      simp only [List.length_cons]
      rw [show k + 1 + pre.length = k + (pre.length + 1) by omega]
    | next =>
      by_cases hi : i < bs.length
      · obtain ⟨b, o, o1, o2, o3, o4, o5, o6, o7⟩ := sp3Client_epoch hok heof htail hbs (hj k) hi t hn sr he hs
        obtain ⟨outs, t', vec', sr', s', i', h1, h2, h3, h4, h5⟩ := ih (i + 1) (k + 1) o.t o.vec o.satsRead o.strm o5 o7 (hp.imp id (·.2))
        refine ⟨o :: outs, t', vec', sr', s', i', h1, h2, fun h => h3 h.2, .epoch o1 o3 o4 h4, ?_⟩
        rw [List.cons_append, sp3Client, o2, Res.bind_ok, o6, h5]
        simp only [List.length_cons]
        rw [show k + 1 + pre.length = k + (pre.length + 1) by omega]
        cases sp3Client L eoh junk fuel post (k + (pre.length + 1)) t' vec' sr' s' errno <;> rfl
      · rcases hp with hp | hp
        · obtain ⟨hc, hf, ⟨h, _⟩ | ⟨_, hE, _⟩⟩ := id hs
          · exact absurd h hi
          · have hg : s.good = false := by
              have := hE.2 hp
              simp [Stream.good, this]
            obtain ⟨outs, t', vec', sr', s', i', h1, h2, h3, h4, h5⟩ := ih i (k + 1) t vec sr s hn hs (Or.inl hp)
            refine ⟨⟨1, t, vec, sr, s, errno⟩ :: outs, t', vec', sr', s', i', h1, h2, fun h => absurd h.1 hi,
              .past (Nat.le_of_not_lt hi) rfl h4, ?_⟩
            rw [List.cons_append, sp3Client, sp3NextEpoch_notGood _ _ _ _ _ _ _ _ hg, Res.bind_ok]
            simp only
            rw [h5]
            simp only [List.length_cons]
            rw [show k + 1 + pre.length = k + (pre.length + 1) by omega]
            cases sp3Client L eoh junk fuel post (k + (pre.length + 1)) t' vec' sr' s' errno <;> rfl
        · exact absurd hp.1 hi

/-- After a failed read every call returns 1, however often the file is rewound. -/
theorem sp3Client_dead (L : Sp3Lib) (eoh : Option Nat) (junk : Nat → List Char) (fuel : Nat) (errno : Int) (t : MicroTime) (vec : List Sp3Rec) (sr : Int) :
    ∀ (ops : List Sp3Op) (k : Nat) (s : Stream), s.fail = true →
      ∃ outs, sp3Client L eoh junk fuel ops k t vec sr s errno = .ok outs ∧ outs.length = ops.count .next ∧
        ∀ o ∈ outs, o.status = 1 ∧ o.t = t ∧ o.vec = vec ∧ o.satsRead = sr := by
  intro ops
  induction ops with
  | nil => intro k s _; exact ⟨[], rfl, rfl, by simp⟩
  | cons op ops ih =>
    intro k s hf
    cases op with
    | rewind =>
      obtain ⟨outs, h1, h2, h3⟩ := ih (k + 1) (sp3Rewind eoh s none) (by
        unfold sp3Rewind
        cases eoh with
        | none => rfl
        | some p => simp [Stream.seekg, hf])
      exact ⟨outs, by rw [sp3Client, h1], by rw [h2]; rfl, h3⟩
    | next =>
      obtain ⟨outs, h1, h2, h3⟩ := ih (k + 1) s hf
      have hg : s.good = false := by simp [Stream.good, hf]
      refine ⟨⟨1, t, vec, sr, s, errno⟩ :: outs, ?_, ?_, ?_⟩
      · rw [sp3Client, sp3NextEpoch_notGood _ _ _ _ _ _ _ _ hg, Res.bind_ok]
        simp only
        rw [h1]; rfl
      · simp [h2]
      · intro o ho
        rcases List.mem_cons.1 ho with rfl | ho
        · exact ⟨rfl, rfl, rfl, rfl⟩
        · exact h3 o ho

/-- The text of an SP3 file: header lines, epochs, the line `e` and what follows it. -/
def sp3Text (h : Sp3Header) (bs : List EpochBlock) (e tail : List Char) : List Char :=
  linesText h.lines ++ ((bs.map EpochBlock.text).flatten ++ (e ++ tail))

theorem sp3Open_again {L : Sp3Lib} (junk0 : List Char) {h : Sp3Header} (hw : h.WF) {d : MicroTime}
    (hd : ∀ t, h.StartIs t → L.date t = .ok d) (hwk : L.sameWeek d h.week h.sow.value = true)
    (hmj : L.sameMjd d h.mjd h.dayFraction.value = true) {fuel : Nat} {e tail : List Char}
    {bs : List EpochBlock} (hne : bs ≠ []) (hbs : ∀ b ∈ bs, b.WF h.satellites fuel ∧ GoodDate L b) :
    ∃ f, sp3Open L false junk0 (sp3Text h bs e tail) = .ok f ∧ sp3Allocate f.numSats = .ok (List.replicate h.satellites {}) ∧
      StandsAt bs e tail (sp3Text h bs e tail) 0 f.strm ∧
      ∀ s : Stream, s.content = sp3Text h bs e tail → s.fail = false → StandsAt bs e tail (sp3Text h bs e tail) 0 (sp3Rewind f.endOfHead s none) := by
  obtain ⟨b, bs', rfl⟩ : ∃ b bs', bs = b :: bs' := by
    cases bs with
    | nil => exact absurd rfl hne
    | cons b bs => exact ⟨b, bs, rfl⟩
  obtain ⟨x, hx⟩ := epoch_star (hbs b (by simp)).1.header
  have hct : ((b :: bs').map EpochBlock.text).flatten ++ (e ++ tail) =
      '*' :: (x ++ '\n' :: linesText b.lines ++ ((bs'.map EpochBlock.text).flatten ++ (e ++ tail))) := by
    simp [EpochBlock.text, hx]
  obtain ⟨f, h1, h2, _, h4, hg, hr, h7⟩ := C61_open_partial junk0 hw hd hwk hmj (c := '*') (by decide)
    (x ++ '\n' :: linesText b.lines ++ ((bs'.map EpochBlock.text).flatten ++ (e ++ tail)))
  have hal : sp3Allocate f.numSats = .ok (List.replicate h.satellites {}) := by
    unfold sp3Allocate
    rw [h2.satellites, if_neg (by omega)]
    simp
  have hgd := (Stream.good_iff _).1 hg
  have hst : StandsAt (b :: bs') e tail (sp3Text h (b :: bs') e tail) 0 f.strm :=
    ⟨by rw [h4, sp3Text, hct], hgd.2, Or.inl ⟨by simp, hgd.1, by rw [hr, List.drop_zero, hct]⟩⟩
  refine ⟨f, by rw [sp3Text, hct]; exact h1, hal, hst, ?_⟩
  intro s hs hf
  rw [h7 s (by rw [hs, h4, sp3Text, hct]) hf]
  exact hst

/-- **C96** (`EOF` line without newline).  A file of a well formed header and epochs whose last line `EOF` ends the file: whatever calls a
caller makes, in whatever order, reading and rewinding, past the end or not, it gets the answers of the specification. -/
theorem C96_unterminated {L : Sp3Lib} (junk0 : List Char) {h : Sp3Header} (hw : h.WF) {d : MicroTime}
    (hd : ∀ t, h.StartIs t → L.date t = .ok d) (hwk : L.sameWeek d h.week h.sow.value = true)
    (hmj : L.sameMjd d h.mjd h.dayFraction.value = true) (junk : Nat → List Char) (hj : ∀ k, (junk k).length = 128) {fuel : Nat}
    {e : List Char} (hok : LineOK e) (heof : e.take 3 = c!"EOF")
    {bs : List EpochBlock} (hne : bs ≠ []) (hbs : ∀ b ∈ bs, b.WF h.satellites fuel ∧ GoodDate L b) (ops : List Sp3Op) (t0 : MicroTime) (sr : Int) :
    ∃ f vec outs, sp3Open L false junk0 (sp3Text h bs e []) = .ok f ∧ sp3Allocate f.numSats = .ok vec ∧
      sp3Client L f.endOfHead junk fuel ops 0 t0 vec sr f.strm 0 = .ok outs ∧ Answers L bs 0 ops outs := by
  obtain ⟨f, h1, h2, h3, h4⟩ := sp3Open_again (e := e) (tail := []) junk0 hw hd hwk hmj hne hbs
  obtain ⟨outs, t', vec', sr', s', i', g1, g2, g3, g4, g5⟩ := sp3Client_answers hok heof (Or.inl rfl) hbs hj h4 (errno := 0) (by decide)
    ops [] 0 0 t0 (List.replicate h.satellites {}) sr f.strm (by simp) h3 (Or.inl rfl)
  refine ⟨f, _, outs, h1, h2, ?_, g4⟩
  rw [List.append_nil] at g5
  rw [g5, sp3Client, Res.bind_ok, List.append_nil]

/-- **C96** (proved part, any file).  The line `EOF` ended by a newline, anything behind it: every history of calls that never asks
for an epoch behind the last one gets the answers of the specification.  Missing: the histories of `C96_one_call_too_many`. -/
theorem C96_histories_partial {L : Sp3Lib} (junk0 : List Char) {h : Sp3Header} (hw : h.WF) {d : MicroTime}
    (hd : ∀ t, h.StartIs t → L.date t = .ok d) (hwk : L.sameWeek d h.week h.sow.value = true)
    (hmj : L.sameMjd d h.mjd h.dayFraction.value = true) (junk : Nat → List Char) (hj : ∀ k, (junk k).length = 128) {fuel : Nat}
    {e : List Char} (hok : LineOK e) (heof : e.take 3 = c!"EOF") (tail : List Char)
    {bs : List EpochBlock} (hne : bs ≠ []) (hbs : ∀ b ∈ bs, b.WF h.satellites fuel ∧ GoodDate L b) {ops : List Sp3Op} (hops : NeverPast bs.length 0 ops)
    (t0 : MicroTime) (sr : Int) :
    ∃ f vec outs, sp3Open L false junk0 (sp3Text h bs e ('\n' :: tail)) = .ok f ∧ sp3Allocate f.numSats = .ok vec ∧
      sp3Client L f.endOfHead junk fuel ops 0 t0 vec sr f.strm 0 = .ok outs ∧ Answers L bs 0 ops outs := by
  obtain ⟨f, h1, h2, h3, h4⟩ := sp3Open_again (e := e) (tail := '\n' :: tail) junk0 hw hd hwk hmj hne hbs
  obtain ⟨outs, t', vec', sr', s', i', g1, g2, g3, g4, g5⟩ := sp3Client_answers hok heof (Or.inr ⟨tail, rfl⟩) hbs hj h4 (errno := 0) (by decide)
    ops [] 0 0 t0 (List.replicate h.satellites {}) sr f.strm (by simp) h3 (Or.inr hops)
  refine ⟨f, _, outs, h1, h2, ?_, g4⟩
  rw [List.append_nil] at g5
  rw [g5, sp3Client, Res.bind_ok, List.append_nil]

/-- **C96 is false.**  The usual file, ended by the line `EOF` and a newline.  A caller that, having read the last epoch, calls
`get_next_epoch` once more gets status 2 instead of 1, and from then on every call returns 1 and delivers nothing, however often the file
is rewound. -/
theorem C96_one_call_too_many {L : Sp3Lib} (junk0 : List Char) {h : Sp3Header} (hw : h.WF) {d : MicroTime}
    (hd : ∀ t, h.StartIs t → L.date t = .ok d) (hwk : L.sameWeek d h.week h.sow.value = true)
    (hmj : L.sameMjd d h.mjd h.dayFraction.value = true) (junk : Nat → List Char) (hj : ∀ k, (junk k).length = 128) {fuel : Nat}
    {e : List Char} (hok : LineOK e) (heof : e.take 3 = c!"EOF")
    {bs : List EpochBlock} (hne : bs ≠ []) (hbs : ∀ b ∈ bs, b.WF h.satellites fuel ∧ GoodDate L b) {pre : List Sp3Op} (hpre : NeverPast bs.length 0 pre)
    (hend : cursorAfter 0 pre = bs.length) (post : List Sp3Op) (t0 : MicroTime) (sr : Int) :
    ∃ f vec outs o dead, sp3Open L false junk0 (sp3Text h bs e ['\n']) = .ok f ∧ sp3Allocate f.numSats = .ok vec ∧
      sp3Client L f.endOfHead junk fuel (pre ++ .next :: post) 0 t0 vec sr f.strm 0 = .ok (outs ++ o :: dead) ∧ Answers L bs 0 pre outs ∧
      o.status = 2 ∧ dead.length = post.count .next ∧ ∀ x ∈ dead, x.status = 1 ∧ x.t = o.t ∧ x.vec = o.vec ∧ x.satsRead = o.satsRead := by
  obtain ⟨f, h1, h2, h3, h4⟩ := sp3Open_again (e := e) (tail := ['\n']) junk0 hw hd hwk hmj hne hbs
  obtain ⟨outs, t', vec', sr', s', i', g1, g2, g3, g4, g5⟩ := sp3Client_answers hok heof (Or.inr ⟨[], rfl⟩) hbs hj h4 (errno := 0) (by decide)
    pre (.next :: post) 0 0 t0 (List.replicate h.satellites {}) sr f.strm (by simp) h3 (Or.inr hpre)
  have hi := g3 hpre
  rw [hend] at hi
  subst hi
  obtain ⟨hc, hf, ⟨hlt, _⟩ | ⟨_, hE, hr⟩⟩ := g2
  · omega
  · have hE' : s'.eof = false := by
      cases hx : s'.eof with
      | false => rfl
      | true => have := hE.1 hx; simp at this
    have hg : s'.good = true := (Stream.good_iff s').2 ⟨hE', hf⟩
    have hgl := Stream.getline_last (n := MAX_RECORD_CHARS) (l := []) hg (by simpa using hr) (by simp) (by simp [MAX_RECORD_CHARS])
    have hcall : ∃ o : Sp3Dated, sp3NextEpoch L (junk (0 + pre.length)) fuel t' vec' sr' s' 0 = .ok o ∧ o.status = 2 ∧ o.strm.fail = true := by
      have hj1 := hj (0 + pre.length)
      generalize junk (0 + pre.length) = j at hj1
      unfold sp3NextEpoch
      rw [hg, hgl]
      obtain ⟨c1, hc1⟩ : ∃ c1, getAt (fillLine j []) 1 = .ok c1 := by
        have hl : 1 < (fillLine j []).length := fillLine_length _ _ 2 (by omega)
        exact ⟨(fillLine j [])[1], getAt_lt hl⟩
      have hh : sp3Header (fillLine j []) 0 = .ok (.error 2, 0) := by
        unfold sp3Header
        rw [show getAt (fillLine j []) 0 = .ok NUL from rfl, hc1]
        rfl
      simp only [Bool.not_true, Bool.false_eq_true, if_false, hh, Res.bind_ok]
      exact ⟨_, rfl, rfl, rfl⟩
    obtain ⟨o, o1, o2, o3⟩ := hcall
    obtain ⟨dead, d1, d2, d3⟩ := sp3Client_dead L f.endOfHead junk fuel o.errno o.t o.vec o.satsRead post (0 + pre.length + 1) o.strm o3
    refine ⟨f, _, outs, o, dead, h1, h2, ?_, g4, o2, d2, d3⟩
    rw [g5, sp3Client, o1, Res.bind_ok, d1]
    rfl

end Ggnss
