import Verif.Spec.Sp3Head
import Verif.Props.Sp3
import Verif.Props.Bern
import Verif.Props.NavHead
/-!
# C61: opening an SP3 file
-/
namespace Ggnss

/-! ## Pieces -/

theorem Begins.take {l : List Char} {a b : Char} (h : Begins l a b) : l.take 2 = [a, b] := by
  obtain ⟨h1, h2⟩ := h
  match l, h1, h2 with
  | x :: y :: r, h1, h2 => simp at h1 h2; simp [h1, h2]

theorem strncmp2_begins {l buf : List Char} {a b : Char} (hl : LineFits 84 l) (h : Begins l a b) (c d : Char)
    (hc : c ≠ NUL) (hd : d ≠ NUL) : strncmpEq 2 (fillLine buf l) (cArr [c, d]) = .ok (decide (a = c ∧ b = d)) := by
  have := strncmpEq_cstr 2 l [c, d] (buf.drop (l.length + 1)) [] hl.2.1 (by simp [IsCStr, Ne.symm hc, Ne.symm hd])
  have e : cArr [c, d] = [c, d] ++ [NUL] := rfl
  rw [e]
  unfold fillLine
  rw [this, h.take]
  simp

theorem starts_begins {l buf : List Char} {a b : Char} (h : Begins l a b) (c d : Char) :
    sp3Starts (fillLine buf l) c d = .ok (decide (a = c) && decide (b = d)) := by
  unfold sp3Starts
  rw [getAt_fill h.1, getAt_fill h.2]
  rfl

theorem sp3Expect_line {l buf t : List Char} {ls : List (List Char)} {s : Stream} {a b : Char} (hg : s.good = true)
    (hr : s.rest = linesText (l :: ls) ++ t) (hl : LineFits 84 l) (h : Begins l a b) :
    sp3Expect a b buf s = .ok (true, fillLine buf l, s.past [l]) := by
  unfold sp3Expect
  simp only [getline_past (n := SP3_HEADER_CHARS) hg hr hl.1 hl.2.2, starts_begins h, Res.bind_ok]
  simp

theorem peek_line {l t : List Char} {ls : List (List Char)} {s : Stream} {a b : Char} (hg : s.good = true)
    (hr : s.rest = linesText (l :: ls) ++ t) (h : Begins l a b) : s.peek = (some a, s) := by
  obtain ⟨x, r, rfl⟩ : ∃ x r, l = x :: r := by
    cases l with
    | nil => simp [Begins] at h
    | cons x r => exact ⟨x, r, rfl⟩
  have hx : x = a := by simpa [Begins] using h.1
  subst hx
  exact Stream.peek_cons (tail := r ++ '\n' :: (linesText ls ++ t)) hg (by rw [hr, linesText_cons]; simp)

theorem sp3Nonzero_nat {l buf : List Char} {off v : Nat} (h : NatAt l off v) (hv : v ≠ 0) :
    sp3Nonzero false (fillLine buf l) off = .ok (some (v : Int)) := by
  obtain ⟨r, hr⟩ := strtol_nat (tail := buf.drop (l.length + 1)) h
  have hb : v < 2147483648 := by obtain ⟨_, _, _, _, _, _, _, _, _, hh⟩ := h; exact hh
  have hr' : strtolA ((fillLine buf l).drop off) = .ok (some ((v : Int), r, false)) := hr
  unfold sp3Nonzero
  rw [hr', Res.bind_ok]
  simp only [strtolVal, strtolErr, toInt32_nat hb, Bool.or_false, Bool.false_eq_true, or_false]
  rw [if_neg (by exact_mod_cast hv)]
  rfl

theorem sp3Conv_nat {l buf : List Char} {off v : Nat} (h : NatAt l off v) :
    sp3Conv false (fillLine buf l) off = .ok (some (v : Int)) := by
  obtain ⟨r, hr⟩ := strtol_nat (tail := buf.drop (l.length + 1)) h
  have hb : v < 2147483648 := by obtain ⟨_, _, _, _, _, _, _, _, _, hh⟩ := h; exact hh
  have hr' : strtolA ((fillLine buf l).drop off) = .ok (some ((v : Int), r, false)) := hr
  unfold sp3Conv
  rw [hr', Res.bind_ok]
  simp [strtolVal, strtolErr, toInt32_nat hb]

theorem sp3Double_num {l buf : List Char} {off : Nat} {n : Numeral} (h : NumAt l off n) :
    sp3Double (fillLine buf l) off = .ok (n.value, false) := by
  obtain ⟨r, hr⟩ := strtodA_num (tail := buf.drop (l.length + 1)) h
  have hr' : strtodA ((fillLine buf l).drop off) = .ok (some (n.value, r, false)) := hr
  unfold sp3Double
  rw [hr', Res.bind_ok]
  rfl

theorem bytesAt_text {l buf t : List Char} {off n : Nat} (h : TextAt l off n t) :
    bytesAt (fillLine buf l) off n = .ok t := by
  unfold bytesAt
  rw [if_pos (by have := h.1; simp [fillLine]; omega), drop_take_fill h.1, h.2]

theorem castLong_small {q : Rat} (h0 : 0 ≤ q) (h1 : q < 100000000000) : castLong q = .ok (truncRat q) := by
  have hb := truncRat_bounds h0
  have hlt : (truncRat q : Rat) < (100000000000 : Int) := by
    refine lt_of_le_of_lt hb.1 ?_
    simpa using h1
  have hge : ((-1 : Int) : Rat) < truncRat q := by
    have := hb.2
    push_cast
    linarith
  have hlt' := Int.cast_lt.1 hlt
  have hge' := Int.cast_lt.1 hge
  unfold castLong LONG_MIN LONG_MAX
  rw [if_pos (by omega)]

/-! ## The lines -/

theorem Sp3Header.Dated.agency3 {h : Sp3Header} (hw : h.Dated) : TextAt h.first 56 3 (h.agency.take 3) := by
  obtain ⟨h1, h2⟩ := hw.agency
  refine ⟨by omega, ?_⟩
  rw [← h2, List.take_take]
  rfl

theorem sp3First_wf {L : Sp3Lib} {h : Sp3Header} (hw : h.Dated) (buf : List Char) {d : MicroTime}
    (hd : ∀ t, h.StartIs t → L.date t = .ok d) :
    sp3First L false (fillLine buf h.first) = .ok (.inr ⟨h.version, d, h.epochs, h.crdSys, h.orbType, h.agency.take 3⟩) := by
  have hb := truncRat_bounds (q := h.sec.value * 1000000) (by have := hw.sec.2.1; linarith)
  have hdd := hd ⟨h.year, h.month, h.day, h.hour, h.minute, truncRat (h.sec.value * 1000000)⟩
    ⟨rfl, rfl, rfl, rfl, rfl, hb.1, hb.2⟩
  have hc := castLong_small (q := h.sec.value * 1000000) (by have := hw.sec.2.1; linarith) (by have := hw.sec.2.2; linarith)
  have hv : ¬ (h.version ≠ 'c' ∧ h.version ≠ 'd') := by
    rcases hw.ver with h | h <;> simp [h]
  unfold sp3First
  simp only [getAt_fill hw.first_is.1, getAt_fill hw.first_is.2, Res.bind_ok, ne_eq, not_true_eq_false, if_false]
  rw [if_neg hv]
  simp only [sp3Nonzero_nat hw.year.1 hw.year.2, sp3Nonzero_nat hw.month.1 hw.month.2, sp3Nonzero_nat hw.day.1 hw.day.2,
    sp3Conv_nat hw.hour, sp3Conv_nat hw.minute, Res.bind_ok]
  unfold sp3FirstEnd
  simp only [sp3Double_num hw.sec.1, Bool.or_false, sp3Nonzero_nat hw.epochs.1 hw.epochs.2, bytesAt_text hw.crdSys,
    bytesAt_text hw.orbType, bytesAt_text hw.agency3, hc, hdd, Res.bind_ok, Res.pure_eq]

theorem sp3Second_wf {L : Sp3Lib} {h : Sp3Header} (hw : h.Dated) (buf : List Char) (d : MicroTime) :
    sp3Second L false (fillLine buf h.second) d =
      if L.sameWeek d h.week h.sow.value = true then
        if L.sameMjd d h.mjd h.dayFraction.value = true then .ok (.inr (truncRat (h.interval.value * 1000000), false))
        else .ok (.inl 24)
      else .ok (.inl 22) := by
  have hc := castLong_small (q := h.interval.value * 1000000) (by have := hw.interval.2.1; linarith)
    (by have := hw.interval.2.2; linarith)
  unfold sp3Second
  simp only [starts_begins hw.second_is, decide_true, Bool.and_self, Bool.not_true, Res.bind_ok, Bool.false_eq_true, if_false,
    sp3Nonzero_nat hw.week.1 hw.week.2, sp3Double_num hw.sow, sp3Double_num hw.interval.1, hc, Bool.or_false,
    sp3Nonzero_nat hw.mjd.1 hw.mjd.2, sp3Double_num hw.dayFraction]
  cases L.sameWeek d h.week h.sow.value <;> cases L.sameMjd d h.mjd h.dayFraction.value <;> rfl

theorem sp3SatLines_wf {acc t : List Char} {more : List (List Char)} (ha : LineFits 84 acc) (hab : Begins acc '+' '+') (left : Nat) :
    ∀ (sats : List (List Char)), (∀ l ∈ sats, LineFits 84 l ∧ Begins l '+' ' ') → ∀ (buf l : List Char) (s : Stream),
      LineFits 84 l → Begins l '+' ' ' → s.good = true → s.rest = linesText (sats ++ acc :: more) ++ t →
      ∃ buf', sp3SatLines (sats.length + 2 + left) (fillLine buf l) s =
        .ok (some (left, fillLine buf' acc, s.past (sats ++ [acc]))) := by
  intro sats
  induction sats with
  | nil =>
    intro _ buf l s hl hb hg hr
    refine ⟨fillLine buf l, ?_⟩
    have e : ([] : List (List Char)).length + 2 + left = (left + 1) + 1 := by simp; omega
    rw [e]
    unfold sp3SatLines
    rw [strncmp2_begins hl hb _ _ (by decide) (by decide), Res.bind_ok]
    simp only [and_self, decide_true, if_true]
    rw [getline_past (n := SP3_HEADER_CHARS) hg (by simpa using hr) ha.1 ha.2.2]
    unfold sp3SatLines
    rw [strncmp2_begins ha hab _ _ (by decide) (by decide), Res.bind_ok]
    simp
  | cons x sats ih =>
    intro hw buf l s hl hb hg hr
    obtain ⟨hx1, hx2⟩ := hw x (by simp)
    obtain ⟨buf', h'⟩ := ih (fun y hy => hw y (by simp [hy])) (fillLine buf l) x (s.past [x]) hx1 hx2 hg (rest_cons (by simpa using hr))
    refine ⟨buf', ?_⟩
    have e : (x :: sats).length + 2 + left = (sats.length + 2 + left) + 1 := by simp; omega
    rw [e]
    unfold sp3SatLines
    rw [strncmp2_begins hl hb _ _ (by decide) (by decide), Res.bind_ok]
    simp only [and_self, decide_true, if_true]
    rw [getline_past (n := SP3_HEADER_CHARS) hg (by simpa using hr) hx1.1 hx1.2.2]
    simp only
    rw [h', Stream.past_past]
    rfl

theorem sp3AccLines_wf {c1 t : List Char} {more : List (List Char)} (hc : Begins c1 '%' 'c') (left : Nat) :
    ∀ (accs : List (List Char)), accs ≠ [] → (∀ l ∈ accs, LineFits 84 l ∧ Begins l '+' '+') → ∀ (buf l : List Char) (s : Stream),
      LineFits 84 l → Begins l '+' '+' → s.good = true → s.rest = linesText (accs ++ c1 :: more) ++ t →
      ∃ buf', sp3AccLines (accs.length + left) (fillLine buf l) s = .ok (some (left, buf', s.past accs)) := by
  intro accs
  induction accs with
  | nil => intro h; exact absurd rfl h
  | cons x accs ih =>
    intro _ hw buf l s hl hb hg hr
    obtain ⟨hx1, hx2⟩ := hw x (by simp)
    have e : (x :: accs).length + left = (accs.length + left) + 1 := by simp; omega
    have hr' : s.rest = linesText (x :: (accs ++ c1 :: more)) ++ t := by simpa using hr
    have hrest := rest_cons hr'
    have hg' : (s.past [x]).good = true := hg
    have hgl := getline_past (n := SP3_HEADER_CHARS) hg hr' hx1.1 hx1.2.2
    have hs : sp3AccLines ((x :: accs).length + left) (fillLine buf l) s =
        (if (s.past [x]).peek.1 ≠ some '+' then .ok (some (accs.length + left, fillLine (fillLine buf l) x, (s.past [x]).peek.2))
          else sp3AccLines (accs.length + left) (fillLine (fillLine buf l) x) (s.past [x]).peek.2) := by
      rw [e]
      conv_lhs => unfold sp3AccLines
      rw [strncmp2_begins hl hb _ _ (by decide) (by decide), Res.bind_ok]
      simp only [and_self, decide_true, if_true, hgl]
      rfl
    rw [hs]
    cases accs with
    | nil =>
      refine ⟨fillLine (fillLine buf l) x, ?_⟩
      rw [peek_line hg' hrest hc, if_pos (by simp)]
      simp
    | cons y accs =>
      obtain ⟨hy1, hy2⟩ := hw y (by simp)
      obtain ⟨buf', h'⟩ := ih (by simp) (fun z hz => hw z (by simp [hz])) (fillLine buf l) x (s.past [x]) hx1 hx2 hg' hrest
      refine ⟨buf', ?_⟩
      rw [peek_line hg' (by simpa using hrest) hy2, if_neg (by simp), h', Stream.past_past]
      rfl

theorem sp3Comments_wf {c : Char} {t : List Char} (hc : c ≠ '/') :
    ∀ (cs : List (List Char)), (∀ l ∈ cs, LineFits 84 l ∧ Begins l '/' '*') → ∀ (room : Nat) (buf : List Char) (s : Stream),
      cs.length ≤ room → s.good = true → s.rest = linesText cs ++ c :: t →
      sp3Comments room s.peek.1 buf s.peek.2 = .ok (.inr (s.past cs)) := by
  intro cs
  induction cs with
  | nil =>
    intro _ room buf s _ hg hr
    rw [Stream.peek_cons hg (by simpa [linesText] using hr)]
    unfold sp3Comments
    rw [if_pos (by simpa using hc), Stream.past_nil]
  | cons x cs ih =>
    intro hw room buf s hroom hg hr
    obtain ⟨hx1, hx2⟩ := hw x (by simp)
    obtain ⟨room, rfl⟩ : ∃ k, room = k + 1 := ⟨room - 1, by simp at hroom; omega⟩
    have h' := ih (fun y hy => hw y (by simp [hy])) room (fillLine buf x) (s.past [x]) (by simp at hroom; omega) hg (rest_cons hr)
    rw [peek_line hg hr hx2]
    unfold sp3Comments
    rw [if_neg (by simp)]
    simp only [getline_past (n := SP3_HEADER_CHARS) hg hr hx1.1 hx1.2.2, getAt_fill hx2.2, Res.bind_ok, ne_eq, not_true_eq_false, if_false]
    rw [h', Stream.past_past]
    rfl

theorem sp3HeadTail_wf {h : Sp3Header} (hw : h.Frame) {c : Char} {t : List Char} (hc : c ≠ '/') (left : Nat)
    (hroom : h.comments.length ≤ left + 1) (buf : List Char) (s : Stream) (hg : s.good = true)
    (hr : s.rest = linesText (h.f1 :: h.f2 :: h.i1 :: h.i2 :: h.comments) ++ c :: t) :
    sp3HeadTail left buf s =
      .ok (.inr (some (s.past (h.f1 :: h.f2 :: h.i1 :: h.i2 :: h.comments)).pos, s.past (h.f1 :: h.f2 :: h.i1 :: h.i2 :: h.comments))) := by
  have r1 := rest_cons hr
  have r2 := rest_cons r1
  have r3 := rest_cons r2
  have r4 := rest_cons r3
  have g : ∀ ls, (s.past ls).good = true := fun ls => hg
  simp only [Stream.past_past] at r2 r3 r4
  have e1 := sp3Expect_line (buf := buf) hg hr hw.f1_ok.1 hw.f1_ok.2
  have e2 := fun buf => sp3Expect_line (buf := buf) (g _) r1 hw.f2_ok.1 hw.f2_ok.2
  have e3 := fun buf => sp3Expect_line (buf := buf) (g _) r2 hw.i1_ok.1 hw.i1_ok.2
  have e4 := fun buf => sp3Expect_line (buf := buf) (g _) r3 hw.i2_ok.1 hw.i2_ok.2
  have e5 := fun buf => sp3Comments_wf hc h.comments hw.comments (left + 1) buf _ hroom (g _) r4
  unfold sp3HeadTail
  simp only [e1, e2, Res.bind_ok, Bool.not_true, Bool.false_eq_true, if_false, Stream.past_past]
  simp only [e3, Res.bind_ok, Bool.not_true, Bool.false_eq_true, if_false, Stream.past_past]
  simp only [e4, Res.bind_ok, Bool.not_true, Bool.false_eq_true, if_false, Stream.past_past]
  simp only [e5, Res.bind_ok, Stream.past_past]
  rw [tellg_good (g _)]
  rfl

/-- The loop over the accuracy lines of `h` stops before the "%c" lines. -/
def Sp3Header.AccsRead (h : Sp3Header) : Prop :=
  ∀ (t : List Char) (left : Nat) (buf : List Char) (s : Stream), s.good = true →
    s.rest = linesText (h.accs ++ h.c1 :: h.c2 :: h.f1 :: h.f2 :: h.i1 :: h.i2 :: h.comments) ++ t →
      ∃ buf', sp3AccLines (h.accs.length + left) (fillLine buf h.acc) s = .ok (some (left, buf', s.past h.accs))

theorem Sp3Header.WF.accsRead {h : Sp3Header} (hw : h.WF) : h.AccsRead :=
  fun t left buf s hg hr => sp3AccLines_wf (t := t) (more := h.c2 :: h.f1 :: h.f2 :: h.i1 :: h.i2 :: h.comments)
    hw.c1_ok.2 left h.accs hw.accs_ok.1 hw.accs_ok.2 buf h.acc s hw.acc_ok.1 hw.acc_ok.2 hg hr

theorem sp3HeadMid_wf {h : Sp3Header} (hw : h.Frame) (ha : h.AccsRead) {c : Char} {t : List Char} (hc : c ≠ '/') (buf : List Char) (s : Stream)
    (hg : s.good = true) {rest' : List (List Char)} (hrest : h.lines = h.first :: h.second :: rest')
    (hr : s.rest = linesText rest' ++ c :: t) :
    sp3HeadMid false buf s = .ok (.inr ((h.satellites : Int), h.timeSys, some (s.past rest').pos, s.past rest')) := by
  have hrest' : rest' = h.sat :: (h.sats ++ h.acc :: (h.accs ++ h.c1 :: h.c2 :: h.f1 :: h.f2 :: h.i1 :: h.i2 :: h.comments)) := by
    unfold Sp3Header.lines at hrest
    simpa using hrest.symm
  have g : ∀ ls, (s.past ls).good = true := fun ls => hg
  rw [hrest'] at hr
  have r1 := rest_cons hr
  have r2 : (s.past (h.sat :: (h.sats ++ [h.acc]))).rest =
      linesText (h.accs ++ h.c1 :: h.c2 :: h.f1 :: h.f2 :: h.i1 :: h.i2 :: h.comments) ++ c :: t := by
    apply Stream.past_rest
    rw [hr, ← List.append_assoc, ← linesText_append]
    simp
  have r3 : (s.past (h.sat :: (h.sats ++ h.acc :: h.accs))).rest =
      linesText (h.c1 :: h.c2 :: h.f1 :: h.f2 :: h.i1 :: h.i2 :: h.comments) ++ c :: t := by
    apply Stream.past_rest
    rw [hr, ← List.append_assoc, ← linesText_append]
    simp
  have r4 := rest_cons r3
  have r5 := rest_cons r4
  simp only [Stream.past_past] at r4 r5
  obtain ⟨left, hleft⟩ : ∃ left, 999 = h.sats.length + 2 + (h.accs.length + left) :=
    ⟨999 - h.sats.length - 2 - h.accs.length, by have := hw.few; omega⟩
  have e1 := sp3Expect_line (buf := buf) hg hr hw.sat_ok.1 hw.sat_ok.2
  obtain ⟨b2, e2⟩ := sp3SatLines_wf (t := c :: t) (more := h.accs ++ h.c1 :: h.c2 :: h.f1 :: h.f2 :: h.i1 :: h.i2 :: h.comments)
    hw.acc_ok.1 hw.acc_ok.2 (h.accs.length + left) h.sats hw.sats buf h.sat (s.past [h.sat]) hw.sat_ok.1 hw.sat_ok.2 (g _) r1
  obtain ⟨b3, e3⟩ := ha (c :: t) left b2 (s.past (h.sat :: (h.sats ++ [h.acc]))) (g _) r2
  have e4 := fun buf => sp3Expect_line (buf := buf) (g _) r3 hw.c1_ok.1 hw.c1_ok.2
  have e5 := fun buf => sp3Expect_line (buf := buf) (g _) r4 hw.c2_ok.1 hw.c2_ok.2
  have e6 := fun buf => sp3HeadTail_wf hw hc left (by have := hw.fewc; omega) buf _ (g _) r5
  rw [← hleft] at e2
  simp only [Stream.past_past, List.cons_append, List.nil_append, List.append_assoc] at e2 e3 e4 e5 e6
  unfold sp3HeadMid
  simp only [e1, Res.bind_ok, Bool.not_true, Bool.false_eq_true, if_false, sp3Nonzero_nat hw.satellites.1 hw.satellites.2, e2,
    starts_begins hw.acc_ok.2, decide_true, Bool.and_self, e3, e4, bytesAt_text hw.timeSys, e5, e6, hrest', Res.pure_eq]

theorem sp3Open_core {L : Sp3Lib} (junk : List Char) {h : Sp3Header} (hw : h.Frame) (ha : h.AccsRead) {d : MicroTime}
    (hd : ∀ t, h.StartIs t → L.date t = .ok d) (hwk : L.sameWeek d h.week h.sow.value = true)
    (hmj : L.sameMjd d h.mjd h.dayFraction.value = true) {c : Char} (hc : c ≠ '/') (tail : List Char) :
    ∃ f, sp3Open L false junk (linesText h.lines ++ c :: tail) = .ok f ∧ h.SaysIn d f ∧ f.agency = h.agency.take 3 ∧
      f.strm.content = linesText h.lines ++ c :: tail ∧ f.strm.good = true ∧ f.strm.rest = c :: tail ∧
      ∀ s : Stream, s.content = f.strm.content → s.fail = false → sp3Rewind f.endOfHead s none = f.strm := by
  generalize hct : linesText h.lines ++ c :: tail = content
  have hg : (⟨content, 0, false, false⟩ : Stream).good = true := rfl
  have hr : (⟨content, 0, false, false⟩ : Stream).rest = linesText h.lines ++ c :: tail := by rw [hct]; simp [Stream.rest]
  have hs0 : (⟨content, 0, false, false⟩ : Stream).seekg 0 = ⟨content, 0, false, false⟩ := rfl
  have hc0 : (⟨content, 0, false, false⟩ : Stream).content = content := rfl
  generalize hs : (⟨content, 0, false, false⟩ : Stream) = s at hg hr hs0 hc0
  obtain ⟨rest', hrest⟩ : ∃ rest', h.lines = h.first :: h.second :: rest' := ⟨_, rfl⟩
  rw [hrest] at hr
  have r1 := rest_cons hr
  have r2 := rest_cons r1
  have g1 := getline_past (n := SP3_HEADER_CHARS) hg hr hw.first_fits.1 hw.first_fits.2.2
  have g2 := getline_past (n := SP3_HEADER_CHARS) (s := s.past [h.first]) hg r1 hw.second_fits.1 hw.second_fits.2.2
  have e3 := sp3HeadMid_wf hw ha hc (fillLine (fillLine junk h.first) h.second) _ (by exact hg) hrest r2
  have hsecond := sp3Second_wf (L := L) hw.toDated (fillLine junk h.first) d
  rw [if_pos hwk, if_pos hmj] at hsecond
  have hgf : (((s.past [h.first]).past [h.second]).past rest').good = true := hg
  have hrf : (((s.past [h.first]).past [h.second]).past rest').rest = c :: tail := Stream.past_rest r2
  have hcf : (((s.past [h.first]).past [h.second]).past rest').content = content := hc0
  generalize hsf : (((s.past [h.first]).past [h.second]).past rest') = sf at hgf hrf hcf e3
  have hb := truncRat_bounds (q := h.interval.value * 1000000) (by have := hw.interval.2.1; linarith)
  refine ⟨⟨h.version, d, h.epochs, h.satellites, h.crdSys, h.orbType, h.agency.take 3, h.timeSys,
    truncRat (h.interval.value * 1000000), some sf.pos, sf⟩, ?_, ⟨rfl, rfl, rfl, rfl, rfl, rfl, rfl, hb⟩, rfl, hcf, hgf, hrf, ?_⟩
  · unfold sp3Open
    rw [hs]
    unfold sp3ReadHeader
    simp only [hs0, g1, Res.bind_ok, sp3First_wf hw.toDated junk hd, g2, hsecond, Bool.or_false, e3, Res.pure_eq, Res.noexcept_ok]
  · intro t h1 h2
    have := (Stream.good_iff sf).1 hgf
    unfold sp3Rewind Stream.seekg
    rw [h2]
    simp only [Bool.false_eq_true, if_false, h1]
    cases sf; simp_all

/-- **C61**.  A file with a well formed SP3 header whose start epoch is the same in all three ways it is
given (calendar date, GPS week and second, modified Julian day) is opened: the object says what the
header says, its stream stands on the first line after the header and is good, and rewinding an
object whose stream has not failed puts it back there.  At least one char follows the header, and
it is not '/'.  Not met: of the four columns of the agency the last one is lost. -/
theorem C61_open_partial {L : Sp3Lib} (junk : List Char) {h : Sp3Header} (hw : h.WF) {d : MicroTime}
    (hd : ∀ t, h.StartIs t → L.date t = .ok d) (hwk : L.sameWeek d h.week h.sow.value = true)
    (hmj : L.sameMjd d h.mjd h.dayFraction.value = true) {c : Char} (hc : c ≠ '/') (tail : List Char) :
    ∃ f, sp3Open L false junk (linesText h.lines ++ c :: tail) = .ok f ∧ h.SaysIn d f ∧ f.agency = h.agency.take 3 ∧
      f.strm.content = linesText h.lines ++ c :: tail ∧ f.strm.good = true ∧ f.strm.rest = c :: tail ∧
      ∀ s : Stream, s.content = f.strm.content → s.fail = false → sp3Rewind f.endOfHead s none = f.strm :=
  sp3Open_core junk hw.toFrame hw.accsRead hd hwk hmj hc tail

/-- **C61** (refusal).  When the three ways of giving the start epoch disagree, the file is refused. -/
theorem C61_inconsistent_start_refused {L : Sp3Lib} (junk : List Char) {h : Sp3Header} (hw : h.Dated) {d : MicroTime}
    (hd : ∀ t, h.StartIs t → L.date t = .ok d)
    (hno : L.sameWeek d h.week h.sow.value = false ∨ L.sameMjd d h.mjd h.dayFraction.value = false)
    (rest' : List Char) :
    sp3Open L false junk (linesText [h.first, h.second] ++ rest') = .throw .runtime_error := by
  generalize hct : linesText [h.first, h.second] ++ rest' = content
  have hg : (⟨content, 0, false, false⟩ : Stream).good = true := rfl
  have hr : (⟨content, 0, false, false⟩ : Stream).rest = linesText [h.first, h.second] ++ rest' := by rw [hct]; simp [Stream.rest]
  have hs0 : (⟨content, 0, false, false⟩ : Stream).seekg 0 = ⟨content, 0, false, false⟩ := rfl
  generalize hs : (⟨content, 0, false, false⟩ : Stream) = s at hg hr hs0
  have r1 := rest_cons hr
  have g1 := getline_past (n := SP3_HEADER_CHARS) hg hr hw.first_fits.1 hw.first_fits.2.2
  have g2 := getline_past (n := SP3_HEADER_CHARS) (s := s.past [h.first]) hg r1 hw.second_fits.1 hw.second_fits.2.2
  have hsecond := sp3Second_wf (L := L) hw (fillLine junk h.first) d
  have hno' : ∃ e, sp3Second L false (fillLine (fillLine junk h.first) h.second) d = .ok (.inl e) := by
    rw [hsecond]
    rcases hno with h | h
    · rw [h]; exact ⟨22, by simp⟩
    · rw [h]; split
      · exact ⟨24, by simp⟩
      · exact ⟨22, rfl⟩
  obtain ⟨e, he⟩ := hno'
  unfold sp3Open
  rw [hs]
  unfold sp3ReadHeader
  simp only [hs0, g1, Res.bind_ok, sp3First_wf hw junk hd, g2, he, Res.pure_eq, Res.noexcept_ok]

/-- **C61 is false**: the agency of an opened file has three chars, so that it is never the one in the
four columns of its header (" IGS" becomes " IG"). -/
theorem C61_agency_cut {L : Sp3Lib} (junk : List Char) {h : Sp3Header} (hw : h.WF) {d : MicroTime}
    (hd : ∀ t, h.StartIs t → L.date t = .ok d) (hwk : L.sameWeek d h.week h.sow.value = true)
    (hmj : L.sameMjd d h.mjd h.dayFraction.value = true) {c : Char} (hc : c ≠ '/') (tail : List Char) :
    ∃ f, sp3Open L false junk (linesText h.lines ++ c :: tail) = .ok f ∧ f.agency.length = 3 ∧ f.agency ≠ h.agency := by
  obtain ⟨f, h1, _, h2, _⟩ := C61_open_partial junk hw hd hwk hmj hc tail
  have hl : h.agency.length = 4 := by
    rw [← hw.agency.2, List.length_take, List.length_drop]
    have := hw.agency.1; omega
  have h3 : f.agency.length = 3 := by rw [h2, List.length_take, hl]; rfl
  exact ⟨f, h1, h3, fun e => by rw [e, hl] at h3; cases h3⟩

end Ggnss
