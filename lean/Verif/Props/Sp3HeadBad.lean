import Verif.Spec.Sp3HeadBad
import Verif.Props.Sp3HeadWhole
import Verif.Props.Sp3Bad
/-!
# C61: SP3 headers with defects are refused
-/
namespace Ggnss

theorem sp3Nonzero_bad {l junk : List Char} {off : Nat} (ho : off ≤ l.length) (h : BadCount l off) (e0 : Bool) :
    sp3Nonzero e0 (fillLine junk l) off = .ok none := by
  unfold sp3Nonzero fillLine
  rcases h with h | h
  · obtain ⟨p, hp, hb⟩ := strtolA_badInt ho h (junk.drop (l.length + 1))
    rw [hp, Res.bind_ok, if_pos]
    · rfl
    · rcases hb with rfl | hb
      · exact Or.inl toInt32_zero
      · right; rw [hb]; rfl
  · obtain ⟨w, hw⟩ := strtol_nat (tail := junk.drop (l.length + 1)) h
    rw [hw, Res.bind_ok, if_pos]
    · rfl
    · exact Or.inl toInt32_zero

theorem sp3Conv_bad {l junk : List Char} {off : Nat} (ho : off ≤ l.length) (h : BadInt (l.drop off)) (e0 : Bool) :
    sp3Conv e0 (fillLine junk l) off = .ok none := by
  unfold sp3Conv fillLine
  obtain ⟨p, hp, hb⟩ := strtolA_badInt ho h (junk.drop (l.length + 1))
  rw [hp, Res.bind_ok, if_pos]
  · rfl
  · rcases hb with rfl | hb
    · exact Or.inr rfl
    · left; rw [hb]; rfl

theorem begins_get {l junk : List Char} (h : 2 ≤ l.length) : ∃ a b, Begins l a b ∧ getAt (fillLine junk l) 0 = .ok a ∧ getAt (fillLine junk l) 1 = .ok b := by
  match l, h with
  | a :: b :: r, _ => exact ⟨a, b, ⟨rfl, rfl⟩, rfl, rfl⟩

theorem sp3Double_big {l junk : List Char} {off : Nat} (ho : off ≤ l.length) (h : TooBigNumber (l.drop off)) :
    ∃ v, sp3Double (fillLine junk l) off = .ok (v, true) := by
  obtain ⟨n, rest, hn, ht, hst, hbig⟩ := h
  have hs : strtodA ((fillLine junk l).drop off) = .ok (some (n.value, rest ++ NUL :: junk.drop (l.length + 1), true)) := by
    unfold fillLine
    rw [drop_line ho, ht]
    unfold strtodA
    rw [if_pos (by simp), List.append_assoc, strtod_shape n hn _ (head_append_nul rest _ _ hst (by decide)), (dblErange_iff _).2 hbig]
  unfold sp3Double
  rw [hs, Res.bind_ok]
  exact ⟨_, rfl⟩

theorem sp3Nonzero_errno {line : List Char} (h : HeadArr line) {k : Nat} (hk : k ≤ 60) : sp3Nonzero true line k = .ok none := by
  obtain ⟨r, hr⟩ := h.nonzero true hk
  rw [hr]
  unfold sp3Nonzero at hr
  obtain ⟨p, _, hr⟩ := Res.bind_eq_ok.1 hr
  rw [if_pos (by simp)] at hr
  cases hr
  rfl

theorem sp3First_bad {L : Sp3Lib} (e0 : Bool) {l junk : List Char} (hj : junk.length = 85) (hl : LineFits 84 l) (hlen : 60 ≤ l.length) (h : FirstBad l) :
    ∃ e, sp3First L e0 (fillLine junk l) = .ok (.inl e) := by
  have harr : HeadArr (fillLine junk l) := by
    refine ⟨fill_length hj hl.2.2, ?_⟩
    unfold fillLine; rw [drop_line hlen]; simp
  obtain ⟨a, b, hb, h0, h1⟩ := begins_get (junk := junk) (show 2 ≤ l.length by omega)
  unfold sp3First
  rw [h0, Res.bind_ok]
  by_cases ha : a ≠ '#'
  · rw [if_pos ha]; exact ⟨_, rfl⟩
  rw [if_neg ha, h1, Res.bind_ok]
  push Not at ha
  by_cases hv : b ≠ 'c' ∧ b ≠ 'd'
  · rw [if_pos hv]; exact ⟨_, rfl⟩
  rw [if_neg hv]
  have hmark : Begins l '#' 'c' ∨ Begins l '#' 'd' := by
    subst ha
    by_cases hc : b = 'c'
    · subst hc; exact Or.inl hb
    · by_cases hd : b = 'd'
      · subst hd; exact Or.inr hb
      · exact absurd ⟨hc, hd⟩ hv
  obtain ⟨r, hr⟩ := harr.nonzero e0 (k := 3) (by omega)
  rw [hr, Res.bind_ok]
  rcases r with _ | year
  · exact ⟨_, rfl⟩
  obtain ⟨r2, hr2⟩ := harr.nonzero e0 (k := 8) (by omega)
  simp only
  rw [hr2, Res.bind_ok]
  rcases r2 with _ | month
  · exact ⟨_, rfl⟩
  obtain ⟨r3, hr3⟩ := harr.nonzero e0 (k := 11) (by omega)
  simp only
  rw [hr3, Res.bind_ok]
  rcases r3 with _ | dom
  · exact ⟨_, rfl⟩
  obtain ⟨r4, hr4⟩ := harr.conv e0 (k := 14) (by omega)
  simp only
  rw [hr4, Res.bind_ok]
  rcases r4 with _ | hour
  · exact ⟨_, rfl⟩
  obtain ⟨r5, hr5⟩ := harr.conv e0 (k := 17) (by omega)
  simp only
  rw [hr5, Res.bind_ok]
  rcases r5 with _ | minute
  · exact ⟨_, rfl⟩
  rcases h with h | h | h | h | h | h | h | h
  · exact absurd hmark h
  · rw [sp3Nonzero_bad (by omega) h] at hr; simp at hr
  · rw [sp3Nonzero_bad (by omega) h] at hr2; simp at hr2
  · rw [sp3Nonzero_bad (by omega) h] at hr3; simp at hr3
  · rw [sp3Conv_bad (by omega) h] at hr4; simp at hr4
  · rw [sp3Conv_bad (by omega) h] at hr5; simp at hr5
  · obtain ⟨er, hsec⟩ := harr.double (k := 20) (by omega)
    simp only
    unfold sp3FirstEnd
    rw [hsec, Res.bind_ok, sp3Nonzero_bad (by omega) h, Res.bind_ok]
    exact ⟨_, rfl⟩
  · obtain ⟨v, hsec⟩ := sp3Double_big (junk := junk) (by omega) h
    simp only
    unfold sp3FirstEnd
    rw [hsec, Res.bind_ok, Bool.or_true, sp3Nonzero_errno harr (by omega), Res.bind_ok]
    exact ⟨_, rfl⟩

/-- **C61** (refusal).  A first line with a defect — the mark, a part of the date, the number of epochs — is refused with
`std::runtime_error`, whatever follows in the file. -/
theorem C61_first_line_refused {L : Sp3Lib} (e0 : Bool) {junk : List Char} (hj : junk.length = 85) {l : List Char} (hl : LineFits 84 l)
    (hlen : 60 ≤ l.length) (h : FirstBad l) (content : List Char) :
    sp3Open L e0 junk (l ++ '\n' :: content) = .throw .runtime_error := by
  have hs0 : (⟨l ++ '\n' :: content, 0, false, false⟩ : Stream).seekg 0 = ⟨l ++ '\n' :: content, 0, false, false⟩ := rfl
  have hr : (⟨l ++ '\n' :: content, 0, false, false⟩ : Stream).rest = linesText [l] ++ content := by
    rw [linesText_one]; simp [Stream.rest]
  have hg := getline_past (n := SP3_HEADER_CHARS) (s := ⟨l ++ '\n' :: content, 0, false, false⟩) rfl hr hl.1 hl.2.2
  obtain ⟨e, he⟩ := sp3First_bad (L := L) e0 hj hl hlen h
  unfold sp3Open sp3ReadHeader
  rw [hs0]
  simp only [hg, he, Res.bind_ok, Res.pure_eq, Res.noexcept_ok]

theorem sp3Second_bad {L : Sp3Lib} {h : Sp3Header} (e0 : Bool) {l junk : List Char} (hj : junk.length = 85) (hl : LineFits 84 l) (hlen : 60 ≤ l.length)
    (hb : SecondBad h l) (d : MicroTime) : ∃ e, sp3Second L e0 (fillLine junk l) d = .ok (.inl e) := by
  have harr : HeadArr (fillLine junk l) := by
    refine ⟨fill_length hj hl.2.2, ?_⟩
    unfold fillLine; rw [drop_line hlen]; simp
  have hst := starts_iff (buf := junk) (l := l) (a := '#') (b := '#') (by decide) (by decide) (by have := harr.1; omega)
  unfold sp3Second
  rw [hst, Res.bind_ok]
  by_cases hm : Begins l '#' '#'
  case neg => rw [decide_eq_false hm]; exact ⟨_, rfl⟩
  rw [decide_eq_true hm]
  simp only [Bool.not_true, Bool.false_eq_true, if_false]
  obtain ⟨r, hr⟩ := harr.nonzero e0 (k := 3) (by omega)
  rw [hr, Res.bind_ok]
  rcases r with _ | wk
  · exact ⟨_, rfl⟩
  simp only
  rcases hb with hb | hb | ⟨hsow, hitv, hi0, hi1, hb⟩ | ⟨hbig, hitv, hi0, hi1⟩
  · exact absurd hm hb
  · rw [sp3Nonzero_bad (by omega) hb] at hr; simp at hr
  · rw [sp3Double_num hsow, Res.bind_ok]
    by_cases hw : L.sameWeek d wk h.sow.value = true
    · simp only [hw, Bool.not_true, Bool.false_eq_true, if_false]
      rw [sp3Double_num hitv, Res.bind_ok, castLong_small (by linarith) (by linarith), Res.bind_ok, sp3Nonzero_bad (by omega) hb]
      exact ⟨_, rfl⟩
    · simp only [hw, Bool.not_false, if_true]
      exact ⟨_, rfl⟩
  · obtain ⟨v, hsow⟩ := sp3Double_big (junk := junk) (by omega) hbig
    rw [hsow, Res.bind_ok]
    by_cases hw : L.sameWeek d wk v = true
    · simp only [hw, Bool.not_true, Bool.false_eq_true, if_false]
      rw [sp3Double_num hitv, Res.bind_ok, castLong_small (by linarith) (by linarith), Res.bind_ok, Bool.or_true, Bool.true_or,
        sp3Nonzero_errno harr (by omega)]
      exact ⟨_, rfl⟩
    · simp only [hw, Bool.not_false, if_true]
      exact ⟨_, rfl⟩

/-- **C61** disagreement: seconds that cannot be read on the first line are not reported; they count as 0, and the rest of the line is taken as it
stands. -/
theorem C61_seconds_unread {L : Sp3Lib} {junk : List Char} {l : List Char} {ver : Char} {y mo d hh mi n : Nat} {crd orb age : List Char} {t : MicroTime}
    (hver : ver = 'c' ∨ ver = 'd') (hb : Begins l '#' ver) (hy : NatAt l 3 y ∧ y ≠ 0) (hmo : NatAt l 8 mo ∧ mo ≠ 0) (hda : NatAt l 11 d ∧ d ≠ 0)
    (hho : NatAt l 14 hh) (hmi : NatAt l 17 mi) (hsec : NoNumber (l.drop 20)) (hlen : 20 ≤ l.length) (hn : NatAt l 32 n ∧ n ≠ 0)
    (hcrd : TextAt l 46 5 crd) (horb : TextAt l 52 3 orb) (hage : TextAt l 56 3 age) (hdate : L.date ⟨y, mo, d, hh, mi, 0⟩ = .ok t) :
    sp3First L false (fillLine junk l) = .ok (.inr ⟨ver, t, n, crd, orb, age⟩) := by
  have hs : sp3Double (fillLine junk l) 20 = .ok (0, false) := by
    have hno : strtodA ((fillLine junk l).drop 20) = .ok none := by
      unfold fillLine
      rw [drop_line hlen]
      unfold strtodA
      rw [if_pos (by simp)]
      rcases hsec with h | ⟨k, c, r, he, h1, h2, h3⟩
      · rw [strtod_blanks h]
      · rw [he, List.append_assoc, List.cons_append, strtod_notNumber h1 h2 h3]
    unfold sp3Double
    rw [hno, Res.bind_ok]
    rfl
  have hv : ¬ (ver ≠ 'c' ∧ ver ≠ 'd') := by rcases hver with h | h <;> simp [h]
  have hc : castLong (0 * 1000000) = .ok 0 := by
    have := castLong_small (q := 0 * 1000000) (by norm_num) (by norm_num)
    rw [this, zero_mul]; rfl
  unfold sp3First
  simp only [getAt_fill hb.1, getAt_fill hb.2, Res.bind_ok, ne_eq, not_true_eq_false, if_false]
  rw [if_neg hv]
  simp only [sp3Nonzero_nat hy.1 hy.2, sp3Nonzero_nat hmo.1 hmo.2, sp3Nonzero_nat hda.1 hda.2, sp3Conv_nat hho, sp3Conv_nat hmi, Res.bind_ok]
  unfold sp3FirstEnd
  simp only [hs, Bool.or_false, sp3Nonzero_nat hn.1 hn.2, bytesAt_text hcrd, bytesAt_text horb, bytesAt_text hage, hc, hdate, Res.bind_ok, Res.pure_eq]

/-- **C61** (refusal).  After a well-formed first line, a second line with a defect is refused. -/
theorem C61_second_line_refused {L : Sp3Lib} {junk : List Char} (hj : junk.length = 85) {h : Sp3Header} (hw : h.Dated) {d : MicroTime}
    (hd : ∀ t, h.StartIs t → L.date t = .ok d) {l : List Char} (hl : LineFits 84 l) (hlen : 60 ≤ l.length) (hb : SecondBad h l)
    (content : List Char) : sp3Open L false junk (linesText [h.first, l] ++ content) = .throw .runtime_error := by
  generalize hct : linesText [h.first, l] ++ content = all
  have hg : (⟨all, 0, false, false⟩ : Stream).good = true := rfl
  have hr : (⟨all, 0, false, false⟩ : Stream).rest = linesText [h.first, l] ++ content := by rw [hct]; simp [Stream.rest]
  have hs0 : (⟨all, 0, false, false⟩ : Stream).seekg 0 = ⟨all, 0, false, false⟩ := rfl
  generalize hs : (⟨all, 0, false, false⟩ : Stream) = s at hg hr hs0
  have r1 := rest_cons hr
  have g1 := getline_past (n := SP3_HEADER_CHARS) hg hr hw.first_fits.1 hw.first_fits.2.2
  have g2 := getline_past (n := SP3_HEADER_CHARS) (s := s.past [h.first]) hg r1 hl.1 hl.2.2
  obtain ⟨e, he⟩ := sp3Second_bad (L := L) false (fill_length hj hw.first_fits.2.2) hl hlen hb d
  unfold sp3Open
  rw [hs]
  unfold sp3ReadHeader
  simp only [hs0, g1, Res.bind_ok, sp3First_wf hw junk hd, g2, he, Res.pure_eq, Res.noexcept_ok]

/-- **C61** (refusal).  After two well-formed lines that agree, a line in the place of the first line of satellites without its mark, or whose
number of satellites is missing, too large or 0, is refused. -/
theorem C61_third_line_refused {L : Sp3Lib} {junk : List Char} (hj : junk.length = 85) {h : Sp3Header} (hw : h.Dated) {d : MicroTime}
    (hd : ∀ t, h.StartIs t → L.date t = .ok d) (hwk : L.sameWeek d h.week h.sow.value = true)
    (hmj : L.sameMjd d h.mjd h.dayFraction.value = true) {l : List Char} (hl : LineFits 84 l) (hlen : 3 ≤ l.length) (hb : ThirdBad l)
    (content : List Char) : sp3Open L false junk (linesText [h.first, h.second, l] ++ content) = .throw .runtime_error := by
  generalize hct : linesText [h.first, h.second, l] ++ content = all
  have hg : (⟨all, 0, false, false⟩ : Stream).good = true := rfl
  have hr : (⟨all, 0, false, false⟩ : Stream).rest = linesText [h.first, h.second, l] ++ content := by rw [hct]; simp [Stream.rest]
  have hs0 : (⟨all, 0, false, false⟩ : Stream).seekg 0 = ⟨all, 0, false, false⟩ := rfl
  generalize hs : (⟨all, 0, false, false⟩ : Stream) = s at hg hr hs0
  have r1 := rest_cons hr
  have r2 := rest_cons r1
  have g1 := getline_past (n := SP3_HEADER_CHARS) hg hr hw.first_fits.1 hw.first_fits.2.2
  have g2 := getline_past (n := SP3_HEADER_CHARS) (s := s.past [h.first]) hg r1 hw.second_fits.1 hw.second_fits.2.2
  have g3 := getline_past (n := SP3_HEADER_CHARS) (s := (s.past [h.first]).past [h.second]) hg r2 hl.1 hl.2.2
  have hbuf : (fillLine (fillLine junk h.first) h.second).length = 85 := fill_length (fill_length hj hw.first_fits.2.2) hw.second_fits.2.2
  have hst := starts_iff (buf := fillLine (fillLine junk h.first) h.second) (l := l) (a := '+') (b := ' ') (by decide) (by decide)
    (fill_len2 (by omega))
  have hmid : ∀ e0, ∃ e, sp3HeadMid e0 (fillLine (fillLine junk h.first) h.second) ((s.past [h.first]).past [h.second]) = .ok (.inl e) := by
    intro e0
    unfold sp3HeadMid sp3Expect
    simp only [g3, hst, Res.bind_ok, Res.pure_eq]
    by_cases hm : Begins l '+' ' '
    case neg => simp only [decide_eq_false hm]; exact ⟨_, rfl⟩
    simp only [decide_eq_true hm, Bool.not_true, Bool.false_eq_true, if_false]
    rcases hb with hb | hb
    · exact absurd hm hb
    · rw [sp3Nonzero_bad hlen hb]; exact ⟨_, rfl⟩
  obtain ⟨e, he⟩ := hmid false
  have hsecond := sp3Second_wf (L := L) hw (fillLine junk h.first) d
  rw [hwk, hmj] at hsecond
  unfold sp3Open
  rw [hs]
  unfold sp3ReadHeader
  simp only [hs0, g1, Res.bind_ok, sp3First_wf hw junk hd, g2, hsecond, if_true, he, Res.pure_eq, Res.noexcept_ok]

end Ggnss
