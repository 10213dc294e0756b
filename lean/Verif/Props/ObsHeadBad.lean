import Verif.Props.ObsHeadAny
/-!
# C60: observation RINEX headers that must be refused

(Theorems added after mutation testing.)
-/
namespace Ggnss

/-- From column `off` on there are blanks and then a char no number can start with. -/
def NotNumberAt (l : List Char) (off : Nat) : Prop :=
  ∃ k c r, l.drop off = List.replicate k ' ' ++ c :: r ∧ isSpace c = false ∧ c.isDigit = false ∧ c ∉ c!"+-.iInN"

theorem notIN {c : Char} (h1 : ¬c = 'i') (h2 : ¬c = 'I') (h3 : ¬c = 'n') (h4 : ¬c = 'N') : c.toLower ≠ 'i' ∧ c.toLower ≠ 'n' := by
  constructor <;> intro h
  · exact (toLower_eq 'I' (by decide) (by decide) h).elim h1 (fun e => h2 e)
  · exact (toLower_eq 'N' (by decide) (by decide) h).elim h3 (fun e => h4 e)

theorem strtod_notNumber {k : Nat} {c : Char} {r : List Char} (hs : isSpace c = false) (hd : c.isDigit = false) (hc : c ∉ c!"+-.iInN") :
    strtod (List.replicate k ' ' ++ c :: r) = none := by
  have hdw : (List.replicate k ' ' ++ c :: r).dropWhile isSpace = c :: r := by
    induction k with
    | zero => simp [hs]
    | succ k ih => rw [List.replicate_succ, List.cons_append, List.dropWhile_cons, if_pos (by decide)]; exact ih
  simp only [List.mem_cons, List.not_mem_nil, or_false, not_or] at hc
  have hsg : takeSign (c :: r) = (false, c :: r) := by
    unfold takeSign
    simp [hc.1, hc.2.1]
  have hw : strtodWord (c :: r) = none := strtodWord_none (fun d h => by
    simp only [List.head?_cons, Option.some.injEq] at h
    subst h
    exact notIN hc.2.2.2.1 hc.2.2.2.2.1 hc.2.2.2.2.2.1 hc.2.2.2.2.2.2)
  have hh : strtodHex (c :: r) = none := strtodHex_none (fun d r' h => by
    simp only [List.cons.injEq] at h
    rw [h.1] at hd
    exact absurd hd (by decide))
  unfold strtod
  simp only [hdw, hsg, hw, hh]
  unfold strtodDec
  have h1 : (c :: r).takeWhile Char.isDigit = [] := by simp [hd]
  have h2 : (c :: r).dropWhile Char.isDigit = c :: r := by simp [hd]
  simp only [h1, h2]
  have h3 : takeFrac (c :: r) = ([], c :: r) := by
    unfold takeFrac
    simp [hc.2.2.1]
  simp [h3]

theorem strtodA_notNumber {l buf : List Char} {off : Nat} (h : NotNumberAt l off) : strtodA ((fillLine buf l).drop off) = .ok none := by
  obtain ⟨k, c, r, h1, h2, h3, h4⟩ := h
  have hlt : off < l.length := by
    by_contra hno
    rw [List.drop_eq_nil_of_le (by omega)] at h1
    simp at h1
  unfold fillLine
  rw [drop_line (Nat.le_of_lt hlt), h1, List.append_assoc, List.cons_append]
  unfold strtodA
  rw [if_pos (by simp), strtod_notNumber h2 h3 h4]

section
variable {strptime : List Char → Res DateTime} {gAnt : Nat → List Char} {g0 : List Char}

/-- **C60** (refusal).  A file whose first line does not begin with a version number is refused. -/
theorem C60_no_version_refused (e0 : Bool) (hg0 : g0.length = 41) (junk : List Char) (buf0 : Nat → List Char) {first : List Char}
    (h1 : LineFits 84 first) (hv : NotNumberAt first 0) (content : List Char) :
    obsOpen strptime gAnt e0 g0 junk buf0 (first ++ '\n' :: content) = .throw .runtime_error := by
  have hs0 : (⟨first ++ '\n' :: content, 0, false, false⟩ : Stream).seekg 0 = ⟨first ++ '\n' :: content, 0, false, false⟩ := rfl
  have hr : (⟨first ++ '\n' :: content, 0, false, false⟩ : Stream).rest = linesText [first] ++ content := by
    rw [linesText_one]; simp [Stream.rest]
  have hs := strtodA_notNumber (buf := junk) hv
  rw [List.drop_zero] at hs
  unfold obsOpen obsReadHeader
  rw [antInit_eq g0 hg0, Res.bind_ok, hs0]
  simp only [getline_past (n := OBS_HEADER_CHARS) (s := ⟨first ++ '\n' :: content, 0, false, false⟩) rfl hr h1.1 h1.2.2, hs, Res.bind_ok,
    Res.pure_eq, Res.noexcept_ok]
  rfl

/-- **C60** (refusal).  A file whose type letter (column 21) is not 'O' is refused. -/
theorem C60_wrong_type_refused (e0 : Bool) (hg0 : g0.length = 41) (junk : List Char) (buf0 : Nat → List Char) {first : List Char}
    (h1 : LineFits 84 first) {version : Numeral} (hv : NumAt first 0 version) {c : Char} (hc : first[20]? = some c) (hO : c ≠ 'O')
    (content : List Char) :
    obsOpen strptime gAnt e0 g0 junk buf0 (first ++ '\n' :: content) = .throw .runtime_error := by
  have hs0 : (⟨first ++ '\n' :: content, 0, false, false⟩ : Stream).seekg 0 = ⟨first ++ '\n' :: content, 0, false, false⟩ := rfl
  have hr : (⟨first ++ '\n' :: content, 0, false, false⟩ : Stream).rest = linesText [first] ++ content := by
    rw [linesText_one]; simp [Stream.rest]
  obtain ⟨r, hs⟩ : ∃ r, strtodA (fillLine junk first) = .ok (some (version.value, r, false)) := by
    obtain ⟨r, hr⟩ := strtodA_num (l := first) (tail := junk.drop (first.length + 1)) hv
    exact ⟨r, by simpa [fillLine] using hr⟩
  unfold obsOpen obsReadHeader
  rw [antInit_eq g0 hg0, Res.bind_ok, hs0]
  simp only [getline_past (n := OBS_HEADER_CHARS) (s := ⟨first ++ '\n' :: content, 0, false, false⟩) rfl hr h1.1 h1.2.2, hs, Res.bind_ok,
    getAt_fill hc, ne_eq, hO, not_false_eq_true, if_true, Res.pure_eq, Res.noexcept_ok]
  rfl

/-- **C60** (refusal).  A file whose system letter (column 41) is not a known one is refused. -/
theorem C60_unknown_system_refused (e0 : Bool) (hg0 : g0.length = 41) (junk : List Char) (buf0 : Nat → List Char) {first : List Char}
    (h1 : LineFits 84 first) {version : Numeral} (hv : NumAt first 0 version) (hO : first[20]? = some 'O') {c : Char}
    (hc : first[40]? = some c) (hno : ∀ q, c ≠ satsysToChar q) (content : List Char) :
    obsOpen strptime gAnt e0 g0 junk buf0 (first ++ '\n' :: content) = .throw .runtime_error := by
  have hs0 : (⟨first ++ '\n' :: content, 0, false, false⟩ : Stream).seekg 0 = ⟨first ++ '\n' :: content, 0, false, false⟩ := rfl
  have hr : (⟨first ++ '\n' :: content, 0, false, false⟩ : Stream).rest = linesText [first] ++ content := by
    rw [linesText_one]; simp [Stream.rest]
  obtain ⟨r, hs⟩ : ∃ r, strtodA (fillLine junk first) = .ok (some (version.value, r, false)) := by
    obtain ⟨r, hr⟩ := strtodA_num (l := first) (tail := junk.drop (first.length + 1)) hv
    exact ⟨r, by simpa [fillLine] using hr⟩
  have hthrow : charToSatsys c = .throw .runtime_error := by
    rcases C01_total c with ⟨q, _, hq⟩ | ⟨hq, _⟩
    · exact absurd hq.symm (hno q)
    · exact hq
  unfold obsOpen obsReadHeader
  rw [antInit_eq g0 hg0, Res.bind_ok, hs0]
  simp only [getline_past (n := OBS_HEADER_CHARS) (s := ⟨first ++ '\n' :: content, 0, false, false⟩) rfl hr h1.1 h1.2.2, hs, Res.bind_ok,
    getAt_fill hc, getAt_fill hO, ne_eq, not_true_eq_false, if_false, hthrow, Res.pure_eq, Res.noexcept_ok]
  rfl

/-- What happens when a line after a well formed beginning is answered with a code other than 0. -/
theorem obsOpen_bad_line (hgA : ∀ k, (gAnt k).length = 41) (hg0 : g0.length = 41) (junk : List Char) (buf0 : Nat → List Char)
    {version : Numeral} {sys : SatSys} {first second : List Char} {items : List ObsItem} (h : HeadPrefix strptime version sys first second items)
    {l t : List Char} (hl : LineFits 84 l) {st : Int} (hst : st ≠ 0)
    (hb : ∀ line o s, obsHeadLine strptime gAnt false (fillLine line l) o s = .ok (st, o, s)) :
    obsOpen strptime gAnt false g0 junk buf0 (linesText (prefixLines first second items) ++ (l ++ '\n' :: t)) = .throw .runtime_error := by
  obtain ⟨o, line, s, k, hg, hr, _, he, _, ho⟩ := obsOpen_prefix (gAnt := gAnt) hgA hg0 junk buf0 h (l ++ '\n' :: t)
  rw [ho]
  have hr' : s.rest = linesText [l] ++ t := by rw [hr, linesText_one]; simp
  rw [show k + 10 = (k + 9) + 1 from rfl, obsHeadLoop, he, Res.bind_ok]
  simp only [Bool.false_eq_true, if_false]
  rw [getline_past (n := OBS_HEADER_CHARS) hg hr' hl.1 hl.2.2]
  unfold obsFinish
  simp only [hb, Res.bind_ok, ne_eq, hst, not_false_eq_true, if_true, Res.pure_eq, Res.noexcept_ok]

/-- **C60** (refusal).  After any well formed beginning, a TIME OF FIRST OBS line whose date the date library
refuses (`std::invalid_argument`) makes the constructor throw `std::runtime_error`. -/
theorem C60_bad_date_refused (hgA : ∀ k, (gAnt k).length = 41) (hg0 : g0.length = 41) (junk : List Char) (buf0 : Nat → List Char)
    {version : Numeral} {sys : SatSys} {first second : List Char} {items : List ObsItem} (h : HeadPrefix strptime version sys first second items)
    {l : List Char} (hl : Labelled l c!"TIME OF FIRST OBS") (hbad : ∀ line, strptime (fillLine line l) = .throw .invalid_argument) (t : List Char) :
    obsOpen strptime gAnt false g0 junk buf0 (linesText (prefixLines first second items) ++ (l ++ '\n' :: t)) = .throw .runtime_error := by
  refine obsOpen_bad_line hgA hg0 junk buf0 h hl.1 (st := 61) (by decide) ?_
  intro line o s
  have h := labelsAre_labelled hl (by decide) line
  simp only [obsHeadLine, (h c!"MARKER NAME" (by decide)).2 (by decide), (h c!"MARKER NUMBER" (by decide)).2 (by decide),
    (h c!"REC # / TYPE / VERS" (by decide)).2 (by decide), (h c!"ANT # / TYPE" (by decide)).2 (by decide),
    (h c!"APPROX POSITION XYZ" (by decide)).2 (by decide), (h c!"ANTENNA: DELTA H/E/N" (by decide)).2 (by decide),
    (h c!"SYS / # / OBS TYPES" (by decide)).2 (by decide), (h c!"RCV CLOCK OFFS APPL" (by decide)).2 (by decide),
    (h c!"TIME OF FIRST OBS" (by decide)).1 rfl, Res.bind_ok, if_true, Bool.false_eq_true, if_false, hbad, Res.pure_eq]

/-- **C60** (refusal).  The same for an APPROX POSITION XYZ line that does not begin with a number. -/
theorem C60_bad_position_refused (hgA : ∀ k, (gAnt k).length = 41) (hg0 : g0.length = 41) (junk : List Char) (buf0 : Nat → List Char)
    {version : Numeral} {sys : SatSys} {first second : List Char} {items : List ObsItem} (h : HeadPrefix strptime version sys first second items)
    {l : List Char} (hl : Labelled l c!"APPROX POSITION XYZ") (hbad : NotNumberAt l 0) (t : List Char) :
    obsOpen strptime gAnt false g0 junk buf0 (linesText (prefixLines first second items) ++ (l ++ '\n' :: t)) = .throw .runtime_error := by
  refine obsOpen_bad_line hgA hg0 junk buf0 h hl.1 (st := 51) (by decide) ?_
  intro line o s
  have hs := strtodA_notNumber (buf := line) hbad
  rw [List.drop_zero] at hs
  rw [headLine_position (labelsAre_labelled hl (by decide) line)]
  unfold char2double
  rw [hs]
  rfl

/-- **C60** (refusal).  The same for an ANTENNA: DELTA H/E/N line that does not begin with a number. -/
theorem C60_bad_eccentricity_refused (hgA : ∀ k, (gAnt k).length = 41) (hg0 : g0.length = 41) (junk : List Char) (buf0 : Nat → List Char)
    {version : Numeral} {sys : SatSys} {first second : List Char} {items : List ObsItem} (h : HeadPrefix strptime version sys first second items)
    {l : List Char} (hl : Labelled l c!"ANTENNA: DELTA H/E/N") (hbad : NotNumberAt l 0) (t : List Char) :
    obsOpen strptime gAnt false g0 junk buf0 (linesText (prefixLines first second items) ++ (l ++ '\n' :: t)) = .throw .runtime_error := by
  refine obsOpen_bad_line hgA hg0 junk buf0 h hl.1 (st := 52) (by decide) ?_
  intro line o s
  have hs := strtodA_notNumber (buf := line) hbad
  rw [List.drop_zero] at hs
  rw [headLine_delta (labelsAre_labelled hl (by decide) line)]
  unfold char2double
  rw [hs]
  rfl

/-- **C60** (refusal).  The same for a RCV CLOCK OFFS APPL line whose number is neither 0 nor 1. -/
theorem C60_bad_clock_flag_refused (hgA : ∀ k, (gAnt k).length = 41) (hg0 : g0.length = 41) (junk : List Char) (buf0 : Nat → List Char)
    {version : Numeral} {sys : SatSys} {first second : List Char} {items : List ObsItem} (h : HeadPrefix strptime version sys first second items)
    {l : List Char} (hl : Labelled l c!"RCV CLOCK OFFS APPL") {n : Nat} (hn : NatAt l 0 n) (hbad : n ≠ 0 ∧ n ≠ 1) (t : List Char) :
    obsOpen strptime gAnt false g0 junk buf0 (linesText (prefixLines first second items) ++ (l ++ '\n' :: t)) = .throw .runtime_error := by
  refine obsOpen_bad_line hgA hg0 junk buf0 h hl.1 (st := 60) (by decide) ?_
  intro line o s
  rw [headLine_clock (labelsAre_labelled hl (by decide) line)]
  have hc : obsClock false (fillLine line l) = .ok none := by
    obtain ⟨r, hr⟩ := strtol_nat (tail := line.drop (l.length + 1)) hn
    have hb : n < 2147483648 := by obtain ⟨_, _, _, _, _, _, _, _, _, hh⟩ := hn; exact hh
    have hr' : strtolA (fillLine line l) = .ok (some ((n : Int), r, false)) := by simpa [fillLine] using hr
    unfold obsClock
    rw [hr', Res.bind_ok]
    have h0 : (n : Int) ≠ 0 := by exact_mod_cast hbad.1
    have h1 : (n : Int) ≠ 1 := by exact_mod_cast hbad.2
    simp only [strtolVal, toInt32_nat hb]
    rw [if_pos (Or.inr (Or.inr ⟨h0, h1⟩))]
    rfl
  rw [hc]
  rfl

end

end Ggnss
