import Verif.Props.ObsHead
import Verif.Props.AntexAny
/-!
# C60: observation files with arbitrary content, and what goes wrong with well formed ones
-/
namespace Ggnss

/-- The array `line` once a line of 60 chars or more has been read: a terminator in its last 25 bytes. -/
def HeadArr (line : List Char) : Prop := line.length = 85 ∧ NUL ∈ line.drop 60

theorem HeadArr.fill {line : List Char} (h : HeadArr line) {l : List Char} (hl : l.length ≤ 84) : HeadArr (fillLine line l) := by
  refine ⟨fill_length h.1 hl, ?_⟩
  by_cases h60 : 60 ≤ l.length
  · unfold fillLine; rw [drop_line h60]; simp
  · have : (fillLine line l).drop 60 = line.drop 60 := by
      unfold fillLine
      rw [List.drop_append, List.drop_eq_nil_of_le (by omega)]
      obtain ⟨k, hk⟩ : ∃ k, 60 - l.length = k + 1 := ⟨60 - l.length - 1, by omega⟩
      rw [hk, List.drop_succ_cons, List.nil_append, List.drop_drop]
      congr 1; omega
    rw [this]; exact h.2

theorem HeadArr.getline {line : List Char} (h : HeadArr line) (s : Stream) : HeadArr (fillLine line (s.getline OBS_HEADER_CHARS).1) :=
  h.fill (getline_lenN s OBS_HEADER_CHARS)

theorem HeadArr.nul {line : List Char} (h : HeadArr line) {k : Nat} (hk : k ≤ 60) : NUL ∈ line.drop k := by
  have := h.2
  rw [show 60 = k + (60 - k) by omega, ← List.drop_drop] at this
  exact List.mem_of_mem_drop this

theorem HeadArr.label {line : List Char} (h : HeadArr line) {p : List Char} (hp : p.length ≤ 25) : ∃ b, obsLabel line p = .ok b :=
  atxLabel_any (by rw [h.1]; omega)

theorem HeadArr.strtol {line : List Char} (h : HeadArr line) {k : Nat} (hk : k ≤ 60) : strtolA (line.drop k) = .ok (strtol (line.drop k)) := by
  unfold strtolA; rw [if_pos (h.nul hk)]

theorem HeadArr.strtod {line : List Char} (h : HeadArr line) {k : Nat} (hk : k ≤ 60) : strtodA (line.drop k) = .ok (Ggnss.strtod (line.drop k)) := by
  unfold strtodA; rw [if_pos (h.nul hk)]

theorem obsTypesLoop_any : ∀ (n k : Nat) (line : List Char) (acc : List ObsCode) (s : Stream), HeadArr line → k < 13 →
    ∃ r, obsTypesLoop n k line acc s = .ok r := by
  intro n
  induction n with
  | zero => intro k line acc s _ _; exact ⟨_, rfl⟩
  | succ n ih =>
    intro k line acc s h hk
    obtain ⟨txt, ht⟩ := cstrOf_nul (h.nul (k := 7 + k * 4) (by omega))
    rw [obsTypesLoop, ht, Res.bind_ok]
    rcases C03_parse_total txt with ⟨c, hc⟩ | hc
    · rw [hc]
      simp only
      split
      · have h' := h.getline s
        obtain ⟨b, hb⟩ := h'.label (p := c!"SYS / # / OBS TYPES") (by decide)
        rw [hb, Res.bind_ok]
        split
        · exact ih 0 _ _ _ h' (by omega)
        · exact ⟨_, rfl⟩
      · exact ih (k + 1) _ _ _ h (by omega)
    · rw [hc]; exact ⟨_, rfl⟩

theorem obsTypesResolve_any (e0 : Bool) {line : List Char} (h : HeadArr line) (obst : ObsTypes) (s : Stream) :
    Sane (obsTypesResolve e0 line obst s) := by
  unfold obsTypesResolve
  apply Sane.noexcept
  rw [getAt_lt (by have := h.1; omega : 0 < line.length), Res.bind_ok]
  apply Sane.bind
  · rcases C01_total (line[0]'(by have := h.1; omega)) with ⟨q, hq, _⟩ | ⟨hq, _⟩ <;> rw [hq] <;> exact ⟨by simp, by simp⟩
  · intro sys _
    split
    · exact Sane.ok _
    · rw [h.strtol (by omega), Res.bind_ok]
      simp only
      split
      · exact Sane.ok _
      · obtain ⟨r, hr⟩ := obsTypesLoop_any (max 1 (toInt32 (strtolVal (Ggnss.strtol (line.drop 3)))).toNat) 0 line [] s h (by omega)
        rw [hr, Res.bind_ok]
        obtain ⟨a, b⟩ := r
        cases a with
        | inl x => exact Sane.ok _
        | inr v =>
          simp only
          split
          · exact Sane.ok _
          · exact Sane.ok _

theorem rtrimStart_any {line : List Char} (h : NUL ∈ line) (st : Option Nat) : ∃ r, rtrimStart line st = .ok r := by
  obtain ⟨x, y, rfl, hx⟩ := nul_split h
  obtain ⟨t, h1, _⟩ := C07_rtrim_default x y hx st
  exact ⟨_, h1⟩

theorem stringIsEmpty_any {line : List Char} (h : NUL ∈ line) (st : Option Nat) : ∃ r, stringIsEmpty line st = .ok r := by
  obtain ⟨x, y, rfl, hx⟩ := nul_split h
  exact ⟨_, C07_is_empty x y hx st⟩

theorem obsAntenna_any {line g : List Char} (h : HeadArr line) (hg : g.length = 41) : ∃ a, obsAntenna g line = .ok a := by
  unfold obsAntenna
  obtain ⟨t, ht⟩ := rtrimStart_any (h.nul (k := 20) (by omega)) (some 20)
  have h0 : NUL ∈ line := by simpa using h.nul (k := 0) (by omega)
  obtain ⟨b, hb⟩ := stringIsEmpty_any h0 (some 20)
  obtain ⟨c, hc⟩ := cstrOf_nul h0
  have hn : antOfCStr g t.1 = .ok (specModel (.fromCStr t.1) ++ NUL :: g.drop 21) := antNew_eq g hg (.fromCStr t.1)
  rw [ht, Res.bind_ok, hn, Res.bind_ok, hb, Res.bind_ok]
  split
  · exact ⟨_, rfl⟩
  · rw [hc, Res.bind_ok, antSetSerial_eq _ _ _ (specModel_length _) (by simp [hg])]
    exact ⟨_, rfl⟩

theorem char2double_any {line : List Char} (h : HeadArr line) (e0 : Bool) : ∃ r, char2double e0 14 3 line = .ok r := by
  have h0 := h.strtod (k := 0) (by omega)
  rw [List.drop_zero] at h0
  simp only [char2double, h0, Res.bind_ok, List.drop_drop]
  cases Ggnss.strtod line with
  | none => exact ⟨_, rfl⟩
  | some v =>
    simp only [h.strtod (show 14 ≤ 60 by omega), Res.bind_ok]
    cases Ggnss.strtod (line.drop 14) with
    | none => exact ⟨_, rfl⟩
    | some v =>
      simp only [h.strtod (show 14 + 14 ≤ 60 by omega), Res.bind_ok]
      cases Ggnss.strtod (line.drop (14 + 14)) with
      | none => exact ⟨_, rfl⟩
      | some v => exact ⟨_, rfl⟩

theorem obsHeadLine_any {strptime : List Char → Res DateTime} (hS : ∀ b, NUL ∈ b → Sane (strptime b)) {gAnt : Nat → List Char}
    (hgA : ∀ k, (gAnt k).length = 41) (e0 : Bool) {line : List Char} (h : HeadArr line) (o : ObsFileObj) (s : Stream) :
    Sane (obsHeadLine strptime gAnt e0 line o s) := by
  have h0 : NUL ∈ line := by simpa using h.nul (k := 0) (by omega)
  obtain ⟨b1, e1⟩ := h.label (p := c!"MARKER NAME") (by decide)
  obtain ⟨b2, e2⟩ := h.label (p := c!"MARKER NUMBER") (by decide)
  obtain ⟨b3, e3⟩ := h.label (p := c!"REC # / TYPE / VERS") (by decide)
  obtain ⟨b4, e4⟩ := h.label (p := c!"ANT # / TYPE") (by decide)
  obtain ⟨b5, e5⟩ := h.label (p := c!"APPROX POSITION XYZ") (by decide)
  obtain ⟨b6, e6⟩ := h.label (p := c!"ANTENNA: DELTA H/E/N") (by decide)
  obtain ⟨b7, e7⟩ := h.label (p := c!"SYS / # / OBS TYPES") (by decide)
  obtain ⟨b8, e8⟩ := h.label (p := c!"RCV CLOCK OFFS APPL") (by decide)
  obtain ⟨b9, e9⟩ := h.label (p := c!"TIME OF FIRST OBS") (by decide)
  obtain ⟨r1, f1⟩ := rtrimStart_any h0 (some 60)
  obtain ⟨r2, f2⟩ := rtrimStart_any h0 (some 20)
  obtain ⟨r3, f3⟩ := rtrimStart_any (h.nul (k := 20) (by omega)) (some 20)
  obtain ⟨a, f4⟩ := obsAntenna_any h (hgA s.pos)
  obtain ⟨d, f5⟩ := char2double_any h e0
  have f6 := obsTypesResolve_any e0 h o.obst s
  have f7 := h.strtol (k := 0) (by omega)
  rw [List.drop_zero] at f7
  have f8 := hS line h0
  unfold obsHeadLine
  simp only [e1, e2, e3, e4, e5, e6, e7, e8, e9, Res.bind_ok, f1, f2, f3, f4, f5]
  cases b1
  case true => exact Sane.ok _
  cases b2
  case true => exact Sane.ok _
  cases b3
  case true => exact Sane.ok _
  cases b4
  case true => exact Sane.ok _
  simp only [Bool.false_eq_true, if_false]
  split
  · split <;> exact Sane.ok _
  · split
    · split <;> exact Sane.ok _
    · split
      · exact Sane.bind f6 (fun _ _ => Sane.ok _)
      · split
        · unfold obsClock
          rw [f7, Res.bind_ok]
          simp only
          split <;> exact Sane.ok _
        · split
          · cases hd : strptime line with
            | ok t => exact Sane.ok _
            | throw e => cases e <;> exact ⟨by simp, by simp⟩
            | terminate => exact ⟨by simp, by simp⟩
            | ub => exact absurd hd f8.1
            | diverge => exact absurd hd f8.2
          · exact Sane.ok _

theorem obsHeadLoop_any {strptime : List Char → Res DateTime} (hS : ∀ b, NUL ∈ b → Sane (strptime b)) {gAnt : Nat → List Char}
    (hgA : ∀ k, (gAnt k).length = 41) (e0 : Bool) : ∀ (left : Nat) (line : List Char) (o : ObsFileObj) (s : Stream), HeadArr line →
    Sane (obsHeadLoop strptime gAnt e0 left line o s) := by
  intro left
  induction left with
  | zero => intro line o s _; exact Sane.ok _
  | succ left ih =>
    intro line o s h
    obtain ⟨b, e⟩ := h.label (p := c!"END OF HEADER") (by decide)
    rw [obsHeadLoop, e, Res.bind_ok]
    split
    · exact Sane.ok _
    · refine Sane.bind (obsHeadLine_any hS hgA e0 (h.getline s) o _) ?_
      intro r _
      split
      · exact Sane.ok _
      · exact ih _ _ _ (h.getline s)

/-- **C60** (any file; partial).  Whatever follows a first line of 60 to 84 chars: the constructor ends
with an object, with `std::runtime_error`, or by terminating the process — no undefined behaviour, no
endless loop.  (`strptime_ymd_hms` is assumed to behave on terminated text.)  Termination is possible:
`C60_bad_system_terminates`. -/
theorem C60_open_any_partial {strptime : List Char → Res DateTime} (hS : ∀ b, NUL ∈ b → Sane (strptime b)) {gAnt : Nat → List Char}
    (hgA : ∀ k, (gAnt k).length = 41) (e0 : Bool) {g0 junk : List Char} (hg0 : g0.length = 41) (hJ : junk.length = 85)
    (buf0 : Nat → List Char) {first : List Char} (h1 : LineFits 84 first ∧ 60 ≤ first.length) (content : List Char) :
    (∃ r, obsOpen strptime gAnt e0 g0 junk buf0 (first ++ '\n' :: content) = .ok r) ∨
      obsOpen strptime gAnt e0 g0 junk buf0 (first ++ '\n' :: content) = .throw .runtime_error ∨
      obsOpen strptime gAnt e0 g0 junk buf0 (first ++ '\n' :: content) = .terminate := by
  have harr : HeadArr (fillLine junk first) := by
    refine ⟨fill_length hJ h1.1.2.2, ?_⟩
    unfold fillLine; rw [drop_line h1.2]; simp
  have key : ∀ o, Sane (obsReadHeader strptime gAnt e0 junk o ⟨first ++ '\n' :: content, 0, false, false⟩) := by
    intro o
    unfold obsReadHeader
    apply Sane.noexcept
    have hs0 : (⟨first ++ '\n' :: content, 0, false, false⟩ : Stream).seekg 0 = ⟨first ++ '\n' :: content, 0, false, false⟩ := rfl
    have hr : (⟨first ++ '\n' :: content, 0, false, false⟩ : Stream).rest = linesText [first] ++ content := by
      rw [linesText_one]; simp [Stream.rest]
    rw [hs0]
    simp only [getline_past (n := OBS_HEADER_CHARS) (s := ⟨first ++ '\n' :: content, 0, false, false⟩) rfl hr h1.1.1 h1.1.2.2]
    have hv := harr.strtod (k := 0) (by omega)
    rw [List.drop_zero] at hv
    rw [hv, Res.bind_ok]
    cases Ggnss.strtod (fillLine junk first) with
    | none => exact Sane.ok _
    | some v =>
      simp only
      rw [getAt_lt (by have := harr.1; omega : 20 < (fillLine junk first).length), Res.bind_ok]
      split
      · exact Sane.ok _
      · rw [getAt_lt (by have := harr.1; omega : 40 < (fillLine junk first).length), Res.bind_ok]
        split
        · refine Sane.bind (obsHeadLoop_any hS hgA _ 1000 _ _ _ (harr.getline _)) ?_
          intro r _
          split
          · exact Sane.ok _
          · split <;> exact Sane.ok _
        · exact Sane.ok _
  unfold obsOpen
  rw [antInit_eq g0 hg0, Res.bind_ok]
  have hk := key (obsInitial (List.replicate 20 ' ' ++ NUL :: g0.drop 21))
  have hnt : ∀ e, obsReadHeader strptime gAnt e0 junk (obsInitial (List.replicate 20 ' ' ++ NUL :: g0.drop 21))
      ⟨first ++ '\n' :: content, 0, false, false⟩ ≠ .throw e := fun e => noexcept_ne_throw _ e
  cases hres : obsReadHeader strptime gAnt e0 junk (obsInitial (List.replicate 20 ' ' ++ NUL :: g0.drop 21))
      ⟨first ++ '\n' :: content, 0, false, false⟩ with
  | ok r =>
    rw [Res.bind_ok]
    split
    · right; left; rfl
    · left; exact ⟨_, rfl⟩
  | throw e => exact absurd hres (hnt e)
  | terminate => right; right; rfl
  | ub => exact absurd hres hk.1
  | diverge => exact absurd hres hk.2

/-! ## A header up to some entry -/

/-- The rest of the constructor after the loop. -/
def obsFinish (buf0 : Nat → List Char) (x : Res (Int × Nat × ObsFileObj × Stream)) : Res (ObsFileObj × Stream × List Char) :=
  Res.noexcept (x >>= fun r =>
    if r.1 ≠ 0 then pure (r.1, r.2.2.1, r.2.2.2)
    else if r.2.1 = 0 then pure (20, r.2.2.1, r.2.2.2)
    else pure (0, { r.2.2.1 with endOfHead := r.2.2.2.tellg.1 }, r.2.2.2.tellg.2)) >>= fun r =>
  if r.1 ≠ 0 then .throw .runtime_error else pure (r.2.1, r.2.2, buf0 (obsBufSize r.2.1.obst))

/-- A well formed beginning of a header: first and second line and entries. -/
structure HeadPrefix (strptime : List Char → Res DateTime) (version : Numeral) (sys : SatSys) (first second : List Char)
    (items : List ObsItem) : Prop where
  first_ok : LineFits 84 first ∧ 60 ≤ first.length
  version_ok : NumAt first 0 version ∧ FitsFloat version.value
  kind_ok : first[20]? = some 'O'
  sys_ok : first[40]? = some (satsysToChar sys)
  second_ok : LineFits 84 second ∧ 60 ≤ second.length ∧ ¬ HasLabel second c!"END OF HEADER"
  items_ok : ∀ i ∈ items, i.Says strptime ∧ i.Supported
  once_ok : (items.filterMap ObsItem.types?).Pairwise (fun a b => a.1 ≠ b.1)
  few_ok : items.length < 990

def prefixLines (first second : List Char) (items : List ObsItem) : List (List Char) :=
  first :: second :: (items.map (·.lines)).flatten

theorem obsOpen_prefix {strptime : List Char → Res DateTime} {gAnt : Nat → List Char} (hgA : ∀ k, (gAnt k).length = 41) {g0 : List Char}
    (hg0 : g0.length = 41) (junk : List Char) (buf0 : Nat → List Char) {version : Numeral} {sys : SatSys} {first second : List Char}
    {items : List ObsItem} (h : HeadPrefix strptime version sys first second items) (t : List Char) :
    ∃ o line s k, s.good = true ∧ s.rest = t ∧ s.content = linesText (prefixLines first second items) ++ t ∧
      obsLabel line c!"END OF HEADER" = .ok false ∧ ObsTells version.value sys items o ∧
      obsOpen strptime gAnt false g0 junk buf0 (linesText (prefixLines first second items) ++ t) =
        obsFinish buf0 (obsHeadLoop strptime gAnt false (k + 10) line o s) := by
  obtain ⟨a, s, hc, hg, hr, ho, he⟩ := obsOpen_start (strptime := strptime) (gAnt := gAnt) hg0 junk buf0 h.first_ok h.version_ok h.kind_ok h.sys_ok
    ⟨h.second_ok.1, h.second_ok.2.1⟩ (items.map (·.lines)).flatten t
  have hfew := h.few_ok
  obtain ⟨k, hk⟩ : ∃ k, 1000 - items.length = k + 10 := ⟨990 - items.length, by omega⟩
  obtain ⟨o', line', e1, e2, e3⟩ := obsHeadLoop_items (strptime := strptime) (gAnt := gAnt) hgA items [] h.items_ok
    (by simpa using h.once_ok) (1000 - items.length) (fillLine (fillLine junk first) second) _ s _ ho
    (by rw [obsLabel_line h.second_ok.1.2.1 h.second_ok.2.1 (by decide), decide_eq_false h.second_ok.2.2]) hg hr
  rw [show 1000 - items.length + items.length = 1000 by omega, hk] at e1
  refine ⟨o', line', _, k, Stream.past_good _ _ hg, Stream.past_rest hr, hc, e3, by simpa using e2, ?_⟩
  unfold prefixLines
  rw [he, e1]
  rfl

/-- **C60 is false**: after any well formed beginning, a list of observation types whose system letter
is not a known one terminates the process (the exception cannot leave the `noexcept` reader); it is
not reported as `std::runtime_error`. -/
theorem C60_bad_system_terminates {strptime : List Char → Res DateTime} {gAnt : Nat → List Char} (hgA : ∀ k, (gAnt k).length = 41)
    {g0 : List Char} (hg0 : g0.length = 41) (junk : List Char) (buf0 : Nat → List Char) {version : Numeral} {sys : SatSys}
    {first second : List Char} {items : List ObsItem} (h : HeadPrefix strptime version sys first second items) {l : List Char}
    (hl : Labelled l c!"SYS / # / OBS TYPES") (hbad : ∀ q, l[0]? ≠ some (satsysToChar q)) (t : List Char) :
    obsOpen strptime gAnt false g0 junk buf0 (linesText (prefixLines first second items) ++ (l ++ '\n' :: t)) = .terminate := by
  obtain ⟨o, line, s, k, hg, hr, _, he, _, ho⟩ := obsOpen_prefix (gAnt := gAnt) hgA hg0 junk buf0 h (l ++ '\n' :: t)
  rw [ho]
  have hr' : s.rest = linesText [l] ++ t := by rw [hr, linesText_one]; simp
  have h60 := hl.2.long (by decide)
  obtain ⟨c, hc⟩ : ∃ c, l[0]? = some c := ⟨_, List.getElem?_eq_getElem (by omega)⟩
  have hthrow : charToSatsys c = .throw .runtime_error := by
    rcases C01_total c with ⟨q, _, hq⟩ | ⟨hq, _⟩
    · exfalso; apply hbad q; rw [hc, hq]
    · exact hq
  rw [show k + 10 = (k + 9) + 1 from rfl, obsHeadLoop, he, Res.bind_ok]
  simp only [Bool.false_eq_true, if_false]
  rw [getline_past (n := OBS_HEADER_CHARS) hg hr' hl.1.1 hl.1.2.2]
  simp only
  rw [headLine_types (labelsAre_labelled hl (by decide) line)]
  unfold obsTypesResolve
  rw [getAt_fill hc, Res.bind_ok, hthrow]
  rfl

/-- **C60 is false**: a list of observation types with a multiple of 13 codes, followed by any other
header line, makes the constructor throw although the file is well formed. -/
theorem C60_full_line_refused {strptime : List Char → Res DateTime} {gAnt : Nat → List Char} (hgA : ∀ k, (gAnt k).length = 41)
    {g0 : List Char} (hg0 : g0.length = 41) (junk : List Char) (buf0 : Nat → List Char) {version : Numeral} {sys : SatSys}
    {first second : List Char} {items : List ObsItem} (h : HeadPrefix strptime version sys first second items) {e : TypesEntry}
    (hsh : e.Shows) (hne : e.codes ≠ []) (h13 : e.codes.length % 13 = 0) (hnew : ∀ x ∈ items.filterMap ObsItem.types?, x.1 ≠ e.sys)
    {x : List Char} (hx : LineFits 84 x ∧ 60 ≤ x.length) (hxl : ¬ HasLabel x c!"SYS / # / OBS TYPES") (t : List Char) :
    obsOpen strptime gAnt false g0 junk buf0 (linesText (prefixLines first second items) ++ (linesText e.lines ++ (x ++ '\n' :: t))) =
      .throw .runtime_error := by
  obtain ⟨o, line, s, k, hg, hr, _, he, ht, ho⟩ := obsOpen_prefix (gAnt := gAnt) hgA hg0 junk buf0 h (linesText e.lines ++ (x ++ '\n' :: t))
  rw [ho]
  have hpos : 0 < e.codes.length := List.length_pos_iff.2 hne
  have hcnt := hsh.count
  obtain ⟨l, ls, hls⟩ : ∃ l ls, e.lines = l :: ls := by
    cases hl : e.lines with
    | nil => rw [hl] at hcnt; simp at hcnt; omega
    | cons l ls => exact ⟨l, ls, rfl⟩
  have hlab := hsh.labelled l (by rw [hls]; simp)
  have hr' := hr
  rw [hls] at hr'
  have hn : o.obst.lookup e.sys = none := by rw [ht.types]; exact lookup_none_of_keys hnew
  obtain ⟨s', hs'⟩ := C41_full_line_refused hsh h13 hne hls line hn hx hxl (s := s.past [l]) hg (rest_cons hr')
  rw [show k + 10 = (k + 9) + 1 from rfl, obsHeadLoop, he, Res.bind_ok]
  simp only [Bool.false_eq_true, if_false]
  rw [getline_past (n := OBS_HEADER_CHARS) hg hr' hlab.1.1 hlab.1.2.2]
  simp only
  rw [headLine_types (labelsAre_labelled hlab (by decide) line), hs', Res.bind_ok]
  rfl

/-- The last two passes of the loop: some line that gives `o'`, then END OF HEADER. -/
theorem obsFinish_last {strptime : List Char → Res DateTime} {gAnt : Nat → List Char} {buf0 : Nat → List Char} {k : Nat} {line : List Char}
    {o o' : ObsFileObj} {s : Stream} {l last t : List Char} (he : obsLabel line c!"END OF HEADER" = .ok false) (hg : s.good = true)
    (hr : s.rest = linesText [l, last] ++ t) (hl : LineFits 84 l) (he' : obsLabel (fillLine line l) c!"END OF HEADER" = .ok false)
    (hb : obsHeadLine strptime gAnt false (fillLine line l) o (s.past [l]) = .ok (0, o', s.past [l]))
    (hL : Labelled last c!"END OF HEADER") :
    ∃ e, obsFinish buf0 (obsHeadLoop strptime gAnt false (k + 3) line o s) =
      .ok ({ o' with endOfHead := some e }, s.past [l, last], buf0 (obsBufSize o'.obst)) := by
  have h60 := hL.2.long (by decide)
  have hr1 : (s.past [l]).rest = linesText [last] ++ t := rest_cons hr
  refine ⟨(s.past [l, last]).pos, ?_⟩
  have hrun : obsHeadLoop strptime gAnt false (k + 3) line o s = .ok (0, k + 1, o', s.past [l, last]) := by
    rw [show k + 3 = (k + 2) + 1 from rfl, obsHeadLoop, he, Res.bind_ok]
    simp only [Bool.false_eq_true, if_false]
    rw [getline_past (n := OBS_HEADER_CHARS) hg hr hl.1 hl.2.2]
    simp only [hb, Res.bind_ok, ne_eq, not_true_eq_false, if_false]
    rw [show k + 2 = (k + 1) + 1 from rfl, obsHeadLoop, he', Res.bind_ok]
    simp only [Bool.false_eq_true, if_false]
    rw [getline_past (n := OBS_HEADER_CHARS) (Stream.past_good _ _ hg) hr1 hL.1.1 hL.1.2.2]
    simp only
    rw [headLine_other (labelsAre_labelled hL (by decide) (fillLine line l)) (fun q _ hq => hq), Res.bind_ok]
    simp only [ne_eq, not_true_eq_false, if_false]
    rw [obsHeadLoop, obsLabel_line hL.1.2.1 (Nat.le_of_lt h60) (by decide), decide_eq_true hL.2, Res.bind_ok, if_pos rfl, Stream.past_past]
    rfl
  unfold obsFinish
  rw [hrun]
  have hgf : (s.past [l, last]).good = true := hg
  simp only [Res.bind_ok, ne_eq, not_true_eq_false, if_false, Nat.add_eq_zero_iff, Nat.one_ne_zero, and_false, tellg_good hgf, Res.pure_eq,
    Res.noexcept_ok]

/-- **C60 is false**: the radome of the antenna line is lost — whatever it is, the object's antenna
has radome NONE. -/
theorem C60_radome_lost {strptime : List Char → Res DateTime} {gAnt : Nat → List Char} (hgA : ∀ k, (gAnt k).length = 41)
    {g0 : List Char} (hg0 : g0.length = 41) (junk : List Char) (buf0 : Nat → List Char) {version : Numeral} {sys : SatSys}
    {first second : List Char} {items : List ObsItem} (h : HeadPrefix strptime version sys first second items) {l model radome last : List Char}
    (hl : (ObsItem.antenna l model radome).Says strptime) (hL : Labelled last c!"END OF HEADER") (t : List Char) :
    ∃ o s b, obsOpen strptime gAnt false g0 junk buf0 (linesText (prefixLines first second items) ++ (linesText [l, last] ++ t)) = .ok (o, s, b) ∧
      antText o.antenna = .ok (antennaText (some (model, c!"NONE", colsAt l 0 20))) := by
  obtain ⟨o, line, s, k, hg, hr, _, he, ht, ho⟩ := obsOpen_prefix (gAnt := gAnt) hgA hg0 junk buf0 h (linesText [l, last] ++ t)
  have h60 := hl.1.2.long (by decide)
  obtain ⟨a, h1, _, h2⟩ := obsAntenna_cols hl.1.1 h60 hl.2.1 hl.2.2.2.1 (hgA (s.past [l]).pos) line
  obtain ⟨e, hf⟩ := obsFinish_last (strptime := strptime) (gAnt := gAnt) (buf0 := buf0) (k := k + 7) (o := o) (o' := { o with antenna := a }) he hg hr hl.1.1
    (by rw [obsLabel_line hl.1.1.2.1 (Nat.le_of_lt h60) (by decide), decide_eq_false (hl.1.2.excl (by decide) (by decide))])
    (by rw [headLine_antenna (labelsAre_labelled hl.1 (by decide) line), h1]; rfl) hL
  exact ⟨_, _, _, by rw [ho]; exact hf, h2⟩

/-- **C60 is false**: a marker name is cut at its first blank. -/
theorem C60_name_cut {strptime : List Char → Res DateTime} {gAnt : Nat → List Char} (hgA : ∀ k, (gAnt k).length = 41)
    {g0 : List Char} (hg0 : g0.length = 41) (junk : List Char) (buf0 : Nat → List Char) {version : Numeral} {sys : SatSys}
    {first second : List Char} {items : List ObsItem} (h : HeadPrefix strptime version sys first second items) {l last word more : List Char}
    (hl : Labelled l c!"MARKER NAME") (hw : colsAt l 0 60 = word ++ ' ' :: more) (hb : ' ' ∉ word) (hL : Labelled last c!"END OF HEADER")
    (t : List Char) :
    ∃ o s b, obsOpen strptime gAnt false g0 junk buf0 (linesText (prefixLines first second items) ++ (linesText [l, last] ++ t)) = .ok (o, s, b) ∧
      o.markerName = word := by
  obtain ⟨o, line, s, k, hg, hr, _, he, ht, ho⟩ := obsOpen_prefix (gAnt := gAnt) hgA hg0 junk buf0 h (linesText [l, last] ++ t)
  have h60 := hl.2.long (by decide)
  obtain ⟨w, h1, h2⟩ := C07_rtrim_default l (line.drop (l.length + 1)) hl.1.2.1 (some 60)
  have hww : w = word := by
    obtain ⟨ha, hc⟩ := h2
    have e : considered l (some 60) = word ++ ' ' :: more := by rw [← hw]; simp [considered, colsAt]
    rw [e] at hc
    rcases hc with hc | ⟨u, hc⟩
    · exfalso; apply ha; rw [← hc]; simp
    · exact firstWord_split w word u more ha hb hc
  obtain ⟨e, hf⟩ := obsFinish_last (strptime := strptime) (gAnt := gAnt) (buf0 := buf0) (k := k + 7) (o := o) (o' := { o with markerName := word }) he hg hr hl.1
    (by rw [obsLabel_line hl.1.2.1 (Nat.le_of_lt h60) (by decide), decide_eq_false (hl.2.excl (by decide) (by decide))])
    (by rw [headLine_marker (labelsAre_labelled hl (by decide) line)]; unfold fillLine; rw [h1, hww]; rfl) hL
  exact ⟨_, _, _, by rw [ho]; exact hf, rfl⟩

/-- **C60 is false**: a header line too short to have a label is taken for another one of the kind read
before it.  Here a short line after MARKER NAME becomes the marker name. -/
theorem C60_short_line_reinterpreted {strptime : List Char → Res DateTime} {gAnt : Nat → List Char} (hgA : ∀ k, (gAnt k).length = 41)
    {g0 : List Char} (hg0 : g0.length = 41) (junk : List Char) (buf0 : Nat → List Char) {version : Numeral} {sys : SatSys}
    {first second : List Char} {items : List ObsItem} {l name : List Char}
    (h : HeadPrefix strptime version sys first second (items ++ [.marker l name])) {x last : List Char}
    (hx : LineFits 84 x ∧ x.length < 60 ∧ ' ' ∉ x) (hL : Labelled last c!"END OF HEADER") (t : List Char) :
    ∃ o s b, obsOpen strptime gAnt false g0 junk buf0
        (linesText (prefixLines first second (items ++ [.marker l name])) ++ (linesText [x, last] ++ t)) = .ok (o, s, b) ∧
      o.markerName = x := by
  have hsays := (h.items_ok (.marker l name) (by simp)).1
  have hpre : HeadPrefix strptime version sys first second items :=
    ⟨h.first_ok, h.version_ok, h.kind_ok, h.sys_ok, h.second_ok, fun i hi => h.items_ok i (by simp [hi]), by
      have := h.once_ok; rw [List.filterMap_append, List.pairwise_append] at this; exact this.1, by have := h.few_ok; simp at this; omega⟩
  have hct : linesText (prefixLines first second (items ++ [.marker l name])) ++ (linesText [x, last] ++ t) =
      linesText (prefixLines first second items) ++ (linesText [l] ++ (linesText [x, last] ++ t)) := by
    unfold prefixLines
    simp [linesText, ObsItem.lines]
  rw [hct]
  obtain ⟨o, line, s, k, hg, hr, _, he, ht, ho⟩ := obsOpen_prefix (gAnt := gAnt) hgA hg0 junk buf0 hpre (linesText [l] ++ (linesText [x, last] ++ t))
  obtain ⟨o1, line1, e1, e2, e3, _, e5⟩ := obsHeadLoop_item hgA hsays (h.items_ok (.marker l name) (by simp)).2 ht
    (by intro e hce; cases hce) (k + 9) he hg hr
  rw [ho, show k + 10 = (k + 9) + 1 from rfl, e1]
  have hl1 := e5 l rfl
  subst hl1
  have h60 := hsays.1.2.long (by decide)
  have hdrop : (fillLine (fillLine line l) x).drop 60 = (fillLine line l).drop 60 := by
    rw [show fillLine (fillLine line l) x = x ++ NUL :: (fillLine line l).drop (x.length + 1) from rfl]
    rw [List.drop_append, List.drop_eq_nil_of_le (by omega)]
    obtain ⟨j, hj⟩ : ∃ j, 60 - x.length = j + 1 := ⟨60 - x.length - 1, by omega⟩
    rw [hj, List.drop_succ_cons, List.nil_append, List.drop_drop]
    congr 1; omega
  have hlab : LabelsAre (fillLine (fillLine line l) x) (· = c!"MARKER NAME") := by
    have := labelsAre_labelled hsays.1 (by decide) line
    intro q hq
    unfold obsLabel
    rw [hdrop]
    exact this q hq
  have hword : rtrimStart (fillLine (fillLine line l) x) (some 60) = .ok (x, x.length) := by
    obtain ⟨w, h1, h2⟩ := C07_rtrim_default x ((fillLine line l).drop (x.length + 1)) hx.1.2.1 (some 60)
    have : w = x := word_unique h2 ⟨hx.2.2, 0, by simp [considered]; omega⟩
    rw [this] at h1
    exact h1
  obtain ⟨e, hf⟩ := obsFinish_last (strptime := strptime) (gAnt := gAnt) (buf0 := buf0) (k := k + 6) (o := o1) (o' := { o1 with markerName := x }) e3
    (s := s.past (ObsItem.marker l name).lines) hg (Stream.past_rest hr) hx.1
    ((hlab c!"END OF HEADER" (by decide)).2 (by decide))
    (by rw [headLine_marker hlab, hword]; rfl) hL
  exact ⟨_, _, _, hf, rfl⟩

/-- **C60 is false**: a file that ends after a list of observation types, without END OF HEADER, does
not lead to `std::runtime_error`: the process is terminated (the label of the last line is still in
the array, its first char is now the terminator). -/
theorem C60_truncated_terminates {strptime : List Char → Res DateTime} {gAnt : Nat → List Char} (hgA : ∀ k, (gAnt k).length = 41)
    {g0 : List Char} (hg0 : g0.length = 41) (junk : List Char) (buf0 : Nat → List Char) {version : Numeral} {sys : SatSys}
    {first second : List Char} {items : List ObsItem} {e : TypesEntry}
    (h : HeadPrefix strptime version sys first second (items ++ [.types e])) (h1 : e.codes.length < 13) :
    obsOpen strptime gAnt false g0 junk buf0 (linesText (prefixLines first second (items ++ [.types e]))) = .terminate := by
  obtain ⟨hsh, hne⟩ := (h.items_ok (.types e) (by simp)).1
  have hpre : HeadPrefix strptime version sys first second items :=
    ⟨h.first_ok, h.version_ok, h.kind_ok, h.sys_ok, h.second_ok, fun i hi => h.items_ok i (by simp [hi]), by
      have := h.once_ok; rw [List.filterMap_append, List.pairwise_append] at this; exact this.1, by have := h.few_ok; simp at this; omega⟩
  have hpos : 0 < e.codes.length := List.length_pos_iff.2 hne
  obtain ⟨l, hls⟩ : ∃ l, e.lines = [l] := by
    have hcnt := hsh.count
    rw [show (e.codes.length + 12) / 13 = 1 by omega] at hcnt
    exact List.length_eq_one_iff.1 hcnt
  have hct : linesText (prefixLines first second (items ++ [.types e])) = linesText (prefixLines first second items) ++ (linesText [l] ++ []) := by
    unfold prefixLines
    simp [linesText, ObsItem.lines, hls]
  rw [hct]
  obtain ⟨o, line, s, k, hg, hr, _, he, ht, ho⟩ := obsOpen_prefix (gAnt := gAnt) hgA hg0 junk buf0 hpre (linesText [l] ++ [])
  have hr' : s.rest = linesText (ObsItem.types e).lines ++ [] := by
    rw [hr, show (ObsItem.types e).lines = [l] from hls]
  obtain ⟨o1, line1, e1, e2, e3, _, e5⟩ := obsHeadLoop_item hgA (h.items_ok (.types e) (by simp)).1 (h.items_ok (.types e) (by simp)).2 ht
    (by
      intro x hx
      have := h.once_ok
      rw [List.filterMap_append, List.pairwise_append] at this
      apply lookup_none_of_keys
      intro y hy
      exact this.2.2 y hy x (by simp [hx])) (k + 9) he hg hr'
  rw [ho, show k + 10 = (k + 9) + 1 from rfl, e1]
  have hl1 := e5 l hls
  subst hl1
  have hlab := hsh.labelled l (by rw [hls]; simp)
  have hdrop : (fillLine (fillLine line l) []).drop 60 = (fillLine line l).drop 60 := by
    simp [fillLine]
  have hlab2 : LabelsAre (fillLine (fillLine line l) []) (· = c!"SYS / # / OBS TYPES") := by
    have := labelsAre_labelled hlab (by decide) line
    intro q hq
    unfold obsLabel
    rw [hdrop]
    exact this q hq
  have hgl : (s.past (ObsItem.types e).lines).getline OBS_HEADER_CHARS = ([], { (s.past (ObsItem.types e).lines) with eof := true, fail := true }) := by
    have hrr := Stream.past_rest hr'
    unfold Stream.getline
    rw [if_pos (Stream.past_good _ _ hg), hrr]; simp
  rw [show k + 9 = (k + 8) + 1 from rfl, obsHeadLoop, e3, Res.bind_ok]
  simp only [Bool.false_eq_true, if_false]
  rw [hgl]
  simp only
  rw [headLine_types hlab2]
  unfold obsTypesResolve
  have h0 : getAt (fillLine (fillLine line l) []) 0 = .ok NUL := rfl
  rw [h0, Res.bind_ok]
  rfl

end Ggnss
