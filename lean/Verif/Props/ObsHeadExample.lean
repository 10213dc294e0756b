import Verif.Props.ObsWhole
import Verif.Props.ObsHeadAny
import Verif.Props.ObsExample
import Mathlib.Tactic.IntervalCases
/-!
# A concrete observation file with its header: the hypotheses of C41, C58 and C60 are met
-/
namespace Ggnss.ObsHeadEx
open ObsEx (C1C L1C C2W L2W cols)

/-- 60 columns of text, then the label. -/
def lab (t label : List Char) : List Char := padTo 60 t ++ label

/-- The date parser, as far as the example needs it: the year of the line. -/
def years (l : List Char) : Res DateTime :=
  if l.take 6 = c!"  2019" then .ok ⟨58484, 0⟩ else .throw .invalid_argument

theorem years_line {l : List Char} (h : l.take 6 = c!"  2019") (h6 : 6 ≤ l.length) (junk : List Char) : years (l ++ NUL :: junk) = .ok ⟨58484, 0⟩ := by
  unfold years
  rw [List.take_append_of_le_length h6, if_pos h]

def eG : TypesEntry := ⟨.gps, [C1C, L1C, C2W, L2W], [lab c!"G    4 C1C L1C C2W L2W" c!"SYS / # / OBS TYPES"]⟩
def eE : TypesEntry := ⟨.galileo, [C1C, L1C], [lab c!"E    2 C1C L1C" c!"SYS / # / OBS TYPES"]⟩

def lMark : List Char := lab c!"NICO" c!"MARKER NAME"
def lNo : List Char := lab c!"14302M001" c!"MARKER NUMBER"
def lRec : List Char := lab c!"1830139             LEICA               4.30/7.403" c!"REC # / TYPE / VERS"
def lAnt : List Char := lab c!"726261              LEIAR25.R4      NONE" c!"ANT # / TYPE"
def lPos : List Char := lab c!"  4359415.6903  2874117.0875  3650777.8295" c!"APPROX POSITION XYZ"
def lDel : List Char := lab c!"        0.0000        0.0000        0.0000" c!"ANTENNA: DELTA H/E/N"
def lClk : List Char := lab c!"     0" c!"RCV CLOCK OFFS APPL"
def lFst : List Char := lab c!"  2019     1     1     0     0    0.0000000     GPS" c!"TIME OF FIRST OBS"
def lOth : List Char := lab c!"    30.000" c!"INTERVAL"

def num (b : Nat) (ip frac : List Char) : Numeral := ⟨b, none, ip, some frac, none⟩

def px : Numeral := num 2 c!"4359415" c!"6903"
def py : Numeral := num 2 c!"2874117" c!"0875"
def pz : Numeral := num 2 c!"3650777" c!"8295"
def dz : Numeral := num 8 c!"0" c!"0000"

def items : List ObsItem := [.marker lMark c!"NICO", .markerNo lNo c!"14302M001", .receiver lRec c!"1830139" c!"LEICA", .antenna lAnt c!"LEIAR25.R4" c!"NONE",
  .position lPos px py pz, .delta lDel dz dz dz, .types eG, .types eE, .other lOth, .clock lClk false, .firstObs lFst ⟨58484, 0⟩]

def first : List Char := padTo 60 c!"     3.04           OBSERVATION DATA    M" ++ c!"RINEX VERSION / TYPE"
def second : List Char := lab c!"ggnss" c!"PGM / RUN BY / DATE"
def version : Numeral := num 5 c!"3" c!"04"

def header : ObsHeader := ⟨version, .mixed, first, second, items, lab [] c!"END OF HEADER"⟩

theorem num_wf {b : Nat} {ip frac : List Char} (h1 : allDigits ip) (h2 : allDigits frac) (h3 : ip ≠ [])
    (h4 : ip.length ≤ 100 ∧ frac.length ≤ 100 := by decide) : (num b ip frac).WF :=
  numeral_wf_of h1 h2 (Or.inl h3) (by intro s ds h; cases h) h4.1 h4.2 (by intro s ds h; cases h)

theorem word {txt w : List Char} (k : Nat) (h : ' ' ∉ w) (e : txt = w ++ List.replicate k ' ') : WordCols txt w := ⟨h, k, e⟩

theorem three {l : List Char} {x y z : Numeral} (hl : l.take (x.text ++ (y.text ++ z.text)).length = x.text ++ (y.text ++ z.text))
    (hs : stopsNumber (l.drop (x.text ++ (y.text ++ z.text)).length)) (hw : ∀ n ∈ [x, y, z], n.WF ∧ n.text.length = 14 ∧ (0 < n.blanks ∨ n.sign ≠ none)) :
    ThreeNumbers l x y z := by
  refine ⟨_, ?_, hs, hw⟩
  conv_lhs => rw [← List.take_append_drop (x.text ++ (y.text ++ z.text)).length l, hl]
  simp

/-- Entries of one line. -/
theorem one_line {e : TypesEntry} {l : List Char} (hl : e.lines = [l]) (hlab : Labelled l c!"SYS / # / OBS TYPES")
    (h0 : l[0]? = some (satsysToChar e.sys)) (hn : IntCols 3 (colsAt l 3 3) e.codes.length) (h6 : l[6]? = some ' ') (hc : ∀ c ∈ e.codes, CodeOK c)
    (hlen : 1 ≤ e.codes.length ∧ e.codes.length ≤ 13)
    (hs : ∀ i < e.codes.length, ∀ c, e.codes[i]? = some c → colsAt l (7 + 4 * i) 3 = c.toStr) : e.Shows := by
  refine ⟨?_, ?_, ?_, ?_, hc, ?_⟩
  · rw [hl]; simp; omega
  · intro x hx; rw [hl] at hx; simp at hx; rw [hx]; exact hlab
  · intro x hx; rw [hl] at hx; simp at hx; rw [← hx]; exact h0
  · intro x hx; rw [hl] at hx; simp at hx; rw [← hx]; exact ⟨hn, h6⟩
  · intro i c hi
    have hi' : i < e.codes.length := (List.getElem?_eq_some_iff.1 hi).1
    refine ⟨l, by rw [hl, show i / 13 = 0 by omega]; rfl, ?_⟩
    rw [show i % 13 = i by omega]
    exact hs i hi' c hi

theorem code_ok {c : ObsCode} (h : c.type ≠ .any ∧ (0 ≤ c.band ∧ c.band ≤ 9) ∧ c.attr ≠ ' ') : CodeOK c := ⟨h.1, h.2.1, h.2.2⟩

set_option maxRecDepth 20000 in
theorem eG_shows : eG.Shows :=
  one_line (l := lab c!"G    4 C1C L1C C2W L2W" c!"SYS / # / OBS TYPES") rfl (by decide) (by decide)
    (cols (k := 2) (ds := c!"4") (by decide)) (by decide)
    (by intro c hc; apply code_ok; revert c; decide) (by decide) (by intro i hi; change i < 4 at hi; interval_cases i <;> (intro c hc; cases hc; decide))

set_option maxRecDepth 20000 in
theorem eE_shows : eE.Shows :=
  one_line (l := lab c!"E    2 C1C L1C" c!"SYS / # / OBS TYPES") rfl (by decide) (by decide)
    (cols (k := 2) (ds := c!"2") (by decide)) (by decide)
    (by intro c hc; apply code_ok; revert c; decide) (by decide) (by intro i hi; change i < 2 at hi; interval_cases i <;> (intro c hc; cases hc; decide))

set_option maxRecDepth 20000 in
theorem items_says : ∀ i ∈ items, i.Says years := by
  intro i hi
  simp only [items, List.mem_cons, List.not_mem_nil, or_false] at hi
  rcases hi with rfl | rfl | rfl | rfl | rfl | rfl | rfl | rfl | rfl | rfl | rfl
  · exact ⟨by decide, word 56 (by decide) (by decide)⟩
  · exact ⟨by decide, word 11 (by decide) (by decide)⟩
  · exact ⟨by decide, word 13 (by decide) (by decide), word 15 (by decide) (by decide)⟩
  · exact ⟨by decide, word 6 (by decide) (by decide), by decide, by decide, by decide⟩
  · refine ⟨by decide, three (by decide) (by intro c hc; revert c; decide) ?_⟩
    intro n hn
    simp only [List.mem_cons, List.not_mem_nil, or_false] at hn
    rcases hn with rfl | rfl | rfl <;> exact ⟨num_wf (by decide) (by decide) (by decide), by decide, by decide⟩
  · refine ⟨by decide, three (by decide) (by intro c hc; revert c; decide) ?_⟩
    intro n hn
    simp only [List.mem_cons, List.not_mem_nil, or_false] at hn
    rcases hn with rfl | rfl | rfl <;> exact ⟨num_wf (by decide) (by decide) (by decide), by decide, by decide⟩
  · exact ⟨eG_shows, by decide⟩
  · exact ⟨eE_shows, by decide⟩
  · exact ⟨by decide, by decide, by decide⟩
  · exact ⟨by decide, cols (k := 5) (ds := c!"0") (by decide), by decide⟩
  · exact ⟨by decide, years_line (by decide) (by decide)⟩

theorem items_supported : ∀ i ∈ items, i.Supported := by
  intro i hi
  simp only [items, List.mem_cons, List.not_mem_nil, or_false] at hi
  rcases hi with rfl | rfl | rfl | rfl | rfl | rfl | rfl | rfl | rfl | rfl | rfl <;>
    exact ⟨by intro t ht; cases ht <;> decide, by intro t ht; cases ht <;> rfl⟩

theorem version_value : version.value = 304 / 100 := by
  simp only [Numeral.value, version, num, signVal, Numeral.fracDigits, Option.getD_some, Numeral.expVal]
  rw [digVal_eq _ (by decide), digVal_eq _ (by decide), show Nat.ofDigitChars 10 c!"3" 0 = 3 by decide,
    show Nat.ofDigitChars 10 c!"04" 0 = 4 by decide]
  norm_num

theorem version_fits : FitsFloat version.value := by
  rw [version_value]
  right
  rw [abs_of_pos (by norm_num)]
  constructor <;> norm_num

set_option maxRecDepth 20000 in
theorem header_wf : header.WF years where
  first := by decide
  version := ⟨numCheck_sound (by decide), version_fits⟩
  kind := by decide
  sys := by decide
  second := by decide
  wf := items_says
  once := by decide
  few := by decide
  last := by decide

/-- C60 applies; the types are those of the header. -/
example : items.filterMap ObsItem.types? = ObsEx.obst := rfl

/-- C58 applies to the whole file: header, twice the epoch of `ObsEx`. -/
theorem whole_file (gAnt : Nat → List Char) (hgA : ∀ k, (gAnt k).length = 41) (g0 : List Char) (hg0 : g0.length = 41) (junk : List Char)
    (buf0 : Nat → List Char) (hbuf : ∀ n, (buf0 n).length = n) (raw0 : RawRnxObs) :
    ∃ o s buf, obsOpen years gAnt false g0 junk buf0 (linesText header.lines ++ ([ObsEx.block, ObsEx.block].map ObsEpochBlock.text).flatten) = .ok (o, s, buf) ∧
      ObsTells header.version.value .mixed items o ∧ setReadMap o.obst ObsEx.req false = .ok (ObsEx.mmap, ObsEx.req) ∧
      (∀ k, ∃ rs ov' s', obsReadEpochs ObsEx.mjdOf raw0 ObsEx.mmap (2 + k) (initEpochVector ObsEx.mmap) buf s 0 =
          .ok (rs ++ List.replicate k (-1, 0, none, ov'), s') ∧
        EpochResults (initEpochVector ObsEx.mmap) [(ObsEx.hd, [ObsEx.outG05, ObsEx.outG12]), (ObsEx.hd, [ObsEx.outG05, ObsEx.outG12])] rs ov' ∧ obsRewind o s' = s) := by
  have hm : MapFor ObsEx.obst ObsEx.req ObsEx.mmap := by
    obtain ⟨m, e1, e2⟩ := C38_all_present ObsEx.obst ObsEx.req false ObsEx.req_present.1 ObsEx.req_present.2
    have : setReadMap ObsEx.obst ObsEx.req false = .ok (ObsEx.mmap, ObsEx.req) := by rfl
    rw [this] at e1
    simp at e1
    rw [e1]; exact e2
  exact C58_file_partial (h := header) hgA hg0 junk hbuf header_wf items_supported (req := ObsEx.req) ObsEx.req_present.1 ObsEx.req_present.2 hm
    (types := (.gps, [C1C, L1C, C2W, L2W])) rfl (mjdOf := ObsEx.mjdOf) (bs := [ObsEx.block, ObsEx.block])
    (exp := [(ObsEx.hd, [ObsEx.outG05, ObsEx.outG12]), (ObsEx.hd, [ObsEx.outG05, ObsEx.outG12])])
    (.cons ObsEx.block_says (.cons ObsEx.block_says .nil)) (by decide) raw0 false

/-! ### Names with blanks, an antenna with a radome -/

def lMark2 : List Char := lab c!"NICO station" c!"MARKER NAME"
def lRec2 : List Char := lab c!"1830139             LEICA GR25          4.30/7.403" c!"REC # / TYPE / VERS"
def lAnt2 : List Char := lab c!"726261              LEIAR25.R4      LEIT" c!"ANT # / TYPE"

def items2 : List ObsItem := [.marker lMark2 c!"NICO", .receiver lRec2 c!"1830139" c!"LEICA", .antenna lAnt2 c!"LEIAR25.R4" [], .types eG, .types eE]
def header2 : ObsHeader := ⟨version, .mixed, first, second, items2, lab [] c!"END OF HEADER"⟩

set_option maxRecDepth 20000 in
theorem header2_seen : header2.Seen years where
  first := header_wf.first
  version := header_wf.version
  kind := header_wf.kind
  sys := header_wf.sys
  second := header_wf.second
  wf := by
    intro i hi
    simp only [header2, items2, List.mem_cons, List.not_mem_nil, or_false] at hi
    rcases hi with rfl | rfl | rfl | rfl | rfl
    · exact ⟨by decide, by decide, Or.inr ⟨c!"station" ++ List.replicate 48 ' ', by decide⟩⟩
    · exact ⟨by decide, ⟨by decide, Or.inr ⟨List.replicate 12 ' ', by decide⟩⟩, ⟨by decide, Or.inr ⟨c!"GR25" ++ List.replicate 10 ' ', by decide⟩⟩⟩
    · exact ⟨by decide, by decide, Or.inr ⟨c!"     LEIT", by decide⟩⟩
    · exact ⟨eG_shows, by decide⟩
    · exact ⟨eE_shows, by decide⟩
  once := by decide
  few := by decide
  last := by decide

/-- `C60_open_exact_partial` and `C58_file_exact_partial` apply: the marker is `NICO`, the receiver type
`LEICA`, the radome `NONE`; the second epoch has an LLI digit and a cut field. -/
theorem whole_file2 (gAnt : Nat → List Char) (hgA : ∀ k, (gAnt k).length = 41) (g0 : List Char) (hg0 : g0.length = 41) (junk : List Char)
    (buf0 : Nat → List Char) (hbuf : ∀ n, (buf0 n).length = n) (raw0 : RawRnxObs) :
    ∃ o s buf, obsOpen years gAnt false g0 junk buf0 (linesText header2.lines ++ ([ObsEx.block, ObsEx.block07].map ObsEpochBlock.text).flatten) = .ok (o, s, buf) ∧
      o.markerName = c!"NICO" ∧ o.recType = c!"LEICA" ∧ antText o.antenna = .ok c!"LEIAR25.R4      NONE726261              " ∧
      (∀ k, ∃ rs ov' s', obsReadEpochs ObsEx.mjdOf raw0 ObsEx.mmap (2 + k) (initEpochVector ObsEx.mmap) buf s 0 =
          .ok (rs ++ List.replicate k (-1, 0, none, ov'), s') ∧
        EpochResults (initEpochVector ObsEx.mmap) [(ObsEx.hd, [ObsEx.outG05, ObsEx.outG12]), (⟨58484, 1800, 0, 2, none⟩, [ObsEx.outG07])] rs ov' ∧
        obsRewind o s' = s) := by
  have hm : MapFor ObsEx.obst ObsEx.req ObsEx.mmap := by
    obtain ⟨m, e1, e2⟩ := C38_all_present ObsEx.obst ObsEx.req false ObsEx.req_present.1 ObsEx.req_present.2
    have : setReadMap ObsEx.obst ObsEx.req false = .ok (ObsEx.mmap, ObsEx.req) := by rfl
    rw [this] at e1
    simp at e1
    rw [e1]; exact e2
  obtain ⟨o, s, buf, h1, h2, _, h4⟩ := C58_file_exact_partial (h := header2) hgA hg0 junk hbuf header2_seen (by decide) (req := ObsEx.req)
    ObsEx.req_present.1 ObsEx.req_present.2 hm (types := (.gps, [C1C, L1C, C2W, L2W])) rfl (mjdOf := ObsEx.mjdOf) (bs := [ObsEx.block, ObsEx.block07])
    (exp := [(ObsEx.hd, [ObsEx.outG05, ObsEx.outG12]), (⟨58484, 1800, 0, 2, none⟩, [ObsEx.outG07])])
    (.cons ObsEx.block_says.sees (.cons ObsEx.block07_sees .nil)) (by decide) raw0 false
  refine ⟨o, s, buf, h1, h2.marker, ?_, ?_, h4⟩
  · have := h2.receiver
    exact congrArg Prod.snd this
  · rw [h2.antenna]; decide

/-- The prefix of the header before the lists of observation types. -/
theorem prefix_ok (n : Nat) : HeadPrefix years version .mixed first second (items.take n) where
  first_ok := header_wf.first
  version_ok := header_wf.version
  kind_ok := header_wf.kind
  sys_ok := header_wf.sys
  second_ok := header_wf.second
  items_ok := fun i hi => ⟨items_says i (List.mem_of_mem_take hi), items_supported i (List.mem_of_mem_take hi)⟩
  once_ok := by
    refine List.Pairwise.sublist ?_ header_wf.once
    exact (List.take_sublist n items).filterMap _
  few_ok := by
    have : (items.take n).length ≤ items.length := by simp
    have h : items.length = 11 := rfl
    omega

/-- 13 types: the line is full. -/
def C (b : Int) (a : Char) : ObsCode := ⟨.pseudorange, b, a⟩
def lFull : List Char := lab c!"G   13 C1A C1B C1C C1D C1E C1F C1G C1H C1I C1J C1K C1L C1M" c!"SYS / # / OBS TYPES"
def eFull : TypesEntry := ⟨.gps, [C 1 'A', C 1 'B', C 1 'C', C 1 'D', C 1 'E', C 1 'F', C 1 'G', C 1 'H', C 1 'I', C 1 'J', C 1 'K', C 1 'L', C 1 'M'], [lFull]⟩

set_option maxRecDepth 20000 in
theorem eFull_shows : eFull.Shows :=
  one_line (l := lFull) rfl (by decide) (by decide)
    (cols (k := 1) (ds := c!"13") (by decide)) (by decide)
    (by intro c hc; apply code_ok; revert c; decide) (by decide) (by intro i hi; change i < 13 at hi; interval_cases i <;> (intro c hc; cases hc; decide))

section
variable (gAnt : Nat → List Char) (hgA : ∀ k, (gAnt k).length = 41) (g0 : List Char) (hg0 : g0.length = 41) (junk : List Char) (buf0 : Nat → List Char) (t : List Char)
include hgA hg0

set_option maxRecDepth 20000 in
example : obsOpen years gAnt false g0 junk buf0 (linesText (prefixLines first second (items.take 6)) ++ (linesText eFull.lines ++ (lOth ++ '\n' :: t))) = .throw .runtime_error :=
  C60_full_line_refused hgA hg0 junk buf0 (prefix_ok 6) eFull_shows (by decide) rfl (by decide) (by decide) (by decide) t

set_option maxRecDepth 20000 in
example : obsOpen years gAnt false g0 junk buf0 (linesText (prefixLines first second (items.take 6)) ++
    (lab c!"X    2 C1C L1C" c!"SYS / # / OBS TYPES" ++ '\n' :: t)) = .terminate :=
  C60_bad_system_terminates hgA hg0 junk buf0 (prefix_ok 6) (by decide) (by intro q; cases q <;> decide) t

set_option maxRecDepth 20000 in
example : ∃ o s b, obsOpen years gAnt false g0 junk buf0 (linesText (prefixLines first second (items.take 6)) ++
    (linesText [lab c!"726261              LEIAR25.R4      LEIT" c!"ANT # / TYPE", header.last] ++ t)) = .ok (o, s, b) ∧
    antText o.antenna = .ok (c!"LEIAR25.R4      NONE726261" ++ List.replicate 14 ' ') :=
  C60_radome_lost hgA hg0 junk buf0 (prefix_ok 6) (model := c!"LEIAR25.R4") (radome := c!"LEIT")
    ⟨by decide, word 6 (by decide) (by decide), by decide, by decide, by decide⟩ (by decide) t

set_option maxRecDepth 20000 in
example : ∃ o s b, obsOpen years gAnt false g0 junk buf0 (linesText (prefixLines first second (items.take 6)) ++
    (linesText [lab c!"MOUNT OLYMPUS" c!"MARKER NAME", header.last] ++ t)) = .ok (o, s, b) ∧ o.markerName = c!"MOUNT" :=
  C60_name_cut hgA hg0 junk buf0 (prefix_ok 6) (more := c!"OLYMPUS" ++ List.replicate 47 ' ') (by decide) (by decide) (by decide) (by decide) t

set_option maxRecDepth 20000 in
example : ∃ o s b, obsOpen years gAnt false g0 junk buf0 (linesText (prefixLines first second ([] ++ [.marker lMark c!"NICO"])) ++
    (linesText [c!"comment", header.last] ++ t)) = .ok (o, s, b) ∧ o.markerName = c!"comment" :=
  C60_short_line_reinterpreted hgA hg0 junk buf0 (items := []) (prefix_ok 1) (by decide) (by decide) t

example : obsOpen years gAnt false g0 junk buf0 (linesText (prefixLines first second (items.take 6 ++ [.types eG]))) = .terminate :=
  C60_truncated_terminates hgA hg0 junk buf0 (items := items.take 6) (prefix_ok 7) (by decide)

/-- C41: two entries, and one followed by another line. -/
example (s : Stream) (hg : s.good = true) (hr : s.rest = t) : ∃ obst' s', obsTypesResolve false (fillLine junk (lab c!"G    4 C1C L1C C2W L2W" c!"SYS / # / OBS TYPES")) [] s =
    .ok (0, obst', s') ∧ s'.good = true ∧ s'.rest = t ∧ eG.lines.length = (eG.codes.length + 12) / 13 ∧
      ∀ q, obst'.lookup q = if q = eG.sys then some eG.codes else List.lookup q ([] : ObsTypes) :=
  C41_read_partial eG_shows (by decide) rfl junk rfl hg (by rw [hr]; rfl)

example : ∃ s', obsTypesResolve false (fillLine junk lFull) [] ⟨lOth ++ '\n' :: t, 0, false, false⟩ = .ok (4, [], s') :=
  C41_full_line_refused eFull_shows rfl (by decide) rfl junk rfl (x := lOth) (t := t) (by decide) (by decide) rfl rfl

set_option maxRecDepth 20000 in
example : ∃ obst' s', obsTypesResolve false (fillLine junk lFull) [] ⟨lab c!"E    2 C1C L1C" c!"SYS / # / OBS TYPES" ++ '\n' :: t, 0, false, false⟩ =
    .ok (0, obst', s') ∧ s'.rest = t ∧ ∀ q, obst'.lookup q = if q = eFull.sys then some eFull.codes else List.lookup q ([] : ObsTypes) :=
  C41_full_line_swallows eFull_shows rfl (by decide) rfl junk rfl (x := lab c!"E    2 C1C L1C" c!"SYS / # / OBS TYPES") (t := t) (by decide) rfl rfl

end

end Ggnss.ObsHeadEx
