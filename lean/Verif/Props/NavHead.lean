import Verif.Model.NavHead
import Verif.Spec.NavHead
import Verif.Props.NavSeq
import Verif.Props.AntexAny
/-!
# C56: opening a navigation file
-/
namespace Ggnss

theorem navLabel_eq (buf : List Char) : strncmpEq 13 (buf.drop 60) (cArr c!"END OF HEADER") = atxLabel buf c!"END OF HEADER" := rfl

/-- Filling the array with a line that is too short to have a label, or has another one, does not
make the label appear. -/
theorem atxLabel_stale {l buf pat : List Char} (hl : LineFits 84 l) (hn : ¬ HasLabel l pat) (hp : IsCStr pat)
    (hb : atxLabel buf pat = .ok false) : atxLabel (fillLine buf l) pat = .ok false := by
  by_cases h60 : 60 ≤ l.length
  · rw [atxLabel_line hl.2.1 h60 hp, decide_eq_false hn]
  · have : (fillLine buf l).drop 60 = buf.drop 60 := by
      unfold fillLine
      rw [List.drop_append]
      rw [List.drop_eq_nil_of_le (by omega)]
      obtain ⟨k, hk⟩ : ∃ k, 60 - l.length = k + 1 := ⟨60 - l.length - 1, by omega⟩
      rw [hk, List.drop_succ_cons, List.nil_append, List.drop_drop]
      congr 1; omega
    unfold atxLabel at hb ⊢
    rw [this]; exact hb

theorem navSkip_lines {last t : List Char} (hlast : Labelled last c!"END OF HEADER") :
    ∀ (ls : List (List Char)), (∀ l ∈ ls, LineFits 84 l ∧ ¬ HasLabel l c!"END OF HEADER") →
    ∀ (left : Nat) (buf x : List Char) (s : Stream), s.good = true → ls.length < left →
      atxLabel buf c!"END OF HEADER" = .ok false →
      ∀ rest', ls ++ [last] = x :: rest' → s.rest = linesText rest' ++ t →
      ∃ m, navSkipHeader left (fillLine buf x) s = .ok (m + 1, s.past rest') := by
  have hp : IsCStr c!"END OF HEADER" := by decide
  intro ls
  induction ls with
  | nil =>
    intro _ left buf x s hg hl _ rest' he hr
    obtain ⟨rfl, rfl⟩ : last = x ∧ [] = rest' := by simpa using he
    obtain ⟨left, rfl⟩ : ∃ k, left = k + 1 := ⟨left - 1, by simp at hl; omega⟩
    refine ⟨left, ?_⟩
    unfold navSkipHeader
    rw [navLabel_eq, atxLabel_line hlast.1.2.1 (Nat.le_of_lt (hlast.2.long (by decide))) hp, decide_eq_true hlast.2, Res.bind_ok, if_pos rfl,
      Stream.past_nil]
    rfl
  | cons a ls ih =>
    intro hw left buf x s hg hl hb rest' he hr
    obtain ⟨rfl, rfl⟩ : a = x ∧ ls ++ [last] = rest' := by simpa using he
    obtain ⟨left, rfl⟩ : ∃ k, left = k + 1 := ⟨left - 1, by simp at hl; omega⟩
    obtain ⟨h1, h3⟩ := hw a (by simp)
    have hb' := atxLabel_stale h1 h3 hp hb
    unfold navSkipHeader
    rw [navLabel_eq, hb', Res.bind_ok]
    simp only [Bool.false_eq_true, if_false]
    obtain ⟨y, ys, hy⟩ : ∃ y ys, ls ++ [last] = y :: ys := by
      cases ls with
      | nil => exact ⟨_, _, rfl⟩
      | cons b bs => exact ⟨_, _, rfl⟩
    have hyf : LineFits 84 y := by
      have hm : y ∈ ls ++ [last] := by rw [hy]; simp
      rcases List.mem_append.1 hm with h | h
      · exact (hw y (by simp [h])).1
      · rw [List.mem_singleton.1 h]; exact hlast.1
    rw [hy] at hr ⊢
    rw [getline_past (n := NAV_HEADER_CHARS) hg hr hyf.1 hyf.2.2]
    obtain ⟨m, hm⟩ := ih (fun l h => hw l (by simp [h])) left (fillLine buf a) y (s.past [y]) hg (by simp at hl; omega) hb' ys hy (rest_cons hr)
    refine ⟨m, ?_⟩
    rw [hm, Stream.past_past]
    rfl

/-- **C56**.  A file with a well formed header is opened: the object has the version and system of the
header, its stream is good and stands on what follows the header, and rewinding an object whose
stream has not failed (`rewind()`, from any later position) puts it back there. -/
theorem C56_open (junk : List Char) {h : NavHeader} (hw : h.WF) (tail : List Char) :
    ∃ f e, navOpen junk (linesText h.lines ++ tail) = .ok f ∧ f.version = h.version.value ∧ f.sys = h.sys ∧
      f.endOfHead = some e ∧ f.strm.content = linesText h.lines ++ tail ∧ f.strm.good = true ∧ f.strm.rest = tail ∧
      ∀ s : Stream, s.content = f.strm.content → s.fail = false → navRewind e s none = f.strm := by
  generalize hct : linesText h.lines ++ tail = content
  have hg : (⟨content, 0, false, false⟩ : Stream).good = true := rfl
  have hr : (⟨content, 0, false, false⟩ : Stream).rest = linesText h.lines ++ tail := by rw [hct]; simp [Stream.rest]
  have hs0 : (⟨content, 0, false, false⟩ : Stream).seekg 0 = ⟨content, 0, false, false⟩ := rfl
  have hc0 : (⟨content, 0, false, false⟩ : Stream).content = content := rfl
  generalize hs : (⟨content, 0, false, false⟩ : Stream) = s at hg hr hs0 hc0
  unfold NavHeader.lines at hr
  have hr1 := rest_cons hr
  have hg1 := getline_past (n := NAV_HEADER_CHARS) hg hr hw.first.1.1 hw.first.1.2.2
  obtain ⟨y, ys, hy⟩ : ∃ y ys, h.others ++ [h.last] = y :: ys := by
    cases h.others with
    | nil => exact ⟨_, _, rfl⟩
    | cons b bs => exact ⟨_, _, rfl⟩
  have hyf : LineFits 84 y := by
    have hm : y ∈ h.others ++ [h.last] := by rw [hy]; simp
    rcases List.mem_append.1 hm with h' | h'
    · exact (hw.others y h').1
    · rw [List.mem_singleton.1 h']; exact hw.last.1
  have hr1' := hr1
  rw [hy] at hr1'
  have hg2 := getline_past (n := NAV_HEADER_CHARS) (s := s.past [h.first]) hg hr1' hyf.1 hyf.2.2
  obtain ⟨r, hnum⟩ := strtodA_num (tail := junk.drop (h.first.length + 1)) hw.version
  rw [List.drop_zero] at hnum
  have hb0 : atxLabel (fillLine junk h.first) c!"END OF HEADER" = .ok false := by
    rw [atxLabel_line hw.first.1.2.1 hw.first.2.1 (by decide), decide_eq_false hw.first.2.2]
  obtain ⟨m, hsk⟩ := navSkip_lines (t := tail) hw.last h.others hw.others 1000
    (fillLine junk h.first) y ((s.past [h.first]).past [y]) hg hw.few hb0 ys hy (rest_cons hr1')
  have hgf : (((s.past [h.first]).past [y]).past ys).good = true := hg
  have hrf : (((s.past [h.first]).past [y]).past ys).rest = tail := Stream.past_rest (rest_cons hr1')
  have hcf : (((s.past [h.first]).past [y]).past ys).content = content := hc0
  generalize hsf : (((s.past [h.first]).past [y]).past ys) = sf at hgf hrf hsk hcf
  refine ⟨⟨h.version.value, h.sys, some sf.pos, sf⟩, sf.pos, ?_, rfl, rfl, rfl, hcf, hgf, hrf, ?_⟩
  · unfold navOpen
    rw [hs]
    unfold navReadHeader
    have hn' : strtodA (fillLine junk h.first) = .ok (some (h.version.value, r, false)) := hnum
    simp only [hs0, hg1, Res.bind_ok, hn', getAt_fill hw.kind, getAt_fill hw.sys, ne_eq, not_true_eq_false, if_false, charToSatsys_toChar,
      hg2, hsk, Nat.add_eq_zero_iff, Nat.one_ne_zero, and_false, tellg_good hgf, Res.pure_eq, Res.noexcept_ok]
  · intro t h1 h2
    have := (Stream.good_iff sf).1 hgf
    unfold navRewind Stream.seekg
    rw [h2]
    simp only [Bool.false_eq_true, if_false, h1]
    cases sf; simp_all

theorem navSkip_any : ∀ (left : Nat) (buf : List Char) (s : Stream), buf.length = 85 →
    ∃ r, navSkipHeader left buf s = .ok r := by
  intro left
  induction left with
  | zero => intro buf s _; exact ⟨_, rfl⟩
  | succ left ih =>
    intro buf s h
    obtain ⟨b, hb⟩ := atxLabel_any (buf := buf) (pat := c!"END OF HEADER") (by rw [h]; decide)
    unfold navSkipHeader
    rw [navLabel_eq, hb, Res.bind_ok]
    split
    · exact ⟨_, rfl⟩
    · exact ih _ _ (fill_length h (by simpa [NAV_HEADER_CHARS] using getline_lenN s NAV_HEADER_CHARS))

/-- **C56** (any file).  Opening a file, whatever it contains, ends with an object or with
`std::runtime_error`: no undefined behaviour, no endless loop, no termination of the process. -/
theorem C56_open_any {junk : List Char} (hJ : junk.length = 85) (content : List Char) :
    (∃ f, navOpen junk content = .ok f) ∨ navOpen junk content = .throw .runtime_error := by
  have key : ∃ r, navReadHeader junk ⟨content, 0, false, false⟩ = .ok r := by
    unfold navReadHeader
    generalize (⟨content, 0, false, false⟩ : Stream).seekg 0 = s
    have hf : ∀ (buf : List Char) (s : Stream), buf.length = 85 → (fillLine buf (s.getline NAV_HEADER_CHARS).1).length = 85 :=
      fun buf s h => fill_length h (by simpa [NAV_HEADER_CHARS] using getline_lenN s NAV_HEADER_CHARS)
    have h1 := hf junk s hJ
    have hnul : NUL ∈ fillLine junk (s.getline NAV_HEADER_CHARS).1 := by simp [fillLine]
    simp only
    generalize fillLine junk (s.getline NAV_HEADER_CHARS).1 = b at h1 hnul
    have hv : strtodA b = .ok (strtod b) := by unfold strtodA; rw [if_pos hnul]
    rw [hv, Res.bind_ok]
    cases strtod b with
    | none => exact ⟨_, rfl⟩
    | some v =>
      simp only
      rw [getAt_lt (by omega : 20 < b.length), Res.bind_ok]
      split
      · exact ⟨_, rfl⟩
      · rw [getAt_lt (by omega : 40 < b.length), Res.bind_ok]
        split
        · obtain ⟨r, hr⟩ := navSkip_any 1000 _ (((s.getline NAV_HEADER_CHARS).2).getline NAV_HEADER_CHARS).2
            (hf b (s.getline NAV_HEADER_CHARS).2 h1)
          rw [hr, Res.bind_ok]
          split
          · exact ⟨_, rfl⟩
          · exact ⟨_, rfl⟩
        · exact ⟨_, rfl⟩
  obtain ⟨r, hr⟩ := key
  unfold navOpen
  rw [hr, Res.bind_ok]
  split
  · right; rfl
  · left; exact ⟨_, rfl⟩

theorem navSkip_none : ∀ (left : Nat) (ls : List (List Char)) (buf : List Char) (s : Stream),
    (∀ l ∈ ls, LineFits 84 l ∧ ¬ HasLabel l c!"END OF HEADER") → atxLabel buf c!"END OF HEADER" = .ok false →
    (s.good = false ∨ (s.good = true ∧ s.rest = linesText ls)) → ∃ s', navSkipHeader left buf s = .ok (0, s') := by
  have hp : IsCStr c!"END OF HEADER" := by decide
  intro left
  induction left with
  | zero => intro ls buf s _ _ _; exact ⟨_, rfl⟩
  | succ left ih =>
    intro ls buf s hw hb hs
    unfold navSkipHeader
    rw [navLabel_eq, hb, Res.bind_ok]
    simp only [Bool.false_eq_true, if_false]
    have hnil : LineFits 84 ([] : List Char) ∧ ¬ HasLabel [] c!"END OF HEADER" := by decide
    rcases hs with hs | ⟨hg, hr⟩
    · rw [Stream.getline_bad hs]
      exact ih [] _ _ (by simp) (atxLabel_stale hnil.1 hnil.2 hp hb) (Or.inl (by simp [Stream.good]))
    · cases ls with
      | nil =>
        have : s.getline NAV_HEADER_CHARS = ([], { s with eof := true, fail := true }) := by
          have hr' : s.rest = [] := by simpa [linesText] using hr
          unfold Stream.getline
          rw [if_pos hg, hr']; simp
        rw [this]
        exact ih [] _ _ (by simp) (atxLabel_stale hnil.1 hnil.2 hp hb) (Or.inl (by simp [Stream.good]))
      | cons l ls =>
        have hl := hw l (by simp)
        have hr' : s.rest = linesText (l :: ls) ++ [] := by simpa using hr
        rw [getline_past (n := NAV_HEADER_CHARS) hg hr' hl.1.1 hl.1.2.2]
        exact ih ls _ _ (fun x hx => hw x (by simp [hx])) (atxLabel_stale hl.1 hl.2 hp hb)
          (Or.inr ⟨hg, by simpa using rest_cons hr'⟩)

/-- **C56** (refusal).  A file without an END OF HEADER line is refused, however long it is. -/
theorem C56_no_end_refused (junk : List Char) {first : List Char} {others : List (List Char)}
    (h1 : LineFits 84 first ∧ 60 ≤ first.length ∧ ¬ HasLabel first c!"END OF HEADER")
    (h2 : ∀ l ∈ others, LineFits 84 l ∧ ¬ HasLabel l c!"END OF HEADER") :
    navOpen junk (linesText (first :: others)) = .throw .runtime_error := by
  generalize hct : linesText (first :: others) = content
  have hg : (⟨content, 0, false, false⟩ : Stream).good = true := rfl
  have hr : (⟨content, 0, false, false⟩ : Stream).rest = linesText (first :: others) ++ [] := by rw [hct]; simp [Stream.rest]
  have hs0 : (⟨content, 0, false, false⟩ : Stream).seekg 0 = ⟨content, 0, false, false⟩ := rfl
  generalize hs : (⟨content, 0, false, false⟩ : Stream) = s at hg hr hs0
  have hg1 := getline_past (n := NAV_HEADER_CHARS) hg hr h1.1.1 h1.1.2.2
  have hb0 : atxLabel (fillLine junk first) c!"END OF HEADER" = .ok false := by
    rw [atxLabel_line h1.1.2.1 h1.2.1 (by decide), decide_eq_false h1.2.2]
  obtain ⟨s', hsk⟩ : ∃ s', navSkipHeader 1000 (fillLine (fillLine junk first) ((s.past [first]).getline NAV_HEADER_CHARS).1)
      ((s.past [first]).getline NAV_HEADER_CHARS).2 = .ok (0, s') := by
    have := navSkip_none 1001 others (fillLine junk first) (s.past [first]) h2 hb0 (Or.inr ⟨hg, by simpa using rest_cons hr⟩)
    unfold navSkipHeader at this
    rw [navLabel_eq, hb0, Res.bind_ok] at this
    simpa only [Bool.false_eq_true, if_false] using this
  have h20 : 20 < (fillLine junk first).length := by simp [fillLine]; omega
  have h40 : 40 < (fillLine junk first).length := by simp [fillLine]; omega
  have hnul : NUL ∈ fillLine junk first := by simp [fillLine]
  have key : ∃ r, navReadHeader junk s = .ok r ∧ r.1 ≠ 0 := by
    unfold navReadHeader
    have hv : strtodA (fillLine junk first) = .ok (strtod (fillLine junk first)) := by unfold strtodA; rw [if_pos hnul]
    simp only [hs0, hg1, hv, Res.bind_ok]
    cases strtod (fillLine junk first) with
    | none => exact ⟨_, rfl, by simp⟩
    | some v =>
      simp only [getAt_lt h20, getAt_lt h40, Res.bind_ok]
      split
      · exact ⟨_, rfl, by simp⟩
      · split
        · rw [hsk, Res.bind_ok, if_pos rfl]
          exact ⟨_, rfl, by simp⟩
        · exact ⟨_, rfl, by simp⟩
  obtain ⟨r, e1, e2⟩ := key
  unfold navOpen
  rw [hs, e1, Res.bind_ok, if_pos e2]

/-- **C56** (refusal).  A file whose first line does not have 'N' in column 20, or has no letter of a
satellite system in column 40, is refused. -/
theorem C56_not_navigation_refused (junk : List Char) {first : List Char} (tail : List Char)
    (h1 : LineFits 84 first ∧ 60 ≤ first.length)
    (h2 : first[20]? ≠ some 'N' ∨ ∀ sys, first[40]? ≠ some (satsysToChar sys)) :
    navOpen junk (linesText [first] ++ tail) = .throw .runtime_error := by
  generalize hct : linesText [first] ++ tail = content
  have hg : (⟨content, 0, false, false⟩ : Stream).good = true := rfl
  have hr : (⟨content, 0, false, false⟩ : Stream).rest = linesText [first] ++ tail := by rw [hct]; simp [Stream.rest]
  have hs0 : (⟨content, 0, false, false⟩ : Stream).seekg 0 = ⟨content, 0, false, false⟩ := rfl
  generalize hs : (⟨content, 0, false, false⟩ : Stream) = s at hg hr hs0
  have hg1 := getline_past (n := NAV_HEADER_CHARS) hg hr h1.1.1 h1.1.2.2
  obtain ⟨c20, e20⟩ : ∃ c, first[20]? = some c := ⟨_, List.getElem?_eq_getElem (by omega)⟩
  obtain ⟨c40, e40⟩ : ∃ c, first[40]? = some c := ⟨_, List.getElem?_eq_getElem (by omega)⟩
  have hnul : NUL ∈ fillLine junk first := by simp [fillLine]
  have key : ∃ r, navReadHeader junk s = .ok r ∧ r.1 ≠ 0 := by
    unfold navReadHeader
    have hv : strtodA (fillLine junk first) = .ok (strtod (fillLine junk first)) := by unfold strtodA; rw [if_pos hnul]
    simp only [hs0, hg1, hv, Res.bind_ok]
    cases strtod (fillLine junk first) with
    | none => exact ⟨_, rfl, by simp⟩
    | some v =>
      simp only [getAt_fill e20, getAt_fill e40, Res.bind_ok]
      split
      · exact ⟨_, rfl, by simp⟩
      · rename_i hN
        split
        · rename_i sys hsys
          exfalso
          rcases h2 with h2 | h2
          · rw [e20] at h2; exact h2 (by simpa using hN)
          · apply h2 sys; rw [e40]; congr 1
            unfold charToSatsys at hsys
            (repeat' split at hsys) <;> first | (cases hsys; simp_all [satsysToChar]) | cases hsys
        · exact ⟨_, rfl, by simp⟩
  obtain ⟨r, e1, e2⟩ := key
  unfold navOpen
  rw [hs, e1, Res.bind_ok, if_pos e2]

/-- **C55** (on a whole file).  Open a file, read any number of records or past its end, `rewind()`:
the object is exactly as it was when it had been opened. -/
theorem C55_rewind_whole_file (dateOf : List Char → Res DateTime) (junk : Nat → List Char) (junk0 : List Char) (n : Nat)
    {h : NavHeader} (hw : h.WF) {rs : List NavItem} (hrs : ∀ r ∈ rs, r.WF dateOf) {f : NavFrame} (hl : f.data.length = 31) :
    ∃ nav e out s', navOpen junk0 (linesText h.lines ++ fileText rs) = .ok nav ∧ nav.endOfHead = some e ∧
      navReads dateOf junk n f nav.strm 0 = .ok (out, s') ∧
      (∀ i r, i < n → rs[i]? = some r → ∃ g, out[i]? = some (0, g) ∧ Carries g r) ∧
      (∀ i, i < n → rs.length ≤ i → ∃ g, out[i]? = some (-1, g)) ∧ navRewind e s' none = nav.strm := by
  obtain ⟨nav, e, h1, _, _, h4, h5, h6, h7, h8⟩ := C56_open junk0 hw (fileText rs)
  obtain ⟨out, s', e1, e2, e3, e4, e5, e6, e7⟩ := C55_sequence dateOf junk n rs f nav.strm h6 h7 hl hrs
  refine ⟨nav, e, out, s', h1, h4, e1, e3, ?_, h8 s' ?_ ((Stream.good_iff s').1 e5).2⟩
  · intro i hi hle
    obtain ⟨g, hg, _⟩ := e4 i hi hle
    exact ⟨g, hg⟩
  · have := congrArg Stream.content (e7 0)
    unfold navRewind Stream.seekg at this
    rw [((Stream.good_iff s').1 e5).2] at this
    simpa using this

namespace NavHeadExample

def hdr : NavHeader := ⟨⟨5, none, c!"3", some c!"04", none⟩, .mixed,
  c!"     3.04           N: GNSS NAV DATA    M: MIXED            RINEX VERSION / TYPE",
  [c!"sbf2rin-12.3.1                          20190101 003023 UTC PGM / RUN BY / DATE", c!"short line",
   c!"    18    18  1929     7                                    LEAP SECONDS"],
  c!"                                                            END OF HEADER"⟩

set_option maxRecDepth 20000 in
theorem hdr_wf : hdr.WF :=
  ⟨by decide, numCheck_sound (by decide), by decide, by decide, by decide, by decide, by decide⟩

/-- The hypotheses of `C56_open` and `C55_rewind_whole_file` are met. -/
example (junk : Nat → List Char) (junk0 : List Char) : ∃ nav out s', navOpen junk0 (linesText hdr.lines ++
    fileText [NavExample.gloBad, NavExample.glo]) = .ok nav ∧
    navReads NavExample.dateOf junk 7 NavExample.frame nav.strm 0 = .ok (out, s') := by
  obtain ⟨nav, _, out, s', h1, _, h2, _⟩ := C55_rewind_whole_file NavExample.dateOf junk junk0 7 hdr_wf
    (rs := [NavExample.gloBad, NavExample.glo])
    (by
      intro r hr; simp at hr
      rcases hr with rfl | rfl
      · exact NavExample.gloBad_wfv.toWF
      · exact NavExample.glo_wfv.toWF) (f := NavExample.frame) rfl
  exact ⟨nav, out, s', h1, h2⟩

set_option maxRecDepth 20000 in
/-- The hypotheses of `C56_no_end_refused` are met by the same header without its last line. -/
example (junk : List Char) : navOpen junk (linesText (hdr.first :: hdr.others)) = .throw .runtime_error :=
  C56_no_end_refused junk hdr_wf.first hdr_wf.others

set_option maxRecDepth 20000 in
/-- The hypotheses of `C56_not_navigation_refused` are met by an observation file. -/
example (junk tail : List Char) : navOpen junk (linesText
    [c!"     3.04           OBSERVATION DATA    M: MIXED            RINEX VERSION / TYPE"] ++ tail) = .throw .runtime_error :=
  C56_not_navigation_refused junk tail (by decide) (Or.inl (by decide))

end NavHeadExample

end Ggnss
