import Verif.Props.AntexHist
/-!
# C52: opening an ANTEX file
-/
namespace Ggnss

theorem setAt_fill15 {l buf : List Char} (h : 15 < l.length) :
    ∃ tail, setAt (fillLine buf l) 15 NUL = .ok (l.take 15 ++ NUL :: tail) ∧ l.take 15 ++ NUL :: tail = (l.set 15 NUL) ++ NUL :: buf.drop (l.length + 1) := by
  refine ⟨l.drop 16 ++ NUL :: buf.drop (l.length + 1), ?_, ?_⟩
  · unfold setAt
    rw [memcpyAt_ok (by simp [fillLine]; omega)]
    simp only [fillLine, List.length_singleton]
    rw [List.take_append_of_le_length (by omega), List.drop_append_of_le_length (by omega)]
    simp
  · rw [List.set_eq_take_append_cons_drop, if_pos h]; simp

/-- The scan for the end of the header. -/
theorem skipHeader_lines {last t : List Char} (hlast : Labelled last c!"END OF HEADER") :
    ∀ (ls : List (List Char)), (∀ l ∈ ls, LineFits 84 l ∧ 60 ≤ l.length ∧ ¬ HasLabel l c!"END OF HEADER") →
    ∀ (left : Nat) (buf x : List Char) (s : Stream), s.good = true → ls.length < left →
      ∀ rest', ls ++ [last] = x :: rest' → s.rest = linesText rest' ++ t →
      ∃ m, atxSkipHeader left (fillLine buf x) s = .ok (m + 1, s.past rest') := by
  have hp : IsCStr c!"END OF HEADER" := by decide
  intro ls
  induction ls with
  | nil =>
    intro _ left buf x s hg hl rest' he hr
    obtain ⟨rfl, rfl⟩ : last = x ∧ [] = rest' := by simpa using he
    obtain ⟨left, rfl⟩ : ∃ k, left = k + 1 := ⟨left - 1, by simp at hl; omega⟩
    refine ⟨left, ?_⟩
    unfold atxSkipHeader
    rw [atxLabel_line hlast.1.2.1 (Nat.le_of_lt (hlast.2.long (by decide))) hp, decide_eq_true hlast.2, Res.bind_ok, if_pos rfl,
      Stream.past_nil]
    rfl
  | cons a ls ih =>
    intro hw left buf x s hg hl rest' he hr
    obtain ⟨rfl, rfl⟩ : a = x ∧ ls ++ [last] = rest' := by simpa using he
    obtain ⟨left, rfl⟩ : ∃ k, left = k + 1 := ⟨left - 1, by simp at hl; omega⟩
    obtain ⟨h1, h2, h3⟩ := hw a (by simp)
    unfold atxSkipHeader
    rw [atxLabel_line h1.2.1 h2 hp, decide_eq_false h3, Res.bind_ok]
    simp only [Bool.false_eq_true, if_false]
    obtain ⟨y, ys, hy⟩ : ∃ y ys, ls ++ [last] = y :: ys := by
      cases ls with
      | nil => exact ⟨_, _, rfl⟩
      | cons b bs => exact ⟨_, _, rfl⟩
    have hyf : LineFits 84 y := by
      have hm : y ∈ ls ++ [last] := by rw [hy]; simp
      rcases List.mem_append.1 hm with h | h
      · exact (hw y (by simp [h])).1
      · rw [List.mem_singleton.1 h]; exact hlast.1
    rw [hy] at hr ⊢
    rw [getline_past (n := ATX_HEADER_CHARS) hg hr hyf.1 hyf.2.2]
    obtain ⟨m, hm⟩ := ih (fun l h => hw l (by simp [h])) left (fillLine buf a) y (s.past [y]) hg (by simp at hl; omega) ys hy (rest_cons hr)
    refine ⟨m, ?_⟩
    rw [hm, Stream.past_past]
    rfl

/-- **C52**.  A file with a well-formed header is opened whatever follows the header: the object knows the
system of the header and where the rest begins. -/
theorem C52_open_before (J : AtxJunk) {h : AtxHeader} (hw : h.WF) (t : List Char) :
    ∃ f p, atxOpen J (h.text ++ t) = .ok f ∧ f.sys = h.sys ∧ f.strm.content = h.text ++ t ∧ f.endOfHead = some p ∧
      f.strm.content.drop p = t ∧ f.strm.fail = false ∧ FirstLineOK f.strm.content := by
  have hcont : h.text ++ t = linesText h.lines ++ t := rfl
  generalize hct : h.text ++ t = content at hcont
  have hg : (⟨content, 0, false, false⟩ : Stream).good = true := rfl
  have hr : (⟨content, 0, false, false⟩ : Stream).rest = linesText h.lines ++ t := by rw [← hcont]; simp [Stream.rest]
  have hs0 : (⟨content, 0, false, false⟩ : Stream).seekg 0 = ⟨content, 0, false, false⟩ := rfl
  have hc0 : (⟨content, 0, false, false⟩ : Stream).content = content := rfl
  have hp0 : (⟨content, 0, false, false⟩ : Stream).pos = 0 := rfl
  generalize hs : (⟨content, 0, false, false⟩ : Stream) = s at hg hr hs0 hc0 hp0
  unfold AtxHeader.lines at hr
  have hr1 := rest_cons hr
  have hr2 := rest_cons (s := s.past [h.first]) hr1
  have hg1 := getline_past (n := ATX_HEADER_CHARS) hg hr hw.first.1.1 hw.first.1.2.2
  have hg2 := getline_past (n := ATX_HEADER_CHARS) (s := s.past [h.first]) hg hr1 hw.second.1.1 hw.second.1.2.2
  obtain ⟨y, ys, hy⟩ : ∃ y ys, h.others ++ [h.last] = y :: ys := by
    cases h.others with
    | nil => exact ⟨_, _, rfl⟩
    | cons b bs => exact ⟨_, _, rfl⟩
  have hyf : LineFits 84 y := by
    have hm : y ∈ h.others ++ [h.last] := by rw [hy]; simp
    rcases List.mem_append.1 hm with h' | h'
    · exact (hw.others y h').1
    · rw [List.mem_singleton.1 h']; exact hw.last.1
  have hr2' := hr2
  rw [hy] at hr2'
  have hg3 := getline_past (n := ATX_HEADER_CHARS) (s := (s.past [h.first]).past [h.second]) hg hr2' hyf.1 hyf.2.2
  have hlen := hw.first.2.1
  obtain ⟨tail, e1, e2⟩ := setAt_fill15 (buf := J.head s.pos) (l := h.first) (by omega)
  obtain ⟨r, hnum⟩ := strtodA_num (tail := tail) hw.version
  rw [List.drop_zero] at hnum
  have hbuf20 : getAt (h.first.take 15 ++ NUL :: tail) 20 = .ok (satsysToChar h.sys) := by
    rw [e2]
    apply getAt_left
    rw [List.getElem?_set_ne (by omega)]
    exact hw.sys
  obtain ⟨c, cs, hsec⟩ : ∃ c cs, h.second = c :: cs := by
    cases hh : h.second with
    | nil => have := hw.second.2; rw [hh] at this; simp at this
    | cons c cs => exact ⟨c, cs, rfl⟩
  have hA : h.second[0]? = some 'A' := by rw [← List.head?_eq_getElem?]; exact hw.second.2
  obtain ⟨m, hsk⟩ := skipHeader_lines (t := t) hw.last h.others hw.others 1000
    (fillLine (h.first.take 15 ++ NUL :: tail) h.second) y (((s.past [h.first]).past [h.second]).past [y]) hg hw.few ys hy (rest_cons hr2')
  have hv : |h.version.value - 14 / 10| < 1 / 1000 ∨ |h.version.value - 13 / 10| < 1 / 1000 := by
    rcases hw.v13or14 with hv | hv <;> rw [hv]
    · right; norm_num
    · left; norm_num
  have hgf : ((((s.past [h.first]).past [h.second]).past [y]).past ys).good = true := hg
  have hrf : ((((s.past [h.first]).past [h.second]).past [y]).past ys).rest = t := Stream.past_rest (rest_cons hr2')
  generalize hsf : ((((s.past [h.first]).past [h.second]).past [y]).past ys) = sf at hgf hrf hsk
  have hcf : sf.content = content := by rw [← hsf]; exact hc0
  refine ⟨⟨some sf.pos, h.sys, sf⟩, sf.pos, ?_, rfl, hcf, rfl, hrf, ((Stream.good_iff sf).1 hgf).2, ?_⟩
  · unfold atxOpen
    rw [hs]
    unfold atxReadHeader
    simp only [hs0, hg1, e1, Res.bind_ok, hnum, hv, not_true_eq_false, if_false, hbuf20, charToSatsys_toChar, hg2, getAt_fill hA, ne_eq,
      hg3, hsk, Nat.add_eq_zero_iff, Nat.one_ne_zero, and_false, tellg_good hgf, Res.pure_eq, Res.noexcept_ok]
  · refine ⟨h.first, linesText (h.second :: (h.others ++ [h.last])) ++ t, ?_, hw.first.1, hw.first.2.1, hw.first.2.2⟩
    show sf.content = _
    rw [hcf, hcont]
    unfold AtxHeader.lines
    rw [linesText_cons]
    simp

/-- **C52**.  A file with a well-formed header is opened: the object stands on its antennas, knows the
system of the header, and is usable by every query (the hypotheses of C35, C36, C37, C50, C51). -/
theorem C52_open (J : AtxJunk) {h : AtxHeader} (hw : h.WF) (bs : List AtxBlock) :
    ∃ f, atxOpen J (atxText h bs) = .ok f ∧ f.sys = h.sys ∧ f.strm.content = atxText h bs ∧ AtxOn bs f ∧ FirstLineOK f.strm.content := by
  obtain ⟨f, p, h1, h2, h3, h4, h5, h6, h7⟩ := C52_open_before J hw (atxBlocksText bs)
  exact ⟨f, h1, h2, h3, ⟨⟨p, h4, h5⟩, h6⟩, h7⟩

end Ggnss
