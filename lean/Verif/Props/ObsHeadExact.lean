import Verif.Props.ObsHead
/-!
# C60: opening an observation file with any names and antennas

As `C60_open_partial`, without the conditions on names and radomes: what the object tells is given
exactly (`ObsSeen`).
-/
namespace Ggnss

theorem FirstWordOf.unique {txt t word : List Char} (h1 : IsFirstWord txt t) (h2 : FirstWordOf txt word) : t = word := by
  obtain ⟨ha, hb⟩ := h1
  obtain ⟨hc, hd⟩ := h2
  rcases hd with rfl | ⟨more, rfl⟩
  · rcases hb with hb | ⟨u, hb⟩
    · exact hb.symm
    · exfalso; apply hc; rw [hb]; simp
  · rcases hb with hb | ⟨u, hb⟩
    · exfalso; apply ha; rw [← hb]; simp
    · exact firstWord_split t word u _ ha hc hb

/-- Every text has a first word. -/
theorem firstWord_total (txt : List Char) : ∃ word, FirstWordOf txt word := ⟨_, findIdx_firstWord txt⟩

theorem WordCols.first {txt word : List Char} (h : WordCols txt word) : FirstWordOf txt word := by
  obtain ⟨h1, k, rfl⟩ := h
  cases k with
  | zero => exact ⟨h1, Or.inl (by simp)⟩
  | succ k => exact ⟨h1, Or.inr ⟨List.replicate k ' ', by rw [List.replicate_succ]⟩⟩

/-- Trimming columns `off … off+w-1` of a line: their first word. -/
theorem rtrim_first {l : List Char} (hl : NUL ∉ l) {off w : Nat} (ho : off ≤ l.length) {word : List Char}
    (h : FirstWordOf (colsAt l off w) word) (junk : List Char) :
    rtrimStart ((fillLine junk l).drop off) (some w) = .ok (word, word.length) := by
  unfold fillLine
  rw [drop_line ho]
  obtain ⟨t, h1, h2⟩ := C07_rtrim_default (l.drop off) (junk.drop (l.length + 1)) (fun hx => hl (List.mem_of_mem_drop hx)) (some w)
  rw [h1, FirstWordOf.unique h2 h]

theorem obsAntenna_first {l word g : List Char} (hf : LineFits 84 l) (hl : 60 < l.length) (hm : FirstWordOf (colsAt l 20 20) word)
    (hg : g.length = 41) (junk : List Char) :
    ∃ a, obsAntenna g (fillLine junk l) = .ok a ∧ antText a = .ok (antennaSeen word (colsAt l 0 20)) := by
  have htrim := rtrim_first hf.2.1 (off := 20) (by omega) hm junk
  have hmc : IsCStr word := by
    intro hx
    apply hf.2.1
    have : NUL ∈ colsAt l 20 20 := by
      rcases hm.2 with h | ⟨more, h⟩ <;> rw [h] <;> simp [hx]
    unfold colsAt at this
    exact List.mem_of_mem_drop (List.mem_of_mem_take this)
  have hemp : stringIsEmpty (fillLine junk l) (some 20) = .ok (decide (∀ c ∈ colsAt l 0 20, c = ' ')) := C07_is_empty l _ hf.2.1 (some 20)
  have hspec : specModel (.fromCStr word) = if 20 ≤ word.length then word.take 20 else (word ++ List.replicate 16 ' ').take 16 ++ c!"NONE" := rfl
  have hpad : padTo 20 l = colsAt l 0 20 := by
    unfold padTo colsAt
    rw [List.take_append_of_le_length (by omega), List.drop_zero]
  have hlc : ∀ s ∈ [l], IsCStr s := by intro s hs; rw [List.mem_singleton.1 hs]; exact hf.2.1
  by_cases hbl : ∀ c ∈ colsAt l 0 20, c = ' '
  · obtain ⟨a, e1, e2, e3, e4, e5⟩ := C10_wellformed g hg (.fromCStr word) [] hmc (by simp)
    refine ⟨a, ?_, ?_⟩
    · unfold obsAntenna
      rw [htrim, Res.bind_ok]
      unfold antRun antNew at e1
      simp only at e1
      obtain ⟨a', h1, h2⟩ := Res.bind_eq_ok.1 e1
      unfold antSetSerials at h2
      cases h2
      rw [h1, Res.bind_ok, hemp, Res.bind_ok, decide_eq_true hbl]
      rfl
    · rw [e5]
      unfold specText antennaSeen
      simp only [if_pos hbl, hspec]
      rfl
  · obtain ⟨a, e1, e2, e3, e4, e5⟩ := C10_wellformed g hg (.fromCStr word) [l] hmc hlc
    refine ⟨a, ?_, ?_⟩
    · unfold obsAntenna
      rw [htrim, Res.bind_ok]
      unfold antRun antNew at e1
      simp only at e1
      obtain ⟨a', h1, h2⟩ := Res.bind_eq_ok.1 e1
      unfold antSetSerials at h2
      obtain ⟨a2, h2, h3⟩ := Res.bind_eq_ok.1 h2
      unfold antSetSerials at h3
      cases h3
      rw [h1, Res.bind_ok, hemp, Res.bind_ok, decide_eq_false hbl, cstrOf_fill hf.2.1]
      exact h2
    · rw [e5]
      unfold specText antennaSeen
      simp only [if_neg hbl, hspec, List.getLast?_singleton, hpad]

/-- The object tells what the code makes of the entries (of several entries of a kind, the last). -/
structure ObsSeen (version : Rat) (sys : SatSys) (items : List ObsItem) (o : ObsFileObj) : Prop where
  version : o.version = version
  sys : o.sys = sys
  marker : o.markerName = (lastOf ObsItem.marker? items).getD []
  markerNo : o.markerNumber = (lastOf ObsItem.markerNo? items).getD []
  receiver : (o.recNumber, o.recType) = (lastOf ObsItem.receiver? items).getD ([], [])
  antenna : antText o.antenna = .ok ((lastOf ObsItem.seenAntenna? items).getD (List.replicate 20 ' '))
  position : o.approx = (lastOf ObsItem.position? items).getD [0, 0, 0]
  delta : o.ecc = (lastOf ObsItem.delta? items).getD [0, 0, 0]
  clock : o.clkApplied = (lastOf ObsItem.clock? items).getD false
  firstObs : o.firstObs = lastOf ObsItem.firstObs? items
  types : ∀ q, o.obst.lookup q = (items.filterMap ObsItem.types?).lookup q
  sorted : o.obst.Pairwise (fun a b => sysRank a.1 < sysRank b.1)

theorem ObsTells.seen {v : Rat} {sys : SatSys} {o : ObsFileObj} (h : ObsTells v sys [] o) : ObsSeen v sys [] o :=
  ⟨h.version, h.sys, h.marker, h.markerNo, h.receiver, h.antenna, h.position, h.delta, h.clock, h.firstObs, h.types, h.sorted⟩

theorem ObsItem.sees_single {i : ObsItem} {strptime : List Char → Res DateTime} (h : i.Sees strptime) (hn : i.types? = none) :
    ∃ l, i.lines = [l] ∧ LineFits 84 l ∧ 60 ≤ l.length ∧ ¬ HasLabel l c!"END OF HEADER" := by
  have key : ∀ (l p : List Char), Labelled l p → p ∈ ObsItem.knownLabels → p ≠ c!"END OF HEADER" → p ≠ [] →
      LineFits 84 l ∧ 60 ≤ l.length ∧ ¬ HasLabel l c!"END OF HEADER" := by
    intro l p h1 h2 h3 h4
    exact ⟨h1.1, Nat.le_of_lt (h1.2.long h4), h1.2.excl (known_excl p h2 _ (by decide) (Ne.symm h3)) (known_excl _ (by decide) p h2 h3)⟩
  cases i with
  | other l => exact ⟨l, rfl, h.1, h.2.1, h.2.2 _ (by decide)⟩
  | marker l n => exact ⟨l, rfl, key l _ h.1 (by decide) (by decide) (by decide)⟩
  | markerNo l n => exact ⟨l, rfl, key l _ h.1 (by decide) (by decide) (by decide)⟩
  | receiver l n t => exact ⟨l, rfl, key l _ h.1 (by decide) (by decide) (by decide)⟩
  | antenna l m r => exact ⟨l, rfl, key l _ h.1 (by decide) (by decide) (by decide)⟩
  | position l x y z => exact ⟨l, rfl, key l _ h.1 (by decide) (by decide) (by decide)⟩
  | delta l x y z => exact ⟨l, rfl, key l _ h.1 (by decide) (by decide) (by decide)⟩
  | types e => cases hn
  | clock l b => exact ⟨l, rfl, key l _ h.1 (by decide) (by decide) (by decide)⟩
  | firstObs l t => exact ⟨l, rfl, key l _ h.1 (by decide) (by decide) (by decide)⟩

theorem ObsSeen.snoc {v : Rat} {sys : SatSys} {done : List ObsItem} {o o' : ObsFileObj} (ho : ObsSeen v sys done o) {i : ObsItem}
    (hnew : ∀ e, i.types? = some e → (done.filterMap ObsItem.types?).lookup e.1 = none)
    (h1 : (o'.version, o'.sys) = (o.version, o.sys)) (h2 : o'.markerName = i.marker?.getD o.markerName)
    (h3 : o'.markerNumber = i.markerNo?.getD o.markerNumber) (h4 : (o'.recNumber, o'.recType) = i.receiver?.getD (o.recNumber, o.recType))
    (h5 : antText o'.antenna = match i.seenAntenna? with | none => antText o.antenna | some a => .ok a)
    (h6 : o'.approx = i.position?.getD o.approx) (h7 : o'.ecc = i.delta?.getD o.ecc) (h8 : o'.clkApplied = i.clock?.getD o.clkApplied)
    (h9 : o'.firstObs = i.firstObs?.or o.firstObs)
    (h10 : o'.obst = match i.types? with | none => o.obst | some e => obsInsert e.1 e.2 o.obst) : ObsSeen v sys (done ++ [i]) o' := by
  have lo := fun {β : Type} (f : ObsItem → Option β) => lastOf_snoc f done i
  injection h1 with h1 h1'
  constructor
  · rw [h1]; exact ho.version
  · rw [h1']; exact ho.sys
  · rw [h2, lo, ho.marker]; cases i.marker? <;> rfl
  · rw [h3, lo, ho.markerNo]; cases i.markerNo? <;> rfl
  · rw [h4, lo, ho.receiver]; cases i.receiver? <;> rfl
  · rw [h5, lo, ho.antenna]; cases i.seenAntenna? <;> rfl
  · rw [h6, lo, ho.position]; cases i.position? <;> rfl
  · rw [h7, lo, ho.delta]; cases i.delta? <;> rfl
  · rw [h8, lo, ho.clock]; cases i.clock? <;> rfl
  · rw [h9, lo, ho.firstObs]; cases i.firstObs? <;> rfl
  · intro q
    rw [h10, List.filterMap_append, List.lookup_append]
    cases hi : i.types? with
    | none => simp [hi, ho.types q]
    | some e =>
      have hn := hnew e hi
      simp only
      rw [lookup_obsInsert _ _ _ (by rw [ho.types]; exact hn), ho.types q]
      have hone : ([i].filterMap ObsItem.types?).lookup q = if q = e.1 then some e.2 else none := by
        have : [i].filterMap ObsItem.types? = [(e.1, e.2)] := by simp [hi]
        rw [this, List.lookup_cons]
        by_cases hq : q = e.1
        · simp [hq]
        · rw [beq_false_of_ne hq, if_neg hq]; rfl
      rw [hone]
      by_cases hq : q = e.1
      · rw [if_pos hq, if_pos hq, hq, hn]; simp
      · rw [if_neg hq, if_neg hq]; simp
  · rw [h10]
    cases hi : i.types? with
    | none => exact ho.sorted
    | some e => exact (obsInsert_sorted _ (by rw [ho.types]; exact hnew e hi) ho.sorted).1

/-- One entry: one pass of the loop. -/
theorem obsHeadLoop_seen {strptime : List Char → Res DateTime} {gAnt : Nat → List Char} (hgA : ∀ k, (gAnt k).length = 41) {i : ObsItem}
    (h : i.Sees strptime) (hsup : ∀ t, i.types? = some t → t.2.length % 13 ≠ 0) {done : List ObsItem} {v : Rat} {sys : SatSys} {o : ObsFileObj} (ho : ObsSeen v sys done o)
    (hnew : ∀ e, i.types? = some e → (done.filterMap ObsItem.types?).lookup e.1 = none) (left : Nat) {line : List Char}
    (hend : obsLabel line c!"END OF HEADER" = .ok false) {s : Stream} {t : List Char} (hg : s.good = true)
    (hr : s.rest = linesText i.lines ++ t) :
    ∃ o' line', obsHeadLoop strptime gAnt false (left + 1) line o s = obsHeadLoop strptime gAnt false left line' o' (s.past i.lines) ∧
      ObsSeen v sys (done ++ [i]) o' ∧ obsLabel line' c!"END OF HEADER" = .ok false ∧ o'.endOfHead = o.endOfHead ∧
      ∀ l, i.lines = [l] → line' = fillLine line l := by
  have step : ∀ (l : List Char) (ls : List (List Char)) (o' : ObsFileObj), i.lines = l :: ls → LineFits 84 l → 60 ≤ l.length →
      ¬ HasLabel l c!"END OF HEADER" →
      obsHeadLine strptime gAnt false (fillLine line l) o (s.past [l]) = .ok (0, o', s.past i.lines) →
      ObsSeen v sys (done ++ [i]) o' → o'.endOfHead = o.endOfHead →
      ∃ o' line', obsHeadLoop strptime gAnt false (left + 1) line o s = obsHeadLoop strptime gAnt false left line' o' (s.past i.lines) ∧
        ObsSeen v sys (done ++ [i]) o' ∧ obsLabel line' c!"END OF HEADER" = .ok false ∧ o'.endOfHead = o.endOfHead ∧
        ∀ l, i.lines = [l] → line' = fillLine line l := by
    intro l ls o' hi hf h60 hne hb ht he
    refine ⟨o', fillLine line l, ?_, ht, ?_, he, ?_⟩
    · rw [hi] at hr
      rw [obsHeadLoop, hend, Res.bind_ok]
      simp only [Bool.false_eq_true, if_false]
      rw [getline_past (n := OBS_HEADER_CHARS) hg hr hf.1 hf.2.2, hb, Res.bind_ok]
      simp
    · rw [obsLabel_line hf.2.1 h60 (by decide), decide_eq_false hne]
    · intro l' hl'; rw [hi] at hl'; injection hl' with hl' _; rw [hl']
  cases i with
  | other l =>
    exact step l [] o rfl h.1 h.2.1 (h.2.2 _ (by decide))
      (headLine_other (labelsAre_line h.1.2.1 h.2.1 line) (fun q hq _ => h.2.2 q hq))
      (ho.snoc hnew rfl rfl rfl rfl rfl rfl rfl rfl rfl rfl) rfl
  | marker l n =>
    obtain ⟨l', hl', hs1, hs2, hs3⟩ := ObsItem.sees_single h rfl
    cases hl'
    refine step l [] { o with markerName := n } rfl hs1 hs2 hs3 ?_ (ho.snoc hnew rfl rfl rfl rfl rfl rfl rfl rfl rfl rfl) rfl
    rw [headLine_marker (labelsAre_labelled h.1 (by decide) line)]
    have := rtrim_first hs1.2.1 (Nat.zero_le _) h.2 line
    rw [List.drop_zero] at this
    rw [this]; rfl
  | markerNo l n =>
    obtain ⟨l', hl', hs1, hs2, hs3⟩ := ObsItem.sees_single h rfl
    cases hl'
    refine step l [] { o with markerNumber := n } rfl hs1 hs2 hs3 ?_ (ho.snoc hnew rfl rfl rfl rfl rfl rfl rfl rfl rfl rfl) rfl
    rw [headLine_markerNo (labelsAre_labelled h.1 (by decide) line)]
    have := rtrim_first hs1.2.1 (Nat.zero_le _) h.2 line
    rw [List.drop_zero] at this
    rw [this]; rfl
  | receiver l n ty =>
    obtain ⟨l', hl', hs1, hs2, hs3⟩ := ObsItem.sees_single h rfl
    cases hl'
    refine step l [] { o with recNumber := n, recType := ty } rfl hs1 hs2 hs3 ?_ (ho.snoc hnew rfl rfl rfl rfl rfl rfl rfl rfl rfl rfl) rfl
    rw [headLine_receiver (labelsAre_labelled h.1 (by decide) line)]
    have h1 := rtrim_first hs1.2.1 (Nat.zero_le _) h.2.1 line
    have h2 := rtrim_first hs1.2.1 (by omega) h.2.2 line
    rw [List.drop_zero] at h1
    rw [h1, Res.bind_ok, h2]; rfl
  | antenna l m r =>
    obtain ⟨l', hl', hs1, hs2, hs3⟩ := ObsItem.sees_single h rfl
    cases hl'
    obtain ⟨a, h1, h2⟩ := obsAntenna_first hs1 (h.1.2.long (by decide)) h.2 (hgA (s.past [l]).pos) line
    refine step l [] { o with antenna := a } rfl hs1 hs2 hs3 ?_ (ho.snoc hnew rfl rfl rfl rfl h2 rfl rfl rfl rfl rfl) rfl
    rw [headLine_antenna (labelsAre_labelled h.1 (by decide) line), h1]; rfl
  | position l x y z =>
    obtain ⟨l', hl', hs1, hs2, hs3⟩ := ObsItem.sees_single h rfl
    cases hl'
    refine step l [] { o with approx := [x.value, y.value, z.value] } rfl hs1 hs2 hs3 ?_ (ho.snoc hnew rfl rfl rfl rfl rfl rfl rfl rfl rfl rfl) rfl
    rw [headLine_position (labelsAre_labelled h.1 (by decide) line), char2double_three h.2]; rfl
  | delta l x y z =>
    obtain ⟨l', hl', hs1, hs2, hs3⟩ := ObsItem.sees_single h rfl
    cases hl'
    refine step l [] { o with ecc := [x.value, y.value, z.value] } rfl hs1 hs2 hs3 ?_ (ho.snoc hnew rfl rfl rfl rfl rfl rfl rfl rfl rfl rfl) rfl
    rw [headLine_delta (labelsAre_labelled h.1 (by decide) line), char2double_three h.2]; rfl
  | types e =>
    obtain ⟨hsh, hne⟩ := h
    have hpos : 0 < e.codes.length := List.length_pos_iff.2 hne
    have hcnt := hsh.count
    obtain ⟨l, ls, hls⟩ : ∃ l ls, e.lines = l :: ls := by
      cases hl : e.lines with
      | nil => rw [hl] at hcnt; simp at hcnt; omega
      | cons l ls => exact ⟨l, ls, rfl⟩
    have hlab := hsh.labelled l (by rw [hls]; simp)
    have h60 := hlab.2.long (by decide)
    have hn := hnew (e.sys, e.codes) rfl
    have hn' : o.obst.lookup e.sys = none := by rw [ho.types]; exact hn
    have hr1 : (s.past [l]).rest = linesText ls ++ t := rest_cons (by rw [show s.rest = _ from hr]; show linesText e.lines ++ t = _; rw [hls])
    refine step l ls { o with obst := obsInsert e.sys e.codes o.obst } hls hlab.1 (Nat.le_of_lt h60)
      (hlab.2.excl (by decide) (by decide)) ?_ (ho.snoc hnew rfl rfl rfl rfl rfl rfl rfl rfl rfl rfl) rfl
    rw [headLine_types (labelsAre_labelled hlab (by decide) line), obsTypesResolve_start hsh hls line hn' _ hne,
      (obsTypesLoop_end hsh hls line (s := s.past [l]) hg hr1 hne).1 (hsup (e.sys, e.codes) rfl), Res.bind_ok]
    have : (ObsItem.types e).lines = [l] ++ ls := hls
    rw [this, ← Stream.past_past]
    simp
  | clock l b =>
    obtain ⟨l', hl', hs1, hs2, hs3⟩ := ObsItem.sees_single h rfl
    cases hl'
    refine step l [] { o with clkApplied := b } rfl hs1 hs2 hs3 ?_ (ho.snoc hnew rfl rfl rfl rfl rfl rfl rfl rfl rfl rfl) rfl
    rw [headLine_clock (labelsAre_labelled h.1 (by decide) line), obsClock_cols (h.1.2.long (by decide)) h.2.1 h.2.2]; rfl
  | firstObs l dt =>
    obtain ⟨l', hl', hs1, hs2, hs3⟩ := ObsItem.sees_single h rfl
    cases hl'
    exact step l [] { o with firstObs := some dt } rfl hs1 hs2 hs3
      (headLine_firstObs (labelsAre_labelled h.1 (by decide) line) (h.2 _)) (ho.snoc hnew rfl rfl rfl rfl rfl rfl rfl rfl rfl rfl) rfl

/-- Any number of entries. -/
theorem obsHeadLoop_seens {strptime : List Char → Res DateTime} {gAnt : Nat → List Char} (hgA : ∀ k, (gAnt k).length = 41) {v : Rat}
    {sys : SatSys} : ∀ (items done : List ObsItem), (∀ i ∈ items, i.Sees strptime ∧ ∀ t, i.types? = some t → t.2.length % 13 ≠ 0) →
    ((done ++ items).filterMap ObsItem.types?).Pairwise (fun a b => a.1 ≠ b.1) → ∀ (left : Nat) (line : List Char) (o : ObsFileObj) (s : Stream)
    (t : List Char), ObsSeen v sys done o → obsLabel line c!"END OF HEADER" = .ok false → s.good = true →
    s.rest = linesText (items.map (·.lines)).flatten ++ t →
    ∃ o' line', obsHeadLoop strptime gAnt false (left + items.length) line o s =
        obsHeadLoop strptime gAnt false left line' o' (s.past (items.map (·.lines)).flatten) ∧
      ObsSeen v sys (done ++ items) o' ∧ obsLabel line' c!"END OF HEADER" = .ok false := by
  intro items
  induction items with
  | nil =>
    intro done _ _ left line o s t ho hl hg hr
    exact ⟨o, line, by simp [Stream.past_nil], by simpa using ho, hl⟩
  | cons i items ih =>
    intro done hw hp left line o s t ho hl hg hr
    obtain ⟨hi1, hi2⟩ := hw i (by simp)
    have hnew : ∀ e, i.types? = some e → (done.filterMap ObsItem.types?).lookup e.1 = none := by
      intro e he
      rw [List.filterMap_append, List.pairwise_append] at hp
      apply lookup_none_of_keys
      intro x hx
      exact hp.2.2 x hx e (by simp [he])
    have hr1 : s.rest = linesText i.lines ++ (linesText (items.map (·.lines)).flatten ++ t) := by
      rw [hr]; simp [linesText_append]
    obtain ⟨o1, line1, e1, e2, e3, _, _⟩ := obsHeadLoop_seen hgA hi1 hi2 ho hnew (left + items.length) hl hg hr1
    obtain ⟨o2, line2, f1, f2, f3⟩ := ih (done ++ [i]) (fun x hx => hw x (by simp [hx])) (by simpa using hp) left line1 o1 (s.past i.lines) t
      e2 e3 hg (Stream.past_rest hr1)
    refine ⟨o2, line2, ?_, by simpa using f2, f3⟩
    rw [List.length_cons, show left + (items.length + 1) = (left + items.length) + 1 by omega, e1, f1, Stream.past_past]
    simp

/-- **C60** (exact account, partial): a file with a well formed header is opened whatever its names and
antennas; the object has the first words of the names, the antenna made from the first word of its
columns, and everything else as in `C60_open_partial`.  Missing: lists with a multiple of 13 codes,
header lines shorter than 60 chars. -/
theorem C60_open_exact_partial {strptime : List Char → Res DateTime} {gAnt : Nat → List Char} (hgA : ∀ k, (gAnt k).length = 41) {g0 : List Char}
    (hg0 : g0.length = 41) (junk : List Char) (buf0 : Nat → List Char) {h : ObsHeader} (hw : h.Seen strptime)
    (hsup : ∀ t ∈ h.items.filterMap ObsItem.types?, t.2.length % 13 ≠ 0) (tail : List Char) :
    ∃ o s, obsOpen strptime gAnt false g0 junk buf0 (linesText h.lines ++ tail) = .ok (o, s, buf0 (obsBufSize o.obst)) ∧
      ObsSeen h.version.value h.sys h.items o ∧ s.content = linesText h.lines ++ tail ∧ s.good = true ∧ s.rest = tail ∧
      ∀ s' : Stream, s'.content = s.content → s'.fail = false → obsRewind o s' = s := by
  obtain ⟨a, s, hc, hg, hr, ho, he⟩ := obsOpen_start (strptime := strptime) (gAnt := gAnt) hg0 junk buf0 hw.first hw.version hw.kind hw.sys
    ⟨hw.second.1, hw.second.2.1⟩ ((h.items.map (·.lines)).flatten ++ [h.last]) tail
  have hr' : s.rest = linesText (h.items.map (·.lines)).flatten ++ (linesText [h.last] ++ tail) := by
    rw [hr, linesText_append]; simp
  obtain ⟨o', line', e1, e2, e3⟩ := obsHeadLoop_seens (strptime := strptime) (gAnt := gAnt) hgA h.items [] (fun i hi => ⟨hw.wf i hi, fun t ht => hsup t (List.mem_filterMap.2 ⟨i, hi, ht⟩)⟩)
    (by simpa using hw.once) (1000 - h.items.length) (fillLine (fillLine junk h.first) h.second) _ s _ ho.seen
    (by rw [obsLabel_line hw.second.1.2.1 hw.second.2.1 (by decide), decide_eq_false hw.second.2.2]) hg hr'
  have hfew := hw.few
  rw [show 1000 - h.items.length + h.items.length = 1000 by omega] at e1
  obtain ⟨k, hk⟩ : ∃ k, 1000 - h.items.length = (k + 1) + 1 := ⟨998 - h.items.length, by omega⟩
  rw [hk] at e1
  have hL := hw.last
  have h60 := hL.2.long (by decide)
  have hrl := Stream.past_rest hr'
  have hstep : obsHeadLoop strptime gAnt false (k + 1 + 1) line' o' (s.past (h.items.map (·.lines)).flatten) =
      .ok (0, k + 1, o', s.past ((h.items.map (·.lines)).flatten ++ [h.last])) := by
    rw [obsHeadLoop, e3, Res.bind_ok]
    simp only [Bool.false_eq_true, if_false]
    rw [getline_past (n := OBS_HEADER_CHARS) (Stream.past_good _ _ hg) hrl hL.1.1 hL.1.2.2]
    simp only
    rw [headLine_other (labelsAre_labelled hL (by decide) line') (fun q _ hq => hq), Res.bind_ok]
    simp only [ne_eq, not_true_eq_false, if_false]
    rw [obsHeadLoop, obsLabel_line hL.1.2.1 (Nat.le_of_lt h60) (by decide), decide_eq_true hL.2, Res.bind_ok, if_pos rfl, Stream.past_past]
    rfl
  rw [hstep] at e1
  have hgf : (s.past ((h.items.map (·.lines)).flatten ++ [h.last])).good = true := hg
  have hrf : (s.past ((h.items.map (·.lines)).flatten ++ [h.last])).rest = tail := Stream.past_rest hr
  have hcf : (s.past ((h.items.map (·.lines)).flatten ++ [h.last])).content = s.content := rfl
  generalize s.past ((h.items.map (·.lines)).flatten ++ [h.last]) = sf at *
  refine ⟨{ o' with endOfHead := some sf.pos }, sf, ?_, ?_, ?_, hgf, hrf, ?_⟩
  · unfold ObsHeader.lines
    rw [he, e1]
    simp only [Res.bind_ok, ne_eq, not_true_eq_false, if_false, Nat.add_eq_zero_iff, Nat.one_ne_zero, and_false, tellg_good hgf,
      Res.pure_eq, Res.noexcept_ok]
  · have := e2
    rw [List.nil_append] at this
    exact ⟨this.version, this.sys, this.marker, this.markerNo, this.receiver, this.antenna, this.position, this.delta, this.clock,
      this.firstObs, this.types, this.sorted⟩
  · rw [hcf]; exact hc
  · intro t h1 h2
    have := (Stream.good_iff sf).1 hgf
    unfold obsRewind Stream.seekg
    rw [h2]
    simp only [Bool.false_eq_true, if_false, h1]
    cases sf; simp_all


end Ggnss
