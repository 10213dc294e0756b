import Verif.Props.ObsTypes
import Verif.Props.Str
import Verif.Props.Antenna
/-!
# C60: opening an observation file
-/
namespace Ggnss

/-! ## Small facts -/

theorem lastOf_snoc {α β : Type} (f : α → Option β) (xs : List α) (x : α) :
    lastOf f (xs ++ [x]) = (match f x with | some y => some y | none => lastOf f xs) := by
  unfold lastOf
  rw [List.filterMap_append]
  cases h : f x with
  | none => simp [h]
  | some y => simp [h]

theorem firstWord_split : ∀ (t word u v : List Char), ' ' ∉ t → ' ' ∉ word → word ++ ' ' :: v = t ++ ' ' :: u → t = word := by
  intro t
  induction t with
  | nil =>
    intro word u v _ hw he
    cases word with
    | nil => rfl
    | cons c w => simp at he; exact absurd he.1 (by rintro rfl; simp at hw)
  | cons c t ih =>
    intro word u v ht hw he
    cases word with
    | nil => simp at he; exact absurd he.1 (by rintro rfl; simp at ht)
    | cons d w =>
      simp at he ht hw
      rw [he.1, ih w u v ht.2 hw.2 he.2]

theorem word_unique {txt t word : List Char} (h1 : IsFirstWord txt t) (h2 : WordCols txt word) : t = word := by
  obtain ⟨ha, hb⟩ := h1
  obtain ⟨hc, k, rfl⟩ := h2
  cases k with
  | zero =>
    rcases hb with hb | ⟨u, hb⟩
    · simpa using hb.symm
    · exfalso; apply hc; simp at hb; rw [hb]; simp
  | succ k =>
    rw [List.replicate_succ] at hb
    rcases hb with hb | ⟨u, hb⟩
    · exfalso; apply ha; rw [← hb]; simp
    · exact firstWord_split t word u _ ha hc hb

/-- Trimming columns `off … off+w-1` of a line: the word they show. -/
theorem rtrim_cols {l : List Char} (hl : NUL ∉ l) {off w : Nat} (ho : off ≤ l.length) {word : List Char}
    (h : WordCols (colsAt l off w) word) (junk : List Char) :
    rtrimStart ((fillLine junk l).drop off) (some w) = .ok (word, word.length) := by
  unfold fillLine
  rw [drop_line ho]
  obtain ⟨t, h1, h2⟩ := C07_rtrim_default (l.drop off) (junk.drop (l.length + 1)) (fun hx => hl (List.mem_of_mem_drop hx)) (some w)
  rw [h1, word_unique h2 h]

theorem char2double_three {l : List Char} {x y z : Numeral} (h : ThreeNumbers l x y z) (junk : List Char) :
    char2double false 14 3 (fillLine junk l) = .ok (true, [x.value, y.value, z.value]) := by
  obtain ⟨rest, rfl, hst, hw⟩ := h
  have := C09_fields_partial 14 [x, y, z] (rest ++ NUL :: junk.drop ((x.text ++ (y.text ++ (z.text ++ rest))).length + 1))
    (fun n hn => ⟨(hw n hn).1, (hw n hn).2.1⟩) (fun n hn => (hw n hn).2.2)
    (head_append_nul rest _ (fun c => c.isDigit = false ∧ c ≠ '.' ∧ c ≠ 'e' ∧ c ≠ 'E' ∧ c ≠ 'x' ∧ c ≠ 'X') hst (by decide)) (by simp)
  unfold fillLine
  simpa [List.append_assoc] using this

theorem obsClock_cols {l : List Char} {b : Bool} (hl : 60 < l.length) (h : IntCols 6 (colsAt l 0 6) (if b then 1 else 0))
    (h6 : l[6]? = some ' ') (junk : List Char) : obsClock false (fillLine junk l) = .ok (some b) := by
  have hstr : strtolA (fillLine junk l) = .ok (some (((if b then 1 else 0 : Nat) : Int), l.drop 6 ++ NUL :: junk.drop (l.length + 1), false)) := by
    have : fillLine junk l = colsAt l 0 6 ++ (l.drop 6 ++ NUL :: junk.drop (l.length + 1)) := by
      unfold fillLine colsAt
      rw [← List.append_assoc, List.drop_zero, List.take_append_drop]
    rw [this]
    refine strtol_cols h (by omega) ?_ (by simp)
    intro c hc
    have hd : l.drop 6 = ' ' :: l.drop 7 := by
      obtain ⟨hx, hy⟩ := List.getElem?_eq_some_iff.1 h6
      rw [List.drop_eq_getElem_cons hx, hy]
    rw [hd] at hc
    simp at hc; subst hc; decide
  have h32 := h.int32 (by omega)
  have hlen : ¬ ((fillLine junk l).drop 3).length = (l.drop 6 ++ NUL :: junk.drop (l.length + 1)).length := by
    unfold fillLine
    simp only [List.length_drop, List.length_append, List.length_cons]
    omega
  unfold obsClock
  rw [hstr, Res.bind_ok]
  simp only [strtolVal, strtolErr, strtolEnd, h32, Bool.false_eq_true, or_self, false_or, hlen]
  cases b <;> simp

theorem obsAntenna_cols {l model g : List Char} (hf : LineFits 84 l) (hl : 60 < l.length) (hm : WordCols (colsAt l 20 16) model)
    (hm16 : model.length < 16) (hg : g.length = 41) (junk : List Char) :
    ∃ a, obsAntenna g (fillLine junk l) = .ok a ∧ AntReach a (.fromCStr model) (if ∀ c ∈ colsAt l 0 20, c = ' ' then [] else [l]) ∧
      antText a = .ok (antennaText (some (model, c!"NONE", colsAt l 0 20))) := by
  have hw : WordCols (colsAt l 20 16) model := hm
  have htrim : rtrimStart ((fillLine junk l).drop 20) (some 20) = .ok (model, model.length) := by
    unfold fillLine
    rw [drop_line (by omega)]
    obtain ⟨t, h1, h2⟩ := C07_rtrim_default (l.drop 20) (junk.drop (l.length + 1)) (fun hx => hf.2.1 (List.mem_of_mem_drop hx)) (some 20)
    rw [h1]
    suffices t = model by rw [this]
    obtain ⟨hb, k, hk⟩ := hm
    have hkk : 0 < k := by
      have := congrArg List.length hk
      simp [colsAt] at this; omega
    obtain ⟨k, rfl⟩ : ∃ j, k = j + 1 := ⟨k - 1, by omega⟩
    have hsplit : (l.drop 20).take 20 = model ++ ' ' :: (List.replicate k ' ' ++ colsAt l 36 4) := by
      have : (l.drop 20).take 20 = colsAt l 20 16 ++ colsAt l 36 4 := by
        unfold colsAt
        rw [show l.drop 36 = (l.drop 20).drop 16 by rw [List.drop_drop], show (20 : Nat) = 16 + 4 from rfl, List.take_add]
      rw [this, hk, List.replicate_succ]; simp
    obtain ⟨ht, h3⟩ := h2
    unfold considered at h3
    simp only at h3
    rw [hsplit] at h3
    rcases h3 with h3 | ⟨u, h3⟩
    · exfalso; apply ht; rw [← h3]; simp
    · exact firstWord_split t model u _ ht hb h3
  have hmc : IsCStr model := by
    obtain ⟨_, k, hk⟩ := hw
    intro hx
    apply hf.2.1
    have : NUL ∈ colsAt l 20 16 := by rw [hk]; simp [hx]
    unfold colsAt at this
    exact List.mem_of_mem_drop (List.mem_of_mem_take this)
  have hemp : stringIsEmpty (fillLine junk l) (some 20) = .ok (decide (∀ c ∈ colsAt l 0 20, c = ' ')) := C07_is_empty l _ hf.2.1 (some 20)
  have hspec : specModel (.fromCStr model) = model ++ List.replicate (16 - model.length) ' ' ++ c!"NONE" := by
    unfold specModel padTo
    simp only
    rw [if_neg (by omega)]
    congr 1
    rw [List.take_append, List.take_of_length_le (by omega), List.take_replicate]
    congr 2; omega
  have hpad : padTo 20 l = colsAt l 0 20 := by
    unfold padTo colsAt
    rw [List.take_append_of_le_length (by omega), List.drop_zero]
  have hlc : ∀ s ∈ [l], IsCStr s := by intro s hs; rw [List.mem_singleton.1 hs]; exact hf.2.1
  by_cases hbl : ∀ c ∈ colsAt l 0 20, c = ' '
  · obtain ⟨a, e1, e2, e3, e4, e5⟩ := C10_wellformed g hg (.fromCStr model) [] hmc (by simp)
    refine ⟨a, ?_, ?_, ?_⟩
    · unfold obsAntenna
      rw [htrim, Res.bind_ok]
      unfold antRun antNew at e1
      simp only at e1
      obtain ⟨a', h1, h2⟩ := Res.bind_eq_ok.1 e1
      unfold antSetSerials at h2
      cases h2
      rw [h1, Res.bind_ok, hemp, Res.bind_ok, decide_eq_true hbl]
      rfl
    · rw [if_pos hbl]; exact ⟨g, hg, hmc, by simp, e1⟩
    · rw [e5]
      unfold specText antennaText
      simp only [if_pos hbl, hspec]
      simp
  · obtain ⟨a, e1, e2, e3, e4, e5⟩ := C10_wellformed g hg (.fromCStr model) [l] hmc hlc
    refine ⟨a, ?_, ?_, ?_⟩
    · unfold obsAntenna
      rw [htrim, Res.bind_ok]
      unfold antRun antNew at e1
      simp only at e1
      obtain ⟨a', h1, h2⟩ := Res.bind_eq_ok.1 e1
      unfold antSetSerials at h2
      obtain ⟨a2, h2, h3⟩ := Res.bind_eq_ok.1 h2
      unfold antSetSerials at h3
      cases h3
      rw [h1, Res.bind_ok, hemp, Res.bind_ok, decide_eq_false hbl, cstrOf_fill hf.2.1]
      exact h2
    · rw [if_neg hbl]; exact ⟨g, hg, hmc, hlc, e1⟩
    · rw [e5]
      unfold specText antennaText
      simp only [if_neg hbl, hspec, List.getLast?_singleton, hpad]
      simp

/-! ## One line of the header -/

open ObsItem in
theorem known_excl : ∀ p ∈ knownLabels, ∀ q ∈ knownLabels, q ≠ p → ¬ p <+: q := by decide

/-- What the label tests say about a line in the array. -/
def LabelsAre (line : List Char) (P : List Char → Prop) : Prop :=
  ∀ q ∈ ObsItem.knownLabels, (P q → obsLabel line q = .ok true) ∧ (¬ P q → obsLabel line q = .ok false)

theorem known_cstr : ∀ q ∈ ObsItem.knownLabels, IsCStr q := by decide

theorem labelsAre_line {l : List Char} (hl : NUL ∉ l) (h60 : 60 ≤ l.length) (junk : List Char) :
    LabelsAre (fillLine junk l) (HasLabel l) := by
  intro q hq
  rw [obsLabel_line hl h60 (known_cstr q hq)]
  exact ⟨fun h => by rw [decide_eq_true h], fun h => by rw [decide_eq_false h]⟩

theorem labelsAre_labelled {l p : List Char} (h : Labelled l p) (hp : p ∈ ObsItem.knownLabels) (junk : List Char) :
    LabelsAre (fillLine junk l) (· = p) := by
  have hne : p ≠ [] := by revert hp; revert p; intro p _ hp hx; subst hx; exact absurd hp (by decide)
  have h60 := h.2.long hne
  intro q hq
  have := labelsAre_line h.1.2.1 (Nat.le_of_lt h60) junk q hq
  refine ⟨fun e => this.1 (by rw [e]; exact h.2), fun e => this.2 (h.2.excl (known_excl p hp q hq e) (known_excl q hq p hp (Ne.symm e)))⟩

section line
variable {strptime : List Char → Res DateTime} {gAnt : Nat → List Char} {e0 : Bool} {line : List Char} {o : ObsFileObj} {s : Stream}

theorem headLine_marker (h : LabelsAre line (· = c!"MARKER NAME")) : obsHeadLine strptime gAnt e0 line o s = (do
    let t ← rtrimStart line (some 60)
    pure (0, { o with markerName := t.1 }, s)) := by
  simp only [obsHeadLine, (h c!"MARKER NAME" (by decide)).1 rfl, Res.bind_ok, if_true]

theorem headLine_markerNo (h : LabelsAre line (· = c!"MARKER NUMBER")) : obsHeadLine strptime gAnt e0 line o s = (do
    let t ← rtrimStart line (some 20)
    pure (0, { o with markerNumber := t.1 }, s)) := by
  simp only [obsHeadLine, (h c!"MARKER NAME" (by decide)).2 (by decide), (h c!"MARKER NUMBER" (by decide)).1 rfl, Res.bind_ok, if_true,
    Bool.false_eq_true, if_false]

theorem headLine_receiver (h : LabelsAre line (· = c!"REC # / TYPE / VERS")) : obsHeadLine strptime gAnt e0 line o s = (do
    let t ← rtrimStart line (some 20)
    let u ← rtrimStart (line.drop 20) (some 20)
    pure (0, { o with recNumber := t.1, recType := u.1 }, s)) := by
  simp only [obsHeadLine, (h c!"MARKER NAME" (by decide)).2 (by decide), (h c!"MARKER NUMBER" (by decide)).2 (by decide),
    (h c!"REC # / TYPE / VERS" (by decide)).1 rfl, Res.bind_ok, if_true, Bool.false_eq_true, if_false]

theorem headLine_antenna (h : LabelsAre line (· = c!"ANT # / TYPE")) : obsHeadLine strptime gAnt e0 line o s = (do
    let a ← obsAntenna (gAnt s.pos) line
    pure (0, { o with antenna := a }, s)) := by
  simp only [obsHeadLine, (h c!"MARKER NAME" (by decide)).2 (by decide), (h c!"MARKER NUMBER" (by decide)).2 (by decide),
    (h c!"REC # / TYPE / VERS" (by decide)).2 (by decide), (h c!"ANT # / TYPE" (by decide)).1 rfl, Res.bind_ok, if_true, Bool.false_eq_true,
    if_false]

theorem headLine_position (h : LabelsAre line (· = c!"APPROX POSITION XYZ")) : obsHeadLine strptime gAnt e0 line o s = (do
    let r ← char2double e0 14 3 line
    if r.1 then pure (0, { o with approx := r.2 }, s) else pure (51, o, s)) := by
  simp only [obsHeadLine, (h c!"MARKER NAME" (by decide)).2 (by decide), (h c!"MARKER NUMBER" (by decide)).2 (by decide),
    (h c!"REC # / TYPE / VERS" (by decide)).2 (by decide), (h c!"ANT # / TYPE" (by decide)).2 (by decide),
    (h c!"APPROX POSITION XYZ" (by decide)).1 rfl, Res.bind_ok, if_true, Bool.false_eq_true, if_false]

theorem headLine_delta (h : LabelsAre line (· = c!"ANTENNA: DELTA H/E/N")) : obsHeadLine strptime gAnt e0 line o s = (do
    let r ← char2double e0 14 3 line
    if r.1 then pure (0, { o with ecc := r.2 }, s) else pure (52, o, s)) := by
  simp only [obsHeadLine, (h c!"MARKER NAME" (by decide)).2 (by decide), (h c!"MARKER NUMBER" (by decide)).2 (by decide),
    (h c!"REC # / TYPE / VERS" (by decide)).2 (by decide), (h c!"ANT # / TYPE" (by decide)).2 (by decide),
    (h c!"APPROX POSITION XYZ" (by decide)).2 (by decide), (h c!"ANTENNA: DELTA H/E/N" (by decide)).1 rfl, Res.bind_ok, if_true,
    Bool.false_eq_true, if_false]

theorem headLine_types (h : LabelsAre line (· = c!"SYS / # / OBS TYPES")) : obsHeadLine strptime gAnt e0 line o s = (do
    let r ← obsTypesResolve e0 line o.obst s
    pure (r.1, { o with obst := r.2.1 }, r.2.2)) := by
  simp only [obsHeadLine, (h c!"MARKER NAME" (by decide)).2 (by decide), (h c!"MARKER NUMBER" (by decide)).2 (by decide),
    (h c!"REC # / TYPE / VERS" (by decide)).2 (by decide), (h c!"ANT # / TYPE" (by decide)).2 (by decide),
    (h c!"APPROX POSITION XYZ" (by decide)).2 (by decide), (h c!"ANTENNA: DELTA H/E/N" (by decide)).2 (by decide),
    (h c!"SYS / # / OBS TYPES" (by decide)).1 rfl, Res.bind_ok, if_true, Bool.false_eq_true, if_false]

theorem headLine_clock (h : LabelsAre line (· = c!"RCV CLOCK OFFS APPL")) : obsHeadLine strptime gAnt e0 line o s = (do
    match ← obsClock e0 line with
    | none => pure (60, o, s)
    | some b => pure (0, { o with clkApplied := b }, s)) := by
  simp only [obsHeadLine, (h c!"MARKER NAME" (by decide)).2 (by decide), (h c!"MARKER NUMBER" (by decide)).2 (by decide),
    (h c!"REC # / TYPE / VERS" (by decide)).2 (by decide), (h c!"ANT # / TYPE" (by decide)).2 (by decide),
    (h c!"APPROX POSITION XYZ" (by decide)).2 (by decide), (h c!"ANTENNA: DELTA H/E/N" (by decide)).2 (by decide),
    (h c!"SYS / # / OBS TYPES" (by decide)).2 (by decide), (h c!"RCV CLOCK OFFS APPL" (by decide)).1 rfl, Res.bind_ok, if_true,
    Bool.false_eq_true, if_false]
  rfl

theorem headLine_firstObs (h : LabelsAre line (· = c!"TIME OF FIRST OBS")) {t : DateTime} (ht : strptime line = .ok t) :
    obsHeadLine strptime gAnt e0 line o s = .ok (0, { o with firstObs := some t }, s) := by
  simp only [obsHeadLine, (h c!"MARKER NAME" (by decide)).2 (by decide), (h c!"MARKER NUMBER" (by decide)).2 (by decide),
    (h c!"REC # / TYPE / VERS" (by decide)).2 (by decide), (h c!"ANT # / TYPE" (by decide)).2 (by decide),
    (h c!"APPROX POSITION XYZ" (by decide)).2 (by decide), (h c!"ANTENNA: DELTA H/E/N" (by decide)).2 (by decide),
    (h c!"SYS / # / OBS TYPES" (by decide)).2 (by decide), (h c!"RCV CLOCK OFFS APPL" (by decide)).2 (by decide),
    (h c!"TIME OF FIRST OBS" (by decide)).1 rfl, Res.bind_ok, if_true, Bool.false_eq_true, if_false, ht, Res.pure_eq]

theorem headLine_other {P : List Char → Prop} (h : LabelsAre line P) (hn : ∀ q ∈ ObsItem.knownLabels, q ≠ c!"END OF HEADER" → ¬ P q) :
    obsHeadLine strptime gAnt e0 line o s = .ok (0, o, s) := by
  simp only [obsHeadLine, (h c!"MARKER NAME" (by decide)).2 (hn _ (by decide) (by decide)),
    (h c!"MARKER NUMBER" (by decide)).2 (hn _ (by decide) (by decide)), (h c!"REC # / TYPE / VERS" (by decide)).2 (hn _ (by decide) (by decide)),
    (h c!"ANT # / TYPE" (by decide)).2 (hn _ (by decide) (by decide)), (h c!"APPROX POSITION XYZ" (by decide)).2 (hn _ (by decide) (by decide)),
    (h c!"ANTENNA: DELTA H/E/N" (by decide)).2 (hn _ (by decide) (by decide)),
    (h c!"SYS / # / OBS TYPES" (by decide)).2 (hn _ (by decide) (by decide)), (h c!"RCV CLOCK OFFS APPL" (by decide)).2 (hn _ (by decide) (by decide)),
    (h c!"TIME OF FIRST OBS" (by decide)).2 (hn _ (by decide) (by decide)), Res.bind_ok, Bool.false_eq_true, if_false, Res.pure_eq]

end line

/-! ## The whole header -/

/-- The object says what the entries say (of several entries of a kind, the last). -/
structure ObsTells (version : Rat) (sys : SatSys) (items : List ObsItem) (o : ObsFileObj) : Prop where
  version : o.version = version
  sys : o.sys = sys
  marker : o.markerName = (lastOf ObsItem.marker? items).getD []
  markerNo : o.markerNumber = (lastOf ObsItem.markerNo? items).getD []
  receiver : (o.recNumber, o.recType) = (lastOf ObsItem.receiver? items).getD ([], [])
  antenna : antText o.antenna = .ok (antennaText (lastOf ObsItem.antenna? items))
  position : o.approx = (lastOf ObsItem.position? items).getD [0, 0, 0]
  delta : o.ecc = (lastOf ObsItem.delta? items).getD [0, 0, 0]
  clock : o.clkApplied = (lastOf ObsItem.clock? items).getD false
  firstObs : o.firstObs = lastOf ObsItem.firstObs? items
  types : ∀ q, o.obst.lookup q = (items.filterMap ObsItem.types?).lookup q
  sorted : o.obst.Pairwise (fun a b => sysRank a.1 < sysRank b.1)

theorem obsInsert_sorted {sys : SatSys} {v : List ObsCode} : ∀ (m : ObsTypes), m.lookup sys = none →
    m.Pairwise (fun a b => sysRank a.1 < sysRank b.1) → (obsInsert sys v m).Pairwise (fun a b => sysRank a.1 < sysRank b.1) ∧
      ∀ e ∈ obsInsert sys v m, e = (sys, v) ∨ e ∈ m := by
  intro m
  induction m with
  | nil => intro _ _; simp [obsInsert]
  | cons e m ih =>
    intro hn hs
    rw [List.lookup_cons] at hn
    have he : (sys == e.1) = false := by
      cases h : sys == e.1 with
      | true => rw [h] at hn; cases hn
      | false => rfl
    rw [he] at hn
    rw [List.pairwise_cons] at hs
    unfold obsInsert
    split
    · rename_i hlt
      refine ⟨?_, by simp⟩
      rw [List.pairwise_cons, List.pairwise_cons]
      refine ⟨?_, hs⟩
      intro a ha
      rcases List.mem_cons.1 ha with rfl | ha
      · exact hlt
      · exact Nat.lt_trans hlt (hs.1 a ha)
    · rename_i hlt
      obtain ⟨h1, h2⟩ := ih hn hs.2
      have hne : sysRank e.1 < sysRank sys := by
        rcases Nat.lt_trichotomy (sysRank e.1) (sysRank sys) with h | h | h
        · exact h
        · exact absurd (sysRank_inj h) (by rintro rfl; simp at he)
        · exact absurd h hlt
      refine ⟨?_, ?_⟩
      · rw [List.pairwise_cons]
        refine ⟨?_, h1⟩
        intro a ha
        rcases h2 a ha with rfl | ha
        · exact hne
        · exact hs.1 a ha
      · intro a ha
        rcases List.mem_cons.1 ha with rfl | ha
        · right; simp
        · rcases h2 a ha with h | h
          · left; exact h
          · right; simp [h]

theorem ObsItem.single {i : ObsItem} {strptime : List Char → Res DateTime} (h : i.Says strptime) (hn : i.types? = none) :
    ∃ l, i.lines = [l] ∧ LineFits 84 l ∧ 60 ≤ l.length ∧ ¬ HasLabel l c!"END OF HEADER" := by
  have key : ∀ (l p : List Char), Labelled l p → p ∈ ObsItem.knownLabels → p ≠ c!"END OF HEADER" → p ≠ [] →
      LineFits 84 l ∧ 60 ≤ l.length ∧ ¬ HasLabel l c!"END OF HEADER" := by
    intro l p h1 h2 h3 h4
    exact ⟨h1.1, Nat.le_of_lt (h1.2.long h4), h1.2.excl (known_excl p h2 _ (by decide) (Ne.symm h3)) (known_excl _ (by decide) p h2 h3)⟩
  cases i with
  | other l => exact ⟨l, rfl, h.1, h.2.1, h.2.2 _ (by decide)⟩
  | marker l n => exact ⟨l, rfl, key l _ h.1 (by decide) (by decide) (by decide)⟩
  | markerNo l n => exact ⟨l, rfl, key l _ h.1 (by decide) (by decide) (by decide)⟩
  | receiver l n t => exact ⟨l, rfl, key l _ h.1 (by decide) (by decide) (by decide)⟩
  | antenna l m r => exact ⟨l, rfl, key l _ h.1 (by decide) (by decide) (by decide)⟩
  | position l x y z => exact ⟨l, rfl, key l _ h.1 (by decide) (by decide) (by decide)⟩
  | delta l x y z => exact ⟨l, rfl, key l _ h.1 (by decide) (by decide) (by decide)⟩
  | types e => cases hn
  | clock l b => exact ⟨l, rfl, key l _ h.1 (by decide) (by decide) (by decide)⟩
  | firstObs l t => exact ⟨l, rfl, key l _ h.1 (by decide) (by decide) (by decide)⟩

theorem ObsTells.snoc {v : Rat} {sys : SatSys} {done : List ObsItem} {o o' : ObsFileObj} (ho : ObsTells v sys done o) {i : ObsItem}
    (hnew : ∀ e, i.types? = some e → (done.filterMap ObsItem.types?).lookup e.1 = none)
    (h1 : (o'.version, o'.sys) = (o.version, o.sys)) (h2 : o'.markerName = i.marker?.getD o.markerName)
    (h3 : o'.markerNumber = i.markerNo?.getD o.markerNumber) (h4 : (o'.recNumber, o'.recType) = i.receiver?.getD (o.recNumber, o.recType))
    (h5 : antText o'.antenna = match i.antenna? with | none => antText o.antenna | some a => .ok (antennaText (some a)))
    (h6 : o'.approx = i.position?.getD o.approx) (h7 : o'.ecc = i.delta?.getD o.ecc) (h8 : o'.clkApplied = i.clock?.getD o.clkApplied)
    (h9 : o'.firstObs = i.firstObs?.or o.firstObs)
    (h10 : o'.obst = match i.types? with | none => o.obst | some e => obsInsert e.1 e.2 o.obst) : ObsTells v sys (done ++ [i]) o' := by
  have lo := fun {β : Type} (f : ObsItem → Option β) => lastOf_snoc f done i
  injection h1 with h1 h1'
  constructor
  · rw [h1]; exact ho.version
  · rw [h1']; exact ho.sys
  · rw [h2, lo, ho.marker]; cases i.marker? <;> rfl
  · rw [h3, lo, ho.markerNo]; cases i.markerNo? <;> rfl
  · rw [h4, lo, ho.receiver]; cases i.receiver? <;> rfl
  · rw [h5, lo, ho.antenna]; cases i.antenna? <;> rfl
  · rw [h6, lo, ho.position]; cases i.position? <;> rfl
  · rw [h7, lo, ho.delta]; cases i.delta? <;> rfl
  · rw [h8, lo, ho.clock]; cases i.clock? <;> rfl
  · rw [h9, lo, ho.firstObs]; cases i.firstObs? <;> rfl
  · intro q
    rw [h10, List.filterMap_append, List.lookup_append]
    cases hi : i.types? with
    | none => simp [hi, ho.types q]
    | some e =>
      have hn := hnew e hi
      simp only
      rw [lookup_obsInsert _ _ _ (by rw [ho.types]; exact hn), ho.types q]
      have hone : ([i].filterMap ObsItem.types?).lookup q = if q = e.1 then some e.2 else none := by
        have : [i].filterMap ObsItem.types? = [(e.1, e.2)] := by simp [hi]
        rw [this, List.lookup_cons]
        by_cases hq : q = e.1
        · simp [hq]
        · rw [beq_false_of_ne hq, if_neg hq]; rfl
      rw [hone]
      by_cases hq : q = e.1
      · rw [if_pos hq, if_pos hq, hq, hn]; simp
      · rw [if_neg hq, if_neg hq]; simp
  · rw [h10]
    cases hi : i.types? with
    | none => exact ho.sorted
    | some e => exact (obsInsert_sorted _ (by rw [ho.types]; exact hnew e hi) ho.sorted).1

/-- One entry: one pass of the loop. -/
theorem obsHeadLoop_item {strptime : List Char → Res DateTime} {gAnt : Nat → List Char} (hgA : ∀ k, (gAnt k).length = 41) {i : ObsItem}
    (h : i.Says strptime) (hsup : i.Supported) {done : List ObsItem} {v : Rat} {sys : SatSys} {o : ObsFileObj} (ho : ObsTells v sys done o)
    (hnew : ∀ e, i.types? = some e → (done.filterMap ObsItem.types?).lookup e.1 = none) (left : Nat) {line : List Char}
    (hend : obsLabel line c!"END OF HEADER" = .ok false) {s : Stream} {t : List Char} (hg : s.good = true)
    (hr : s.rest = linesText i.lines ++ t) :
    ∃ o' line', obsHeadLoop strptime gAnt false (left + 1) line o s = obsHeadLoop strptime gAnt false left line' o' (s.past i.lines) ∧
      ObsTells v sys (done ++ [i]) o' ∧ obsLabel line' c!"END OF HEADER" = .ok false ∧ o'.endOfHead = o.endOfHead ∧
      ∀ l, i.lines = [l] → line' = fillLine line l := by
  have step : ∀ (l : List Char) (ls : List (List Char)) (o' : ObsFileObj), i.lines = l :: ls → LineFits 84 l → 60 ≤ l.length →
      ¬ HasLabel l c!"END OF HEADER" →
      obsHeadLine strptime gAnt false (fillLine line l) o (s.past [l]) = .ok (0, o', s.past i.lines) →
      ObsTells v sys (done ++ [i]) o' → o'.endOfHead = o.endOfHead →
      ∃ o' line', obsHeadLoop strptime gAnt false (left + 1) line o s = obsHeadLoop strptime gAnt false left line' o' (s.past i.lines) ∧
        ObsTells v sys (done ++ [i]) o' ∧ obsLabel line' c!"END OF HEADER" = .ok false ∧ o'.endOfHead = o.endOfHead ∧
        ∀ l, i.lines = [l] → line' = fillLine line l := by
    intro l ls o' hi hf h60 hne hb ht he
    refine ⟨o', fillLine line l, ?_, ht, ?_, he, ?_⟩
    · rw [hi] at hr
      rw [obsHeadLoop, hend, Res.bind_ok]
      simp only [Bool.false_eq_true, if_false]
      rw [getline_past (n := OBS_HEADER_CHARS) hg hr hf.1 hf.2.2, hb, Res.bind_ok]
      simp
    · rw [obsLabel_line hf.2.1 h60 (by decide), decide_eq_false hne]
    · intro l' hl'; rw [hi] at hl'; injection hl' with hl' _; rw [hl']
  cases i with
  | other l =>
    exact step l [] o rfl h.1 h.2.1 (h.2.2 _ (by decide))
      (headLine_other (labelsAre_line h.1.2.1 h.2.1 line) (fun q hq _ => h.2.2 q hq))
      (ho.snoc hnew rfl rfl rfl rfl rfl rfl rfl rfl rfl rfl) rfl
  | marker l n =>
    obtain ⟨l', hl', hs1, hs2, hs3⟩ := ObsItem.single h rfl
    cases hl'
    refine step l [] { o with markerName := n } rfl hs1 hs2 hs3 ?_ (ho.snoc hnew rfl rfl rfl rfl rfl rfl rfl rfl rfl rfl) rfl
    rw [headLine_marker (labelsAre_labelled h.1 (by decide) line)]
    have := rtrim_cols hs1.2.1 (Nat.zero_le _) h.2 line
    rw [List.drop_zero] at this
    rw [this]; rfl
  | markerNo l n =>
    obtain ⟨l', hl', hs1, hs2, hs3⟩ := ObsItem.single h rfl
    cases hl'
    refine step l [] { o with markerNumber := n } rfl hs1 hs2 hs3 ?_ (ho.snoc hnew rfl rfl rfl rfl rfl rfl rfl rfl rfl rfl) rfl
    rw [headLine_markerNo (labelsAre_labelled h.1 (by decide) line)]
    have := rtrim_cols hs1.2.1 (Nat.zero_le _) h.2 line
    rw [List.drop_zero] at this
    rw [this]; rfl
  | receiver l n ty =>
    obtain ⟨l', hl', hs1, hs2, hs3⟩ := ObsItem.single h rfl
    cases hl'
    refine step l [] { o with recNumber := n, recType := ty } rfl hs1 hs2 hs3 ?_ (ho.snoc hnew rfl rfl rfl rfl rfl rfl rfl rfl rfl rfl) rfl
    rw [headLine_receiver (labelsAre_labelled h.1 (by decide) line)]
    have h1 := rtrim_cols hs1.2.1 (Nat.zero_le _) h.2.1 line
    have h2 := rtrim_cols hs1.2.1 (by omega) h.2.2 line
    rw [List.drop_zero] at h1
    rw [h1, Res.bind_ok, h2]; rfl
  | antenna l m r =>
    obtain ⟨l', hl', hs1, hs2, hs3⟩ := ObsItem.single h rfl
    cases hl'
    have hrn : r = c!"NONE" := hsup.2 (m, r, colsAt l 0 20) rfl
    obtain ⟨a, h1, _, h2⟩ := obsAntenna_cols hs1 (h.1.2.long (by decide)) h.2.1 h.2.2.2.1 (hgA (s.past [l]).pos) line
    refine step l [] { o with antenna := a } rfl hs1 hs2 hs3 ?_ (ho.snoc hnew rfl rfl rfl rfl (by rw [← hrn] at h2; exact h2) rfl rfl rfl rfl rfl) rfl
    rw [headLine_antenna (labelsAre_labelled h.1 (by decide) line), h1]; rfl
  | position l x y z =>
    obtain ⟨l', hl', hs1, hs2, hs3⟩ := ObsItem.single h rfl
    cases hl'
    refine step l [] { o with approx := [x.value, y.value, z.value] } rfl hs1 hs2 hs3 ?_ (ho.snoc hnew rfl rfl rfl rfl rfl rfl rfl rfl rfl rfl) rfl
    rw [headLine_position (labelsAre_labelled h.1 (by decide) line), char2double_three h.2]; rfl
  | delta l x y z =>
    obtain ⟨l', hl', hs1, hs2, hs3⟩ := ObsItem.single h rfl
    cases hl'
    refine step l [] { o with ecc := [x.value, y.value, z.value] } rfl hs1 hs2 hs3 ?_ (ho.snoc hnew rfl rfl rfl rfl rfl rfl rfl rfl rfl rfl) rfl
    rw [headLine_delta (labelsAre_labelled h.1 (by decide) line), char2double_three h.2]; rfl
  | types e =>
    obtain ⟨hsh, hne⟩ := h
    have hpos : 0 < e.codes.length := List.length_pos_iff.2 hne
    have hcnt := hsh.count
    obtain ⟨l, ls, hls⟩ : ∃ l ls, e.lines = l :: ls := by
      cases hl : e.lines with
      | nil => rw [hl] at hcnt; simp at hcnt; omega
      | cons l ls => exact ⟨l, ls, rfl⟩
    have hlab := hsh.labelled l (by rw [hls]; simp)
    have h60 := hlab.2.long (by decide)
    have hn := hnew (e.sys, e.codes) rfl
    have hn' : o.obst.lookup e.sys = none := by rw [ho.types]; exact hn
    have hr1 : (s.past [l]).rest = linesText ls ++ t := rest_cons (by rw [show s.rest = _ from hr]; show linesText e.lines ++ t = _; rw [hls])
    refine step l ls { o with obst := obsInsert e.sys e.codes o.obst } hls hlab.1 (Nat.le_of_lt h60)
      (hlab.2.excl (by decide) (by decide)) ?_ (ho.snoc hnew rfl rfl rfl rfl rfl rfl rfl rfl rfl rfl) rfl
    rw [headLine_types (labelsAre_labelled hlab (by decide) line), obsTypesResolve_start hsh hls line hn' _ hne,
      (obsTypesLoop_end hsh hls line (s := s.past [l]) hg hr1 hne).1 (hsup.1 (e.sys, e.codes) rfl), Res.bind_ok]
    have : (ObsItem.types e).lines = [l] ++ ls := hls
    rw [this, ← Stream.past_past]
    simp
  | clock l b =>
    obtain ⟨l', hl', hs1, hs2, hs3⟩ := ObsItem.single h rfl
    cases hl'
    refine step l [] { o with clkApplied := b } rfl hs1 hs2 hs3 ?_ (ho.snoc hnew rfl rfl rfl rfl rfl rfl rfl rfl rfl rfl) rfl
    rw [headLine_clock (labelsAre_labelled h.1 (by decide) line), obsClock_cols (h.1.2.long (by decide)) h.2.1 h.2.2]; rfl
  | firstObs l dt =>
    obtain ⟨l', hl', hs1, hs2, hs3⟩ := ObsItem.single h rfl
    cases hl'
    exact step l [] { o with firstObs := some dt } rfl hs1 hs2 hs3
      (headLine_firstObs (labelsAre_labelled h.1 (by decide) line) (h.2 _)) (ho.snoc hnew rfl rfl rfl rfl rfl rfl rfl rfl rfl rfl) rfl

theorem lookup_none_of_keys {m : List (SatSys × List ObsCode)} {k : SatSys} (h : ∀ e ∈ m, e.1 ≠ k) : m.lookup k = none := by
  induction m with
  | nil => rfl
  | cons e m ih =>
    rw [List.lookup_cons, beq_false_of_ne (Ne.symm (h e (by simp)))]
    exact ih (fun x hx => h x (by simp [hx]))

/-- Any number of entries. -/
theorem obsHeadLoop_items {strptime : List Char → Res DateTime} {gAnt : Nat → List Char} (hgA : ∀ k, (gAnt k).length = 41) {v : Rat}
    {sys : SatSys} : ∀ (items done : List ObsItem), (∀ i ∈ items, i.Says strptime ∧ i.Supported) →
    ((done ++ items).filterMap ObsItem.types?).Pairwise (fun a b => a.1 ≠ b.1) → ∀ (left : Nat) (line : List Char) (o : ObsFileObj) (s : Stream)
    (t : List Char), ObsTells v sys done o → obsLabel line c!"END OF HEADER" = .ok false → s.good = true →
    s.rest = linesText (items.map (·.lines)).flatten ++ t →
    ∃ o' line', obsHeadLoop strptime gAnt false (left + items.length) line o s =
        obsHeadLoop strptime gAnt false left line' o' (s.past (items.map (·.lines)).flatten) ∧
      ObsTells v sys (done ++ items) o' ∧ obsLabel line' c!"END OF HEADER" = .ok false := by
  intro items
  induction items with
  | nil =>
    intro done _ _ left line o s t ho hl hg hr
    exact ⟨o, line, by simp [Stream.past_nil], by simpa using ho, hl⟩
  | cons i items ih =>
    intro done hw hp left line o s t ho hl hg hr
    obtain ⟨hi1, hi2⟩ := hw i (by simp)
    have hnew : ∀ e, i.types? = some e → (done.filterMap ObsItem.types?).lookup e.1 = none := by
      intro e he
      rw [List.filterMap_append, List.pairwise_append] at hp
      apply lookup_none_of_keys
      intro x hx
      exact hp.2.2 x hx e (by simp [he])
    have hr1 : s.rest = linesText i.lines ++ (linesText (items.map (·.lines)).flatten ++ t) := by
      rw [hr]; simp [linesText_append]
    obtain ⟨o1, line1, e1, e2, e3, _, _⟩ := obsHeadLoop_item hgA hi1 hi2 ho hnew (left + items.length) hl hg hr1
    obtain ⟨o2, line2, f1, f2, f3⟩ := ih (done ++ [i]) (fun x hx => hw x (by simp [hx])) (by simpa using hp) left line1 o1 (s.past i.lines) t
      e2 e3 hg (Stream.past_rest hr1)
    refine ⟨o2, line2, ?_, by simpa using f2, f3⟩
    rw [List.length_cons, show left + (items.length + 1) = (left + items.length) + 1 by omega, e1, f1, Stream.past_past]
    simp

/-- What `obsOpen` does up to the loop. -/
theorem obsOpen_start {strptime : List Char → Res DateTime} {gAnt : Nat → List Char} {g0 : List Char} (hg0 : g0.length = 41)
    (junk : List Char) (buf0 : Nat → List Char) {first second : List Char} {ver : Numeral} {sys : SatSys}
    (h1 : LineFits 84 first ∧ 60 ≤ first.length) (hv : NumAt first 0 ver ∧ FitsFloat ver.value) (hk : first[20]? = some 'O')
    (hs : first[40]? = some (satsysToChar sys)) (h2 : LineFits 84 second ∧ 60 ≤ second.length) (ls : List (List Char)) (tail : List Char) :
    ∃ a s, s.content = linesText (first :: second :: ls) ++ tail ∧ s.good = true ∧ s.rest = linesText ls ++ tail ∧
      ObsTells ver.value sys [] { obsInitial a with version := ver.value, sys := sys } ∧
      obsOpen strptime gAnt false g0 junk buf0 (linesText (first :: second :: ls) ++ tail) =
        (Res.noexcept (do
          let r ← obsHeadLoop strptime gAnt false 1000 (fillLine (fillLine junk first) second) { obsInitial a with version := ver.value, sys := sys } s
          if r.1 ≠ 0 then pure (r.1, r.2.2.1, r.2.2.2)
          else if r.2.1 = 0 then pure (20, r.2.2.1, r.2.2.2)
          else pure (0, { r.2.2.1 with endOfHead := r.2.2.2.tellg.1 }, r.2.2.2.tellg.2)) >>= fun r =>
        if r.1 ≠ 0 then .throw .runtime_error else pure (r.2.1, r.2.2, buf0 (obsBufSize r.2.1.obst))) := by
  generalize hct : linesText (first :: second :: ls) ++ tail = content
  have hg : (⟨content, 0, false, false⟩ : Stream).good = true := rfl
  have hr : (⟨content, 0, false, false⟩ : Stream).rest = linesText (first :: second :: ls) ++ tail := by rw [hct]; simp [Stream.rest]
  have hs0 : (⟨content, 0, false, false⟩ : Stream).seekg 0 = ⟨content, 0, false, false⟩ := rfl
  have hc0 : (⟨content, 0, false, false⟩ : Stream).content = content := rfl
  generalize hst : (⟨content, 0, false, false⟩ : Stream) = st at hg hr hs0 hc0
  have hg1 := getline_past (n := OBS_HEADER_CHARS) hg hr h1.1.1 h1.1.2.2
  have hr1 := rest_cons hr
  have hg2 := getline_past (n := OBS_HEADER_CHARS) (s := st.past [first]) hg hr1 h2.1.1 h2.1.2.2
  obtain ⟨r, hnum⟩ := strtodA_num (tail := junk.drop (first.length + 1)) hv.1
  rw [List.drop_zero] at hnum
  have hn' : strtodA (fillLine junk first) = .ok (some (ver.value, r, false)) := hnum
  have hfl : strtofErr (some (ver.value, r, false)) = false := by simp [strtofErr, fltErange_fits hv.2]
  refine ⟨List.replicate 20 ' ' ++ NUL :: g0.drop 21, (st.past [first]).past [second], hc0, hg, rest_cons hr1, ?_, ?_⟩
  · constructor <;> first | rfl | (intro q; rfl) | exact List.Pairwise.nil
  · unfold obsOpen
    rw [antInit_eq g0 hg0, Res.bind_ok]
    unfold obsReadHeader
    rw [hst]
    simp only [hs0, hg1, hn', Res.bind_ok, getAt_fill hk, getAt_fill hs, ne_eq, not_true_eq_false, if_false, charToSatsys_toChar, hg2, hfl, Bool.or_false]

/-- **C60** (partial).  A file with a well formed header is opened: the object has the version, system,
names, antenna, position, eccentricity, clock flag, first epoch and lists of observation types that
the header shows (of several entries of a kind the last); its stream is good and stands on what
follows the header, and rewinding an object whose stream has not failed puts it back there.
Missing (refuted below): lists with a multiple of 13 codes, radomes other than NONE, names
containing blanks, header lines shorter than 60 chars. -/
theorem C60_open_partial {strptime : List Char → Res DateTime} {gAnt : Nat → List Char} (hgA : ∀ k, (gAnt k).length = 41) {g0 : List Char}
    (hg0 : g0.length = 41) (junk : List Char) (buf0 : Nat → List Char) {h : ObsHeader} (hw : h.WF strptime)
    (hsup : ∀ i ∈ h.items, i.Supported) (tail : List Char) :
    ∃ o s, obsOpen strptime gAnt false g0 junk buf0 (linesText h.lines ++ tail) = .ok (o, s, buf0 (obsBufSize o.obst)) ∧
      ObsTells h.version.value h.sys h.items o ∧ s.content = linesText h.lines ++ tail ∧ s.good = true ∧ s.rest = tail ∧
      ∀ s' : Stream, s'.content = s.content → s'.fail = false → obsRewind o s' = s := by
  obtain ⟨a, s, hc, hg, hr, ho, he⟩ := obsOpen_start (strptime := strptime) (gAnt := gAnt) hg0 junk buf0 hw.first hw.version hw.kind hw.sys
    ⟨hw.second.1, hw.second.2.1⟩ ((h.items.map (·.lines)).flatten ++ [h.last]) tail
  have hr' : s.rest = linesText (h.items.map (·.lines)).flatten ++ (linesText [h.last] ++ tail) := by
    rw [hr, linesText_append]; simp
  obtain ⟨o', line', e1, e2, e3⟩ := obsHeadLoop_items (strptime := strptime) (gAnt := gAnt) hgA h.items [] (fun i hi => ⟨hw.wf i hi, hsup i hi⟩)
    (by simpa using hw.once) (1000 - h.items.length) (fillLine (fillLine junk h.first) h.second) _ s _ ho
    (by rw [obsLabel_line hw.second.1.2.1 hw.second.2.1 (by decide), decide_eq_false hw.second.2.2]) hg hr'
  have hfew := hw.few
  rw [show 1000 - h.items.length + h.items.length = 1000 by omega] at e1
  obtain ⟨k, hk⟩ : ∃ k, 1000 - h.items.length = (k + 1) + 1 := ⟨998 - h.items.length, by omega⟩
  rw [hk] at e1
  have hL := hw.last
  have h60 := hL.2.long (by decide)
  have hrl := Stream.past_rest hr'
  have hstep : obsHeadLoop strptime gAnt false (k + 1 + 1) line' o' (s.past (h.items.map (·.lines)).flatten) =
      .ok (0, k + 1, o', s.past ((h.items.map (·.lines)).flatten ++ [h.last])) := by
    rw [obsHeadLoop, e3, Res.bind_ok]
    simp only [Bool.false_eq_true, if_false]
    rw [getline_past (n := OBS_HEADER_CHARS) (Stream.past_good _ _ hg) hrl hL.1.1 hL.1.2.2]
    simp only
    rw [headLine_other (labelsAre_labelled hL (by decide) line') (fun q _ hq => hq), Res.bind_ok]
    simp only [ne_eq, not_true_eq_false, if_false]
    rw [obsHeadLoop, obsLabel_line hL.1.2.1 (Nat.le_of_lt h60) (by decide), decide_eq_true hL.2, Res.bind_ok, if_pos rfl, Stream.past_past]
    rfl
  rw [hstep] at e1
  have hgf : (s.past ((h.items.map (·.lines)).flatten ++ [h.last])).good = true := hg
  have hrf : (s.past ((h.items.map (·.lines)).flatten ++ [h.last])).rest = tail := Stream.past_rest hr
  have hcf : (s.past ((h.items.map (·.lines)).flatten ++ [h.last])).content = s.content := rfl
  generalize s.past ((h.items.map (·.lines)).flatten ++ [h.last]) = sf at *
  refine ⟨{ o' with endOfHead := some sf.pos }, sf, ?_, ?_, ?_, hgf, hrf, ?_⟩
  · unfold ObsHeader.lines
    rw [he, e1]
    simp only [Res.bind_ok, ne_eq, not_true_eq_false, if_false, Nat.add_eq_zero_iff, Nat.one_ne_zero, and_false, tellg_good hgf,
      Res.pure_eq, Res.noexcept_ok]
  · have := e2
    rw [List.nil_append] at this
    exact ⟨this.version, this.sys, this.marker, this.markerNo, this.receiver, this.antenna, this.position, this.delta, this.clock,
      this.firstObs, this.types, this.sorted⟩
  · rw [hcf]; exact hc
  · intro t h1 h2
    have := (Stream.good_iff sf).1 hgf
    unfold obsRewind Stream.seekg
    rw [h2]
    simp only [Bool.false_eq_true, if_false, h1]
    cases sf; simp_all

end Ggnss
