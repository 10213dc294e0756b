import Verif.Props.ObsHeadExact
import Verif.Props.ObsMap
import Verif.Props.ObsFile
import Verif.Props.ObsSafe
/-!
# Whole observation files: constructor, `set_read_map`, `initialize_epoch_vector`, `read_next_epoch`, `rewind`
-/
namespace Ggnss

/-- The columns of an observable are determined by the list of codes. -/
theorem firstCol_unique {codes : List ObsCode} {c : ObsCode} {i j : Nat} (hi : FirstCol codes c i) (hj : FirstCol codes c j) : i = j := by
  rcases Nat.lt_trichotomy i j with h | h | h
  · exact absurd hi.1 (hj.2 i h)
  · exact h
  · exact absurd hj.1 (hi.2 j h)

theorem forall₂_functional {α β : Type} {R : α → β → Prop} (hf : ∀ a b c, R a b → R a c → b = c) :
    ∀ (l : List α) (m n : List β), List.Forall₂ R l m → List.Forall₂ R l n → m = n := by
  intro l
  induction l with
  | nil => intro m n h1 h2; cases h1; cases h2; rfl
  | cons a l ih =>
    intro m n h1 h2
    obtain ⟨b, m', hb, hm, rfl⟩ := List.forall₂_cons_left_iff.1 h1
    obtain ⟨c, n', hc, hn, rfl⟩ := List.forall₂_cons_left_iff.1 h2
    rw [hf a b c hb hc, ih m' n' hm hn]

theorem columnsOf_unique {codes : List ObsCode} {o : Observable} {a b : List (Nat × Rat)} (ha : ColumnsOf codes o a) (hb : ColumnsOf codes o b) :
    a = b := by
  refine forall₂_functional ?_ _ _ _ ha hb
  rintro p ⟨i, x⟩ ⟨j, y⟩ ⟨h1, h2⟩ ⟨h3, h4⟩
  simp only at h1 h2 h3 h4
  rw [firstCol_unique h1 h3, h2, h4]

/-- **C38**: there is only one read map for a request. -/
theorem C38_unique {obst : ObsTypes} {req : ReqMap} {a b : ReadMap} (ha : MapFor obst req a) (hb : MapFor obst req b) : a = b := by
  refine forall₂_functional ?_ _ _ _ ha hb
  rintro e ⟨i, x⟩ ⟨j, y⟩ ⟨h1, h2⟩ ⟨h3, h4⟩
  simp only at h1 h2 h3 h4
  have := forall₂_functional (R := ColumnsOf (codesOf obst e.1)) (fun o p q hp hq => columnsOf_unique hp hq) _ _ _ h2 h4
  rw [← h1, ← h3, this]

theorem codesOf_congr {a b : ObsTypes} (h : ∀ q, a.lookup q = b.lookup q) (q : SatSys) : codesOf a q = codesOf b q := by
  unfold codesOf; rw [h]

theorem mapFor_congr {a b : ObsTypes} (h : ∀ q, a.lookup q = b.lookup q) {req : ReqMap} {m : ReadMap} (hm : MapFor a req m) : MapFor b req m := by
  unfold MapFor at *
  refine hm.imp ?_
  rintro e r ⟨h1, h2⟩
  refine ⟨h1, ?_⟩
  rw [← codesOf_congr h]; exact h2

theorem BlockSees.mono {mjdOf : Int → Int → Int → Res Int} {mmap : ReadMap} {n n' : Nat} (hn : n ≤ n') {b : ObsEpochBlock} {h : EpochHead}
    {out : List SatVals} (hb : BlockSees mjdOf mmap n b h out) : BlockSees mjdOf mmap n' b h out := by
  refine ⟨hb.head, hb.gives, ?_, ?_⟩
  · have := hb.fit.1
    exact ⟨this.1, this.2.1, by have := this.2.2; omega⟩
  · intro l hl
    have := hb.fit.2 l hl
    exact ⟨this.1, this.2.1, by have := this.2.2; omega⟩

theorem BlockSays.mono {mjdOf : Int → Int → Int → Res Int} {mmap : ReadMap} {n n' : Nat} (hn : n ≤ n') {b : ObsEpochBlock} {h : EpochHead}
    {out : List SatVals} (hb : BlockSays mjdOf mmap n b h out) : BlockSays mjdOf mmap n' b h out := by
  refine ⟨hb.head, hb.gives, ?_, ?_⟩
  · have := hb.fit.1
    exact ⟨this.1, this.2.1, by have := this.2.2; omega⟩
  · intro l hl
    have := hb.fit.2 l hl
    exact ⟨this.1, this.2.1, by have := this.2.2; omega⟩

/-- The line buffer holds a satellite with as many observations as any system of the header has. -/
theorem obsBufSize_ge {obst : ObsTypes} {q : SatSys} {codes : List ObsCode} (h : obst.lookup q = some codes) :
    16 * codes.length + 4 ≤ obsBufSize obst := by
  have hmem : (q, codes) ∈ obst := by
    induction obst with
    | nil => simp at h
    | cons e m ih =>
      rw [List.lookup_cons] at h
      split at h
      · rename_i he
        have : q = e.1 := by simpa using he
        obtain ⟨a, b⟩ := e
        simp at h this; subst h; subst this; simp
      · simp [ih h]
  have := (foldl_max_ge (fun e : SatSys × List ObsCode => e.2.length) obst 0).2 (q, codes) hmem
  unfold obsBufSize maxObs
  simp only at this
  omega

/-- **C58**, whole files, exact behaviour for all names and antennas in the header and all well-formed fields
(no list with a multiple of 13 types): as `C58_file_partial` below, with what the code makes of the
names and fields. -/
theorem C58_file_exact_partial {strptime : List Char → Res DateTime} {gAnt : Nat → List Char} (hgA : ∀ k, (gAnt k).length = 41) {g0 : List Char}
    (hg0 : g0.length = 41) (junk : List Char) {buf0 : Nat → List Char} (hbuf : ∀ n, (buf0 n).length = n) {h : ObsHeader} (hw : h.Seen strptime)
    (hsup : ∀ t ∈ h.items.filterMap ObsItem.types?, t.2.length % 13 ≠ 0) {req : ReqMap} (hreq : ∀ e ∈ req, ∀ o ∈ e.2, o.vec ≠ [])
    (hsat : ∀ e ∈ req, ∀ o ∈ e.2, Satisfiable (codesOf (h.items.filterMap ObsItem.types?) e.1) e.1 o) {m : ReadMap}
    (hm : MapFor (h.items.filterMap ObsItem.types?) req m) {types : SatSys × List ObsCode} (ht : (h.items.filterMap ObsItem.types?).lookup types.1 = some types.2)
    {mjdOf : Int → Int → Int → Res Int} {bs : List ObsEpochBlock} {exp : List (EpochHead × List SatVals)}
    (hbs : List.Forall₂ (fun b x => BlockSees mjdOf m (16 * types.2.length + 4) b x.1 x.2) bs exp) (h80 : ∀ x ∈ exp, x.2.length ≤ 80)
    (raw0 : RawRnxObs) (skip : Bool) :
    ∃ o s buf, obsOpen strptime gAnt false g0 junk buf0 (linesText h.lines ++ (bs.map ObsEpochBlock.text).flatten) = .ok (o, s, buf) ∧
      ObsSeen h.version.value h.sys h.items o ∧ setReadMap o.obst req skip = .ok (m, req) ∧
      (∀ k, ∃ rs ov' s', obsReadEpochs mjdOf raw0 m (bs.length + k) (initEpochVector m) buf s 0 = .ok (rs ++ List.replicate k (-1, 0, none, ov'), s') ∧
        EpochResults (initEpochVector m) exp rs ov' ∧ obsRewind o s' = s) := by
  obtain ⟨o, s, h1, h2, h3, h4, h5, h6⟩ := C60_open_exact_partial (gAnt := gAnt) hgA hg0 junk buf0 hw hsup (bs.map ObsEpochBlock.text).flatten
  obtain ⟨m', e1, e2⟩ := C38_all_present o.obst req skip hreq (by
    intro e he x hx
    rw [codesOf_congr h2.types]
    exact hsat e he x hx)
  have hmm : m' = m := C38_unique e2 (mapFor_congr (fun q => (h2.types q).symm) hm)
  subst hmm
  refine ⟨o, s, _, h1, h2, e1, ?_⟩
  intro k
  have hsz := obsBufSize_ge (obst := o.obst) (q := types.1) (codes := types.2) (by rw [h2.types]; exact ht)
  obtain ⟨rs, ov', s', g1, g2, g3, g4, g5⟩ := C58_exact raw0 k bs exp (initEpochVector m') (buf0 (obsBufSize o.obst)) s
    (hbs.imp (fun b x hb => by rw [hbuf]; exact hb.mono hsz)) (by rw [hbuf]; omega) h4 h5 (by rw [(C42_initial m').1]; exact h80) (C42_initial m').2.1
  refine ⟨rs, ov', s', g1, g2, h6 s' g5 ?_⟩
  unfold Stream.good at g3
  simp at g3
  exact g3.2

/-- **C58**, whole files, partial (headers as in C60, epochs as in C57): the constructor opens the file;
`set_read_map` accepts any request whose observables are all listed in the header and gives the map
`m` of the request; with a vector from `initialize_epoch_vector`, repeated calls of
`read_next_epoch` return every epoch once, in order, and then -1 for ever; and after `rewind` they do so again.
The satellite lines hold at most as many observations (`types.2.length`) as the header lists for some
system. -/
theorem C58_file_partial {strptime : List Char → Res DateTime} {gAnt : Nat → List Char} (hgA : ∀ k, (gAnt k).length = 41) {g0 : List Char}
    (hg0 : g0.length = 41) (junk : List Char) {buf0 : Nat → List Char} (hbuf : ∀ n, (buf0 n).length = n) {h : ObsHeader} (hw : h.WF strptime)
    (hsup : ∀ i ∈ h.items, i.Supported) {req : ReqMap} (hreq : ∀ e ∈ req, ∀ o ∈ e.2, o.vec ≠ [])
    (hsat : ∀ e ∈ req, ∀ o ∈ e.2, Satisfiable (codesOf (h.items.filterMap ObsItem.types?) e.1) e.1 o) {m : ReadMap}
    (hm : MapFor (h.items.filterMap ObsItem.types?) req m) {types : SatSys × List ObsCode} (ht : (h.items.filterMap ObsItem.types?).lookup types.1 = some types.2)
    {mjdOf : Int → Int → Int → Res Int} {bs : List ObsEpochBlock} {exp : List (EpochHead × List SatVals)}
    (hbs : List.Forall₂ (fun b x => BlockSays mjdOf m (16 * types.2.length + 4) b x.1 x.2) bs exp) (h80 : ∀ x ∈ exp, x.2.length ≤ 80)
    (raw0 : RawRnxObs) (skip : Bool) :
    ∃ o s buf, obsOpen strptime gAnt false g0 junk buf0 (linesText h.lines ++ (bs.map ObsEpochBlock.text).flatten) = .ok (o, s, buf) ∧
      ObsTells h.version.value h.sys h.items o ∧ setReadMap o.obst req skip = .ok (m, req) ∧
      (∀ k, ∃ rs ov' s', obsReadEpochs mjdOf raw0 m (bs.length + k) (initEpochVector m) buf s 0 = .ok (rs ++ List.replicate k (-1, 0, none, ov'), s') ∧
        EpochResults (initEpochVector m) exp rs ov' ∧ obsRewind o s' = s) := by
  obtain ⟨o, s, h1, h2, h3, h4, h5, h6⟩ := C60_open_partial (gAnt := gAnt) hgA hg0 junk buf0 hw hsup (bs.map ObsEpochBlock.text).flatten
  obtain ⟨m', e1, e2⟩ := C38_all_present o.obst req skip hreq (by
    intro e he x hx
    rw [codesOf_congr h2.types]
    exact hsat e he x hx)
  have hmm : m' = m := C38_unique e2 (mapFor_congr (fun q => (h2.types q).symm) hm)
  subst hmm
  refine ⟨o, s, _, h1, h2, e1, ?_⟩
  intro k
  have hsz := obsBufSize_ge (obst := o.obst) (q := types.1) (codes := types.2) (by rw [h2.types]; exact ht)
  obtain ⟨rs, ov', s', g1, g2, g3, g4, g5⟩ := C58_exact raw0 k bs exp (initEpochVector m') (buf0 (obsBufSize o.obst)) s
    (hbs.imp (fun b x hb => by rw [hbuf]; exact (hb.mono hsz).sees)) (by rw [hbuf]; omega) h4 h5 (by rw [(C42_initial m').1]; exact h80) (C42_initial m').2.1
  refine ⟨rs, ov', s', g1, g2, h6 s' g5 ?_⟩
  unfold Stream.good at g3
  simp at g3
  exact g3.2

end Ggnss
