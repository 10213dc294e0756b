import Verif.Lemmas.Antex
/-!
# C35, C50: phase centre offsets of receiver antennas from ANTEX files
-/
namespace Ggnss

/-! ## Specification -/

/-- The record is the antenna built from `k` with serial numbers `ss` set: both have a serial number,
and model, radome and (padded) serial agree. -/
def AtxBlock.Exact (k : AntCtor) (ss : List (List Char)) (b : AtxBlock) : Prop :=
  b.model = specModel k ∧ ¬ b.NoSerial ∧ ∃ s, ss.getLast? = some s ∧ serialNonBlank s ∧ b.serial = padTo 20 s

/-- The record is for the model and radome in general: it has no serial number. -/
def AtxBlock.Close (k : AntCtor) (b : AtxBlock) : Prop := b.model = specModel k ∧ b.NoSerial

/-- The first two lines of the record are what they should be. -/
structure AtxBlock.Named (b : AtxBlock) : Prop where
  start : Labelled b.start c!"START OF ANTENNA"
  type : Labelled b.type c!"TYPE / SERIAL NO"

theorem AtxBlock.WF.named {strptime : List Char → Res DateTime} {b : AtxBlock} (h : b.WF strptime) : b.Named := ⟨h.start, h.type⟩

/-- Contents of uninitialised arrays have the right sizes. -/
structure AtxJunk.WF (J : AtxJunk) : Prop where
  head : ∀ p, (J.head p).length = 85
  grid : ∀ p, (J.grid p).length = 512
  ant : ∀ p, (J.ant p).length = 41

/-- An `Antex` object for the file with these antennas, in a state that no failed read has spoilt. -/
structure AtxOn (bs : List AtxBlock) (f : AtxFile) : Prop where
  head : ∃ p, f.endOfHead = some p ∧ f.strm.content.drop p = atxBlocksText bs
  fail : f.strm.fail = false

/-! ## One record -/

theorem atxBlocksText_cons (b : AtxBlock) (bs : List AtxBlock) :
    atxBlocksText (b :: bs) = linesText b.lines ++ atxBlocksText bs := by
  simp [atxBlocksText, linesText_append]

theorem NoSerial_iff {b : AtxBlock} (h : 40 ≤ b.type.length) : b.NoSerial ↔ BlankCols b.type 20 40 := by
  unfold AtxBlock.NoSerial AtxBlock.serial BlankCols
  constructor
  · intro hh i h1 h2
    have hi : i < b.type.length := by omega
    rw [List.getElem?_eq_getElem hi]
    congr 1
    apply hh
    rw [List.mem_iff_getElem?]
    refine ⟨i - 20, ?_⟩
    rw [List.getElem?_take_of_lt (by omega), List.getElem?_drop, show 20 + (i - 20) = i by omega,
      List.getElem?_eq_getElem hi]
  · intro hh c hc
    rw [List.mem_iff_getElem?] at hc
    obtain ⟨i, hi⟩ := hc
    rw [List.getElem?_take] at hi
    split at hi
    · rename_i h20
      rw [List.getElem?_drop] at hi
      have := hh (20 + i) (by omega) (by omega)
      rw [hi] at this
      exact Option.some.inj this
    · cases hi

theorem atxSerial_eq {l buf ant : List Char} (hn : NUL ∉ l) (h20 : 20 ≤ l.length) :
    ∀ (n i : Nat), i + n ≤ l.length →
    atxSerial (fillLine buf l) ant n i =
      if (∀ j, i ≤ j → j < i + n → l[j]? = some ' ') then .ok ant else antSetSerial ant (l.drop 20) := by
  intro n
  induction n with
  | zero => intro i _; unfold atxSerial; rw [if_pos (by intro j h1 h2; omega)]
  | succ n ih =>
    intro i hi
    have hil : i < l.length := by omega
    have hgi : l[i]? = some l[i] := List.getElem?_eq_getElem hil
    unfold atxSerial
    rw [getAt_fill hgi, Res.bind_ok]
    by_cases hc : l[i] = ' '
    · rw [if_neg (by simp [hc]), ih (i + 1) (by omega)]
      congr 1
      apply propext
      constructor
      · intro h j h1 h2
        by_cases hj : j = i
        · subst hj; rw [hgi, hc]
        · exact h j (by omega) (by omega)
      · intro h j h1 h2; exact h j (by omega) (by omega)
    · rw [if_pos hc, if_neg (by intro h; apply hc; have := h i (by omega) (by omega); rw [hgi] at this; exact Option.some.inj this)]
      unfold fillLine
      rw [drop_line h20, cstrOf_append (IsCStr.drop hn 20), Res.bind_ok]

theorem AntReach.set {a c : List Char} {k : AntCtor} {ss : List (List Char)} (h : AntReach a k ss) (hc : IsCStr c) {b : List Char}
    (hb : antSetSerial a c = .ok b) : AntReach b k (ss ++ [c]) := by
  obtain ⟨g, h1, h2, h3, h4⟩ := h
  refine ⟨g, h1, h2, ?_, ?_⟩
  · intro s hs
    simp only [List.mem_append, List.mem_singleton] at hs
    rcases hs with hs | rfl
    · exact h3 s hs
    · exact hc
  · unfold antRun at *
    obtain ⟨b0, e0, e1⟩ := Res.bind_eq_ok.1 h4
    rw [e0, Res.bind_ok]
    clear e0 h4 h3
    induction ss generalizing b0 with
    | nil =>
      simp only [antSetSerials] at e1
      injection e1 with e1; subst e1
      simp [antSetSerials, hb]
    | cons x ss ih =>
      simp only [antSetSerials, List.cons_append] at e1 ⊢
      obtain ⟨b1, e2, e3⟩ := Res.bind_eq_ok.1 e1
      rw [e2, Res.bind_ok]
      exact ih b1 e3

theorem antSetSerial_ok {a c : List Char} {k : AntCtor} {ss : List (List Char)} (h : AntReach a k ss) :
    ∃ b, antSetSerial a c = .ok b := by
  obtain ⟨g, h1, h2, h3, h4⟩ := h
  have := antRun_eq g h1 k (ss ++ [c])
  have h5 := antRun_eq g h1 k ss
  rw [h4] at h5
  injection h5 with h5
  have hlen : a.length = 41 := by
    rw [h5]
    cases ss.getLast? <;> simp [specModel_length, padTo_length, h1]
  refine ⟨_, (?_ : antSetSerial a c = .ok (a.take 20 ++ (padTo 20 c ++ [NUL])))⟩
  conv_lhs => rw [← List.take_append_drop 20 a]
  exact antSetSerial_eq (a.take 20) (a.drop 20) c (by simp [hlen]) (by simp [hlen])

/-- The serial numbers set by the reader for a record. -/
def AtxBlock.serials (b : AtxBlock) : List (List Char) := if b.NoSerial then [] else [b.type.drop 20]

/-- Reading the first two lines of a record gives its antenna. -/
theorem readType_block {J : AtxJunk} (hJ : J.WF) {b : AtxBlock} (h : b.Named)
    {cur c : List Char} (hc : 60 ≤ c.length) {s : Stream} {t : List Char} (hg : s.good = true) {ls : List (List Char)}
    (hr : s.rest = linesText (b.start :: b.type :: ls) ++ t) :
    ∃ ant, atxReadType J cur c s = .ok ⟨0, ant, b.type.take 60 ++ c.drop 60, s.past [b.start, b.type]⟩ ∧
      AntReach ant (.fromCStr b.type) b.serials := by
  have h60 := h.type.2.long (by decide)
  have hnn : NUL ∉ b.type := h.type.1.2.1
  have hr1 := rest_cons hr
  unfold atxReadType
  rw [expect_labelled (ls := b.type :: ls) hg hr h.start (by decide) (by decide), Res.bind_ok]
  simp only [Bool.true_eq_false, if_false]
  rw [expect_labelled (s := s.past [b.start]) hg hr1 h.type (by decide) (by decide), Res.bind_ok]
  simp only [Bool.true_eq_false, if_false, cstrOf_fill hnn, Res.bind_ok]
  have hmem : memcpyAt c 0 (List.take 60 (fillLine (fillLine (J.head s.pos) b.start) b.type)) = .ok (b.type.take 60 ++ c.drop 60) := by
    rw [take_fill (by omega), memcpyAt_ok (by simp; omega)]
    simp [Nat.min_eq_left (by omega : 60 ≤ b.type.length)]
  have hnew := antNew_eq (J.ant s.pos) (hJ.ant s.pos) (.fromCStr b.type)
  have hreach : AntReach (specModel (.fromCStr b.type) ++ NUL :: (J.ant s.pos).drop 21) (.fromCStr b.type) [] :=
    ⟨J.ant s.pos, hJ.ant _, hnn, by simp, by unfold antRun; rw [hnew]; rfl⟩
  have hnew' : antOfCStr (J.ant s.pos) b.type = .ok (specModel (.fromCStr b.type) ++ NUL :: (J.ant s.pos).drop 21) := hnew
  rw [hnew', Res.bind_ok, atxSerial_eq hnn (by omega) 20 20 (by omega)]
  by_cases hs : b.NoSerial
  · have hb : ∀ j, 20 ≤ j → j < 20 + 20 → b.type[j]? = some ' ' := (NoSerial_iff (by omega)).1 hs
    rw [if_pos hb, Res.bind_ok, hmem]
    refine ⟨_, by simp only [Res.bind_ok, Res.pure_eq, Stream.past_past]; rfl, ?_⟩
    unfold AtxBlock.serials
    rw [if_pos hs]; exact hreach
  · have hb : ¬ ∀ j, 20 ≤ j → j < 20 + 20 → b.type[j]? = some ' ' := fun hh => hs ((NoSerial_iff (by omega)).2 hh)
    rw [if_neg hb]
    obtain ⟨a, ha⟩ := antSetSerial_ok (c := b.type.drop 20) hreach
    rw [ha, Res.bind_ok, hmem]
    refine ⟨_, by simp only [Res.bind_ok, Res.pure_eq, Stream.past_past]; rfl, ?_⟩
    unfold AtxBlock.serials
    rw [if_neg hs]
    exact hreach.set (IsCStr.drop hnn 20) ha

theorem model_eq {b : AtxBlock} (h : b.Named) :
    specModel (.fromCStr b.type) = b.model := by
  have h60 := h.type.2.long (by decide)
  simp only [specModel]
  rw [if_pos (by omega)]; rfl

theorem serial_nonblank {b : AtxBlock} (_h : b.Named) :
    specHasSerial b.serials ↔ ¬ b.NoSerial := by
  unfold AtxBlock.serials specHasSerial
  by_cases hs : b.NoSerial
  · simp [hs]
  · rw [if_neg hs]
    simp only [List.getLast?_singleton, Option.some.injEq, exists_eq_left', hs, not_false_eq_true, iff_true]
    unfold AtxBlock.NoSerial AtxBlock.serial at hs
    unfold serialNonBlank
    push Not at hs
    exact hs

theorem same_iff {b : AtxBlock} (h : b.Named) {ant antIn : List Char}
    {k : AntCtor} {ss : List (List Char)} (ha : AntReach ant (.fromCStr b.type) b.serials) (hi : AntReach antIn k ss) :
    ∃ r, antIsSame ant antIn = .ok r ∧ (r = true ↔ b.Exact k ss) := by
  have h60 := h.type.2.long (by decide)
  obtain ⟨r, h1, h2⟩ := C13_is_same_iff ha hi
  refine ⟨r, h1, h2.trans ?_⟩
  rw [serial_nonblank h, model_eq h]
  unfold AtxBlock.Exact specHasSerial
  constructor
  · rintro ⟨e1, ⟨s, e2, e2'⟩, e3, e4⟩
    refine ⟨e3, e1, s, e2, e2', ?_⟩
    have := e4 (b.type.drop 20) s (by unfold AtxBlock.serials; rw [if_neg e1]; rfl) e2
    rw [← this, padTo_of_ge (by simp; omega)]; rfl
  · rintro ⟨e3, e1, s, e2, e2', e4⟩
    refine ⟨e1, ⟨s, e2, e2'⟩, e3, ?_⟩
    intro u u' hu hu'
    rw [e2] at hu'; injection hu' with hu'; subst hu'
    unfold AtxBlock.serials at hu
    rw [if_neg e1] at hu
    simp only [List.getLast?_singleton, Option.some.injEq] at hu
    subst hu
    rw [← e4, padTo_of_ge (by simp; omega)]; rfl

/-! ## The search -/

/-- Where a search ends up. -/
def MatchResult (content : List Char) (bs : List AtxBlock) (k : AntCtor) (ss : List (List Char)) (bestPos : Option Nat)
    (m : AtxMatch) : Prop :=
  m.strm.content = content ∧ m.strm.fail = false ∧
  ((∃ i b q more, FirstIdx bs (AtxBlock.Exact k ss) i b ∧ m.status = -1 ∧ m.pos = some q ∧
      content.drop q = linesText b.body ++ more) ∨
   ((∀ b ∈ bs, ¬ b.Exact k ss) ∧ m.status = 0 ∧
     ((∃ i b q more, LastIdx bs (AtxBlock.Close k) i b ∧ m.pos = some q ∧ content.drop q = linesText b.body ++ more) ∨
      ((∀ b ∈ bs, ¬ b.Close k) ∧ m.pos = bestPos))))

theorem FirstIdx.cons_zero {b : AtxBlock} {bs : List AtxBlock} {P : AtxBlock → Prop} (h : P b) : FirstIdx (b :: bs) P 0 b :=
  ⟨rfl, h, by intro j hj; omega⟩

theorem FirstIdx.cons_succ {b c : AtxBlock} {bs : List AtxBlock} {P : AtxBlock → Prop} {i : Nat} (h : FirstIdx bs P i b)
    (hc : ¬ P c) : FirstIdx (c :: bs) P (i + 1) b := by
  refine ⟨by simpa using h.1, h.2.1, ?_⟩
  intro j hj q hq
  cases j with
  | zero => simp at hq; subst hq; exact hc
  | succ j => exact h.2.2 j (by omega) q (by simpa using hq)

theorem LastIdx.cons_zero {b : AtxBlock} {bs : List AtxBlock} {P : AtxBlock → Prop} (h : P b) (hn : ∀ q ∈ bs, ¬ P q) :
    LastIdx (b :: bs) P 0 b := by
  refine ⟨rfl, h, ?_⟩
  intro j hj q hq
  cases j with
  | zero => omega
  | succ j => exact hn q (List.mem_of_getElem? (by simpa using hq))

theorem LastIdx.cons_succ {b c : AtxBlock} {bs : List AtxBlock} {P : AtxBlock → Prop} {i : Nat} (h : LastIdx bs P i b) :
    LastIdx (c :: bs) P (i + 1) b := by
  refine ⟨by simpa using h.1, h.2.1, ?_⟩
  intro j hj q hq
  cases j with
  | zero => omega
  | succ j => exact h.2.2 j (by omega) q (by simpa using hq)

theorem readType_eof {J : AtxJunk} {cur c : List Char} {s : Stream} (hg : s.good = true) (hr : s.rest = []) :
    ∃ s', atxReadType J cur c s = .ok ⟨-1, cur, c, s'⟩ ∧ s'.content = s.content ∧ s'.good = true := by
  unfold atxReadType atxExpect
  have := Stream.getline_last (n := ATX_HEADER_CHARS) hg hr (by simp) (by simp)
  simp only [this, List.isEmpty_nil, if_true, Res.pure_eq, Res.bind_ok]
  exact ⟨_, rfl, rfl, rfl⟩

theorem matchLoop_blocks {strptime : List Char → Res DateTime} {J : AtxJunk} (hJ : J.WF) {antIn : List Char} {k : AntCtor}
    {ss : List (List Char)} (hi : AntReach antIn k ss) :
    ∀ (bs : List AtxBlock), (∀ b ∈ bs, b.WF strptime) →
    ∀ (fuel : Nat) (cur best : List Char) (bestPos : Option Nat) (stat2 : Option Int) (s : Stream), s.good = true →
      s.rest = atxBlocksText bs → bs.length < fuel → (stat2 = some 0 ∨ (stat2 = none ∧ bs ≠ [])) →
    ∃ m, atxMatchLoop J antIn fuel cur best bestPos stat2 s = .ok m ∧ MatchResult s.content bs k ss bestPos m := by
  intro bs
  induction bs with
  | nil =>
    intro _ fuel cur best bestPos stat2 s hg hr hf h2
    obtain ⟨fuel, rfl⟩ : ∃ k, fuel = k + 1 := ⟨fuel - 1, by simp at hf; omega⟩
    have h2 : stat2 = some 0 := by rcases h2 with h | h; exact h; exact absurd rfl h.2
    subst h2
    obtain ⟨s', he, hc, hg'⟩ := readType_eof (J := J) (cur := cur) (c := J.head s.pos) hg (by simpa [atxBlocksText, linesText] using hr)
    unfold atxMatchLoop
    rw [he, Res.bind_ok]
    simp only [ne_eq, Int.reduceNeg, reduceCtorEq, not_false_eq_true, if_true, atxMatchEnd]
    exact ⟨⟨0, best, bestPos, s'⟩, rfl, hc, ((Stream.good_iff s').1 hg').2, Or.inr ⟨by simp, rfl, Or.inr ⟨by simp, rfl⟩⟩⟩
  | cons b bs ih =>
    intro hw fuel cur best bestPos stat2 s hg hr hf _
    obtain ⟨fuel, rfl⟩ : ∃ k, fuel = k + 1 := ⟨fuel - 1, by simp at hf; omega⟩
    have hwb := hw b (by simp)
    rw [atxBlocksText_cons] at hr
    obtain ⟨ant, he, hreach⟩ := readType_block hJ hwb.named (cur := cur) (c := J.head s.pos) (by rw [hJ.head]; decide) hg hr
    have hr2 : (s.past [b.start, b.type]).rest = linesText b.body ++ atxBlocksText bs := by
      apply Stream.past_rest
      rw [hr]
      show linesText ([b.start, b.type] ++ b.body) ++ _ = _
      rw [linesText_append]; simp
    have hbody : (s.past [b.start, b.type]).content.drop (s.past [b.start, b.type]).pos = linesText b.body ++ atxBlocksText bs := hr2
    have hg2 : (s.past [b.start, b.type]).good = true := hg
    obtain ⟨r, hs1, hs2⟩ := same_iff hwb.named hreach hi
    have hcm := C13_compare_model hreach hi
    rw [model_eq hwb.named] at hcm
    obtain ⟨_, _, _, hs, hh1, hh2⟩ := hreach.shape
    rw [serial_nonblank hwb.named] at hh2
    unfold atxMatchLoop
    rw [he, Res.bind_ok]
    simp only [ne_eq, not_true_eq_false, if_false, hs1, Res.bind_ok]
    by_cases hx : b.Exact k ss
    · rw [if_pos (hs2.2 hx), tellg_good hg2]
      exact ⟨_, rfl, rfl, ((Stream.good_iff _).1 hg2).2,
        Or.inl ⟨0, b, _, _, FirstIdx.cons_zero hx, rfl, rfl, hbody⟩⟩
    · rw [if_neg (fun e => hx (hs2.1 e)), hcm, Res.bind_ok]
      have hskip := skip_block hwb [] b.inside rfl (J := J) hg2 (by rw [hr2, AtxBlock.body_eq])
      have hr3 : ((s.past [b.start, b.type]).past b.body).rest = atxBlocksText bs := Stream.past_rest hr2
      by_cases hcl : b.Close k
      · have hsf : hs = false := by
          cases hs with
          | false => rfl
          | true => exact absurd hcl.2 (hh2.1 rfl)
        simp only [decide_eq_true hcl.1, if_true, hh1, hsf, Res.bind_ok, Bool.not_false, Bool.and_self, tellg_good hg2, hskip,
          not_true_eq_false, if_false]
        obtain ⟨m, h1, h2, h3, h4⟩ := ih (fun q hq => hw q (by simp [hq])) fuel ant ant (some (s.past [b.start, b.type]).pos) (some 0)
          ((s.past [b.start, b.type]).past b.body) hg hr3 (by simp at hf; omega) (Or.inl rfl)
        refine ⟨m, h1, h2, h3, ?_⟩
        rcases h4 with ⟨i, b', q, more, e1, e2, e3, e4⟩ | ⟨e1, e2, e3⟩
        · exact Or.inl ⟨i + 1, b', q, more, e1.cons_succ hx, e2, e3, e4⟩
        · refine Or.inr ⟨by simpa [hx] using e1, e2, Or.inl ?_⟩
          rcases e3 with ⟨i, b', q, more, f1, f2, f3⟩ | ⟨f1, f2⟩
          · exact ⟨i + 1, b', q, more, f1.cons_succ, f2, f3⟩
          · exact ⟨0, b, _, _, LastIdx.cons_zero hcl f1, f2, hbody⟩
      · have hb : (decide (b.model = specModel k) && !hs) = false ∨ (decide (b.model = specModel k) = false) := by
          by_cases hm : b.model = specModel k
          · left
            have : hs = true := hh2.2 (fun hns => hcl ⟨hm, hns⟩)
            simp [this]
          · right; simp [hm]
        have hstep : ∀ (hsv : Bool), (decide (b.model = specModel k) = true → hsv = hs) →
            (decide (b.model = specModel k) && !hsv) = false := by
          intro hsv hhv
          by_cases hm : b.model = specModel k
          · have h1 := hhv (decide_eq_true hm)
            have : hs = true := hh2.2 (fun hns => hcl ⟨hm, hns⟩)
            simp [h1, this]
          · simp [hm]
        have hres : (if decide (b.model = specModel k) = true then antHasSerial ant else pure true) =
            Res.ok (if decide (b.model = specModel k) = true then hs else true) := by
          split
          · exact hh1
          · rfl
        rw [hres, Res.bind_ok]
        rw [hstep _ (by intro hm; rw [if_pos hm])]
        simp only [Bool.false_eq_true, if_false, hskip, Res.bind_ok, not_true_eq_false]
        obtain ⟨m, h1, h2, h3, h4⟩ := ih (fun q hq => hw q (by simp [hq])) fuel ant best bestPos (some 0)
          ((s.past [b.start, b.type]).past b.body) hg hr3 (by simp at hf; omega) (Or.inl rfl)
        refine ⟨m, h1, h2, h3, ?_⟩
        rcases h4 with ⟨i, b', q, more, e1, e2, e3, e4⟩ | ⟨e1, e2, e3⟩
        · exact Or.inl ⟨i + 1, b', q, more, e1.cons_succ hx, e2, e3, e4⟩
        · refine Or.inr ⟨by simpa [hx] using e1, e2, ?_⟩
          rcases e3 with ⟨i, b', q, more, f1, f2, f3⟩ | ⟨f1, f2⟩
          · exact Or.inl ⟨i + 1, b', q, more, f1.cons_succ, f2, f3⟩
          · exact Or.inr ⟨by simpa [hcl] using f1, f2⟩

/-! ## The offsets -/

/-- Flat view of a `AntennaPco`. -/
def Pco.flat (p : Pco) : SatSys × Int × Rat × Rat × Rat := (p.sys, p.code.band, p.dn, p.de, p.du)

theorem pcoBand_freq {f : AtxFreq} (h : f.WF) (buf : List Char) :
    pcoBand (fillLine buf f.start) = .ok (some (f.sys, (f.band : Int))) := by
  have h60 := h.start.2.long (by decide)
  unfold pcoBand
  rw [getAt_fill h.sys, Res.bind_ok, charToSatsys_letter, drop_take_fill (by omega)]
  simp only [stoi_nat h.band, Res.pure_eq]

/-- The reader before frequency `f`: it has the START OF FREQUENCY line of `f` in its array, or the
line that starts the RMS block of the frequency before. -/
def AtFreq (f : AtxFreq) (hline : List Char) (s : Stream) (t : List Char) : Prop :=
  (∃ buf, hline = fillLine buf f.start ∧ s.rest = t) ∨
  (∃ buf a ls b, hline = fillLine buf a ∧ Labelled a c!"START OF FREQ RMS" ∧ Labelled b c!"END OF FREQ RMS" ∧
    (∀ l ∈ ls, GridLine l ∧ ¬ HasLabel l c!"END OF FREQ RMS") ∧ s.rest = linesText (ls ++ [b, f.start]) ++ t)

theorem pcoAtFreq_ok {f : AtxFreq} (h : f.WF) {fuel : Nat} {hline gline : List Char} {s : Stream} {t : List Char}
    (ha : AtFreq f hline s t) (hg : s.good = true) (hfuel : s.rest.length < fuel) :
    ∃ buf gline' s', pcoAtFreq fuel hline gline s = .ok (.inl (fillLine buf f.start, gline', s')) ∧ s'.good = true ∧
      s'.content = s.content ∧ s'.rest = t ∧ s'.rest.length ≤ s.rest.length := by
  have h60 := h.start.2.long (by decide)
  have hnf : s.fail = false := ((Stream.good_iff s).1 hg).2
  unfold pcoAtFreq
  rcases ha with ⟨buf, rfl, hr⟩ | ⟨buf, a, ls, b, rfl, h1, h2, h3, hr⟩
  · simp only [hnf, Bool.false_eq_true, if_false, atxLabel_line h.start.1.2.1 (Nat.le_of_lt h60) (by decide : IsCStr c!"START OF FREQUENCY"),
      decide_eq_true h.start.2, Res.bind_ok, if_true]
    exact ⟨buf, gline, s, rfl, hg, rfl, hr, Nat.le_refl _⟩
  · have ha60 := h1.2.long (by decide)
    have hx : ¬ HasLabel a c!"START OF FREQUENCY" := h1.2.excl (by decide) (by decide)
    simp only [hnf, Bool.false_eq_true, if_false, atxLabel_line h1.1.2.1 (Nat.le_of_lt ha60) (by decide : IsCStr c!"START OF FREQUENCY"),
      decide_eq_false hx, atxLabel_line h1.1.2.1 (Nat.le_of_lt ha60) (by decide : IsCStr c!"START OF FREQ RMS"),
      decide_eq_true h1.2, Res.bind_ok, if_true]
    have hb60 := h2.2.long (by decide)
    have hlen : ls.length < fuel := by
      have : ls.length ≤ s.rest.length := by
        rw [hr, linesText_append]
        have : ls.length ≤ (linesText ls).length := by
          clear hr h3
          induction ls with
          | nil => simp
          | cons x ls ih => rw [linesText_cons]; simp; omega
        simp; omega
      omega
    have hr' : s.rest = linesText (ls ++ [b]) ++ (linesText [f.start] ++ t) := by
      rw [hr, show ls ++ [b, f.start] = (ls ++ [b]) ++ [f.start] by simp, linesText_append]; simp
    obtain ⟨g', hsc⟩ := scanTo_lines (n := ATX_GRID_CHARS) (pat := c!"END OF FREQ RMS") (by decide) (last := b)
      (t := linesText [f.start] ++ t)
      ⟨(GridLine.of_labelled h2 (by decide)).1, Nat.le_of_lt hb60, h2.2⟩ ls
      (fun l hl => ⟨(h3 l hl).1.1, (h3 l hl).1.2, (h3 l hl).2⟩) fuel gline s hg hr' hlen
    rw [hsc, Res.bind_ok]
    have hr2 : (s.past (ls ++ [b])).rest = linesText [f.start] ++ t := Stream.past_rest hr'
    rw [expect_labelled (s := s.past (ls ++ [b])) hg hr2 h.start (by decide) (by decide), Res.bind_ok]
    have hr3 : ((s.past (ls ++ [b])).past [f.start]).rest = t := Stream.past_rest hr2
    refine ⟨_, _, _, rfl, hg, rfl, hr3, ?_⟩
    show (((s.past (ls ++ [b])).past [f.start]).rest).length ≤ _
    rw [hr3, hr]; simp

theorem length_linesText (ls : List (List Char)) : ls.length ≤ (linesText ls).length := by
  induction ls with
  | nil => simp
  | cons x ls ih => rw [linesText_cons]; simp; omega

/-- One frequency is read; then the next line is in the array. -/
theorem pcoStep {f : AtxFreq} (h : f.WF) {fuel n : Nat} {hline gline : List Char} {list : List Pco} {s : Stream} {x : List Char}
    {xs : List (List Char)} {t : List Char} (hx : LineFits 84 x) (hg : s.good = true)
    (ha : AtFreq f hline s (linesText (f.neu :: (f.pattern ++ f.stop :: x :: xs)) ++ t)) (hfuel : s.rest.length < fuel) :
    ∃ buf gline' p s', pcoLoop fuel (n + 1) hline gline list s = pcoLoop fuel n (fillLine buf x) gline' (list ++ [p]) s' ∧
      p.flat = f.offset ∧ s'.good = true ∧ s'.content = s.content ∧ s'.rest = linesText xs ++ t ∧
      s'.rest.length ≤ s.rest.length := by
  obtain ⟨buf, g1, s1, e1, e2, e3, e4, e5⟩ := pcoAtFreq_ok (gline := gline) h ha hg hfuel
  have hn60 := h.neu.2.long (by decide)
  have hs60 := h.stop.2.long (by decide)
  have hr2 := rest_cons e4
  have hr2' : (s1.past [f.neu]).rest = linesText (f.pattern ++ [f.stop]) ++ (linesText (x :: xs) ++ t) := by
    rw [hr2, show f.pattern ++ f.stop :: x :: xs = (f.pattern ++ [f.stop]) ++ (x :: xs) by simp, linesText_append]; simp
  have hl : f.pattern.length < fuel := by
    have h1 := length_linesText f.pattern
    have h2 : (s1.past [f.neu]).rest.length ≤ s1.rest.length := by
      rw [hr2, e4, linesText_cons f.neu]
      simp; omega
    rw [hr2', linesText_append] at h2
    simp at h2
    omega
  obtain ⟨g', hsc⟩ := scanTo_lines (n := ATX_GRID_CHARS) (pat := c!"END OF FREQUENCY") (by decide) (last := f.stop)
      (t := linesText (x :: xs) ++ t)
      ⟨(GridLine.of_labelled h.stop (by decide)).1, Nat.le_of_lt hs60, h.stop.2⟩ f.pattern
      (fun l hl => ⟨(h.pattern l hl).1.1, (h.pattern l hl).1.2, (h.pattern l hl).2.1⟩) fuel g1 (s1.past [f.neu]) e2 hr2' hl
  have hr3 : ((s1.past [f.neu]).past (f.pattern ++ [f.stop])).rest = linesText (x :: xs) ++ t := Stream.past_rest hr2'
  have hgl := getline_past (n := ATX_HEADER_CHARS) (s := (s1.past [f.neu]).past (f.pattern ++ [f.stop])) e2 hr3 hx.1 hx.2.2
  have hr4 := rest_cons hr3
  rw [pcoLoop, e1, Res.bind_ok]
  simp only [pcoBand_freq h, Res.bind_ok]
  rw [expect_labelled e2 e4 h.neu (by decide) (by decide), Res.bind_ok]
  simp only [Bool.true_eq_false, if_false]
  rw [take_fill (by omega), drop_take_fill (by omega), drop_take_fill (by omega), stod_num h.north, stod_num h.east, stod_num h.up]
  simp only [Res.bind_ok, hsc, hgl]
  refine ⟨_, _, _, _, rfl, rfl, e2, e3, hr4, ?_⟩
  refine Nat.le_trans ?_ e5
  rw [hr4, e4, linesText_cons, linesText_append, linesText_cons, linesText_cons]
  simp; omega

theorem AtxFreq.lines_cons (f : AtxFreq) : f.lines = f.start :: f.neu :: (f.pattern ++ f.stop :: f.rmsLines) := rfl

/-- All frequencies of an antenna. -/
theorem pcoLoop_freqs {fuel : Nat} (last : List Char) (hlast : Labelled last c!"END OF ANTENNA") (t : List Char) :
    ∀ (fs : List AtxFreq), (∀ f ∈ fs, f.WF) →
    ∀ (f : AtxFreq), f.WF → ∀ (hline gline : List Char) (list : List Pco) (s : Stream), s.good = true →
      AtFreq f hline s (linesText (f.neu :: (f.pattern ++ f.stop :: (f.rmsLines ++ (fs.map (·.lines)).flatten ++ [last]))) ++ t) →
      s.rest.length < fuel →
    ∃ l s', pcoLoop fuel (fs.length + 1) hline gline list s = .ok (0, list ++ l, s') ∧
      l.map Pco.flat = (f :: fs).map (·.offset) ∧ s'.fail = false ∧ s'.content = s.content := by
  intro fs
  induction fs with
  | nil =>
    intro _ f hf hline gline list s hg ha hfuel
    obtain ⟨x, xs, hxs, hx⟩ : ∃ x xs, f.rmsLines ++ (List.map (·.lines) ([] : List AtxFreq)).flatten ++ [last] = x :: xs ∧ LineFits 84 x := by
      unfold AtxFreq.rmsLines
      cases hrm : f.rms with
      | none => exact ⟨last, [], by simp, hlast.1⟩
      | some r =>
        obtain ⟨a, ls, b⟩ := r
        exact ⟨a, _, by simp; rfl, (hf.rms a ls b hrm).1.1⟩
    rw [hxs] at ha
    obtain ⟨buf, g', p, s', e1, e2, e3, e4, e5, e6⟩ := pcoStep (n := 0) (gline := gline) (list := list) hf hx hg ha hfuel
    refine ⟨[p], s', ?_, by simp [e2], ((Stream.good_iff s').1 e3).2, e4⟩
    simp only [List.length_nil, Nat.zero_add]
    rw [e1]; rfl
  | cons f' fs ih =>
    intro hw f hf hline gline list s hg ha hfuel
    have hf' := hw f' (by simp)
    have key : ∃ x xs, f.rmsLines ++ (List.map (·.lines) (f' :: fs)).flatten ++ [last] = x :: xs ∧ LineFits 84 x ∧
        ∀ buf s', s'.rest = linesText xs ++ t →
          AtFreq f' (fillLine buf x) s'
            (linesText (f'.neu :: (f'.pattern ++ f'.stop :: (f'.rmsLines ++ (fs.map (·.lines)).flatten ++ [last]))) ++ t) := by
      have hfl : (List.map (·.lines) (f' :: fs)).flatten ++ [last] = f'.start :: f'.neu :: (f'.pattern ++ f'.stop ::
          (f'.rmsLines ++ (fs.map (·.lines)).flatten ++ [last])) := by
        rw [List.map_cons, List.flatten_cons, AtxFreq.lines_cons]; simp
      rw [List.append_assoc, hfl]
      cases hrm : f.rms with
      | none =>
        refine ⟨f'.start, _, by rw [AtxFreq.rmsLines, hrm]; rfl, hf'.start.1, ?_⟩
        intro buf s' hs'
        exact Or.inl ⟨buf, rfl, hs'⟩
      | some r =>
        obtain ⟨a, ls, b⟩ := r
        obtain ⟨h1, h2, h3⟩ := hf.rms a ls b hrm
        refine ⟨a, _, by rw [AtxFreq.rmsLines, hrm]; rfl, h1.1, ?_⟩
        intro buf s' hs'
        refine Or.inr ⟨buf, a, ls, b, rfl, h1, h2, fun l hl => ⟨(h3 l hl).1, (h3 l hl).2.1⟩, ?_⟩
        rw [hs']
        simp [linesText_append, linesText_cons, show linesText [] = [] from rfl]
    obtain ⟨x, xs, hxs, hx, hat⟩ := key
    rw [hxs] at ha
    obtain ⟨buf, g', p, s', e1, e2, e3, e4, e5, e6⟩ := pcoStep (n := fs.length + 1) (gline := gline) (list := list) hf hx hg ha hfuel
    obtain ⟨l, s2, i1, i2, i3, i4⟩ := ih (fun q hq => hw q (by simp [hq])) f' hf' (fillLine buf x) g' (list ++ [p]) s' e3 (hat buf s' e5) (by omega)
    refine ⟨p :: l, s2, ?_, by simp [e2, i2], i3, i4.trans e4⟩
    simp only [List.length_cons]
    rw [e1, i1]; simp

/-- `collect_pco` on the body of a record. -/
theorem collectPco_block {strptime : List Char → Res DateTime} {J : AtxJunk} {b : AtxBlock} (h : b.WF strptime) {fuel : Nat} {s : Stream}
    {t : List Char} (hg : s.good = true) (hr : s.rest = linesText b.body ++ t) (hfuel : s.rest.length < fuel) :
    ∃ l s', collectPco J fuel [] s = .ok (0, l, s') ∧ l.map Pco.flat = b.offsets ∧ s'.fail = false ∧ s'.content = s.content := by
  obtain ⟨f, fs, hfs⟩ : ∃ f fs, b.freqs = f :: fs := by
    cases hb : b.freqs with
    | nil => exact absurd hb h.some_
    | cons f fs => exact ⟨f, fs, rfl⟩
  have hff : f.WF := h.freqs f (by rw [hfs]; simp)
  have hbody : b.body = b.meth :: b.dazi :: b.zen :: b.num :: ((b.opts.map (·.line) ++ [f.start]) ++
      (f.neu :: (f.pattern ++ f.stop :: (f.rmsLines ++ (fs.map (·.lines)).flatten ++ [b.last])))) := by
    unfold AtxBlock.body
    rw [hfs]
    simp [AtxFreq.lines_cons]
  rw [hbody] at hr
  have r1 := rest_cons hr
  have r2 := rest_cons r1
  have r3 := rest_cons r2
  have r4 := rest_cons r3
  have hn60 := h.num.2.long (by decide)
  have hle : ∀ {l : List Char} {ls : List (List Char)} {s : Stream}, s.rest = linesText (l :: ls) ++ t →
      (s.past [l]).rest.length ≤ s.rest.length := by
    intro l ls s h
    rw [rest_cons h, h, linesText_cons]; simp; omega
  have hlen := Nat.le_trans (hle r3) (Nat.le_trans (hle r2) (Nat.le_trans (hle r1) (hle hr)))
  have hm1 := expect_labelled (buf := J.head s.pos) hg hr h.meth (by decide) (by decide)
  have hm2 := expect_labelled (buf := fillLine (J.head s.pos) b.meth) (s := s.past [b.meth]) hg r1 h.dazi (by decide) (by decide)
  have hm3 := expect_labelled (buf := fillLine (fillLine (J.head s.pos) b.meth) b.dazi) (s := (s.past [b.meth]).past [b.dazi]) hg r2
    h.zen (by decide) (by decide)
  have hm4 := expect_labelled (buf := fillLine (fillLine (fillLine (J.head s.pos) b.meth) b.dazi) b.zen)
    (s := ((s.past [b.meth]).past [b.dazi]).past [b.zen]) hg r3 h.num (by decide) (by decide)
  have hg4 : ((((s.past [b.meth]).past [b.dazi]).past [b.zen]).past [b.num]).good = true := hg
  generalize hs4 : (((s.past [b.meth]).past [b.dazi]).past [b.zen]).past [b.num] = s4 at *
  have hcont : s4.content = s.content := by rw [← hs4]; rfl
  rw [linesText_append, List.append_assoc] at r4
  obtain ⟨hb, hsc⟩ := scanTo_lines (n := ATX_HEADER_CHARS) (pat := c!"START OF FREQUENCY") (by decide) (last := f.start)
      (t := linesText (f.neu :: (f.pattern ++ f.stop :: (f.rmsLines ++ (fs.map (·.lines)).flatten ++ [b.last]))) ++ t)
      ⟨hff.start.1, Nat.le_of_lt (hff.start.2.long (by decide)), hff.start.2⟩ (b.opts.map (·.line))
      (by
        intro l hl
        simp only [List.mem_map] at hl
        obtain ⟨o, ho, rfl⟩ := hl
        obtain ⟨i1, i2, i3⟩ := AtxOpt.inner (h.opts o ho)
        exact ⟨i3, i1.1.2, i2⟩) fuel
      (fillLine (fillLine (fillLine (fillLine (J.head s.pos) b.meth) b.dazi) b.zen) b.num) s4 hg4 r4
      (by
        have := length_linesText (b.opts.map (·.line))
        rw [r4, linesText_append] at hlen
        simp at hlen this
        simp
        omega)
  have hr5 := Stream.past_rest r4
  have hlen5 : (s4.past (b.opts.map (·.line) ++ [f.start])).rest.length ≤ s4.rest.length := by
    rw [hr5, r4]; simp
  obtain ⟨l, s', e1, e2, e3, e4⟩ := pcoLoop_freqs (fuel := fuel) b.last h.last t fs (fun q hq => h.freqs q (by rw [hfs]; simp [hq])) f hff
    (fillLine hb f.start) (J.grid s.pos) [] (s4.past (b.opts.map (·.line) ++ [f.start])) hg4
    (Or.inl ⟨hb, rfl, hr5⟩) (by omega)
  refine ⟨l, s', ?_, ?_, e3, by rw [e4]; exact hcont⟩
  · unfold collectPco
    rw [hm1, Res.bind_ok]
    simp only [Bool.true_eq_false, if_false]
    rw [hm2, Res.bind_ok]
    simp only [Bool.true_eq_false, if_false]
    rw [hm3, Res.bind_ok]
    simp only [Bool.true_eq_false, if_false]
    rw [hm4, Res.bind_ok]
    simp only [Bool.true_eq_false, if_false]
    rw [take_fill (by omega), stoi_nat h.numVal, hfs]
    simp only [hsc, Res.bind_ok, List.length_cons, Int.toNat_natCast]
    rw [e1]
    simp
  · rw [e2]; unfold AtxBlock.offsets; rw [hfs]

/-! ## The query -/

/-- What the query prescribes: status and offsets. -/
def ReceiverAnswer (bs : List AtxBlock) (k : AntCtor) (ss : List (List Char)) (mustMatchSerial : Bool) (st : Int)
    (offs : List (SatSys × Int × Rat × Rat × Rat)) : Prop :=
  (∃ i b, FirstIdx bs (AtxBlock.Exact k ss) i b ∧ st = 0 ∧ offs = b.offsets) ∨
  ((∀ b ∈ bs, ¬ b.Exact k ss) ∧ mustMatchSerial = false ∧ ∃ i b, LastIdx bs (AtxBlock.Close k) i b ∧ st = 0 ∧ offs = b.offsets) ∨
  ((∀ b ∈ bs, ¬ b.Exact k ss) ∧ mustMatchSerial = true ∧ st = 10 ∧ offs = []) ∨
  ((∀ b ∈ bs, ¬ b.Exact k ss) ∧ (∀ b ∈ bs, ¬ b.Close k) ∧ mustMatchSerial = false ∧ st = 1 ∧ offs = [])

theorem seekg_good {s : Stream} (h : s.fail = false) (p : Nat) :
    (s.seekg p).good = true ∧ (s.seekg p).content = s.content ∧ (s.seekg p).pos = p ∧ (s.seekg p).rest = s.content.drop p := by
  unfold Stream.seekg
  rw [if_neg (by simp [h])]
  refine ⟨by simp [Stream.good, h], rfl, rfl, rfl⟩

/-- First line of the file when the header is well formed. -/
def FirstLineOK (content : List Char) : Prop :=
  ∃ l t, content = l ++ '\n' :: t ∧ LineFits 84 l ∧ 60 ≤ l.length ∧ ¬ HasLabel l c!"METH / BY / # / DATE"

theorem collectPco_first {J : AtxJunk} {fuel : Nat} {s : Stream} (hg : s.good = true) (hp : s.pos = 0) (hc : FirstLineOK s.content) :
    ∃ s', collectPco J fuel [] s = .ok (1, [], s') ∧ s'.fail = false ∧ s'.content = s.content := by
  obtain ⟨l, t, h1, h2, h3, h4⟩ := hc
  have hr : s.rest = linesText [l] ++ t := by
    unfold Stream.rest; rw [hp, h1]; simp [linesText_one]
  unfold collectPco
  rw [expect_line hg hr h2 h3 (by decide), decide_eq_false h4, Res.bind_ok]
  exact ⟨s.past [l], rfl, ((Stream.good_iff s).1 hg).2, rfl⟩

/-- **C35**.  `get_antenna_pco` for a receiver antenna, on a file with at least one antenna: status
0 and the offsets of the first record with the same model, radome and serial number; else those of
the last record for the model and radome (unless the serial must match: status 10); else a non-zero
status and no offsets.  The object can be queried again. -/
theorem C35_receiver {strptime : List Char → Res DateTime} {J : AtxJunk} (hJ : J.WF) {bs : List AtxBlock} (hne : bs ≠ [])
    (hw : ∀ b ∈ bs, b.WF strptime) {f : AtxFile} (hf : AtxOn bs f) (h1 : FirstLineOK f.strm.content) {antIn : List Char} {k : AntCtor}
    {ss : List (List Char)} (hi : AntReach antIn k ss) (must : Bool) {fuel : Nat} (hfuel : f.strm.content.length < fuel) :
    ∃ st l f', atxPcoReceiver J fuel f antIn must = .ok (st, l, f') ∧ ReceiverAnswer bs k ss must st (l.map Pco.flat) ∧
      AtxOn bs f' ∧ f'.strm.content = f.strm.content := by
  obtain ⟨p, hp1, hp2⟩ := hf.head
  obtain ⟨hg, hc, hpos, hr⟩ := seekg_good hf.fail p
  have hblen : bs.length < fuel := by
    have h1 : bs.length ≤ (bs.map (·.lines)).flatten.length := by
      clear hne hw hf hp2
      induction bs with
      | nil => simp
      | cons b bs ih =>
        have : 0 < b.lines.length := by simp [AtxBlock.lines]
        simp only [List.map_cons, List.flatten_cons, List.length_append, List.length_cons]; omega
    have h2 := length_linesText (bs.map (·.lines)).flatten
    have h3 : (atxBlocksText bs).length ≤ f.strm.content.length := by rw [← hp2]; simp
    unfold atxBlocksText at h3
    omega
  obtain ⟨m, e1, e2, e3, e4⟩ := matchLoop_blocks hJ hi bs hw fuel (List.replicate 20 ' ' ++ NUL :: (J.ant p).drop 21)
    (List.replicate 20 ' ' ++ NUL :: (J.ant p).drop 21) (some 0) none (f.strm.seekg p) hg (by rw [hr, hp2]) hblen (Or.inr ⟨rfl, hne⟩)
  rw [hc] at e2 e4
  have hfind : atxFindMatch J fuel f antIn = .ok m := by
    unfold atxFindMatch
    simp only [hp1, atxSeek, hpos, antInit_eq (J.ant p) (hJ.ant p), Res.bind_ok]
    rw [e1]; rfl
  have hcol : ∀ q b more, b ∈ bs → f.strm.content.drop q = linesText b.body ++ more →
      ∃ l s', collectPco J fuel [] (m.strm.seekg q) = .ok (0, l, s') ∧ l.map Pco.flat = b.offsets ∧ s'.fail = false ∧
        s'.content = f.strm.content := by
    intro q b more hb hd
    obtain ⟨g1, g2, g3, g4⟩ := seekg_good e3 q
    obtain ⟨l, s', i1, i2, i3, i4⟩ := collectPco_block (J := J) (fuel := fuel) (hw b hb) g1 (by rw [g4, e2, hd])
      (by rw [g4, e2]; simp; omega)
    exact ⟨l, s', i1, i2, i3, by rw [i4, g2, e2]⟩
  unfold atxPcoReceiver
  rw [hfind, Res.bind_ok]
  rcases e4 with ⟨i, b, q, more, x1, x2, x3, x4⟩ | ⟨x1, x2, x3⟩
  · obtain ⟨l, s', i1, i2, i3, i4⟩ := hcol q b more (List.mem_of_getElem? x1.1) x4
    rw [if_neg (by omega), if_neg (by omega), x3]
    simp only [atxSeek, i1, Res.bind_ok, Res.pure_eq]
    exact ⟨0, l, _, rfl, Or.inl ⟨i, b, x1, rfl, i2⟩, ⟨⟨p, hp1, by rw [i4]; exact hp2⟩, i3⟩, i4⟩
  · rw [if_neg (by omega)]
    cases must with
    | true =>
      rw [if_pos ⟨x2, rfl⟩]
      exact ⟨10, [], _, rfl, Or.inr (Or.inr (Or.inl ⟨x1, rfl, rfl, rfl⟩)), ⟨⟨p, hp1, by rw [e2]; exact hp2⟩, e3⟩, e2⟩
    | false =>
      rw [if_neg (by simp)]
      rcases x3 with ⟨i, b, q, more, y1, y2, y3⟩ | ⟨y1, y2⟩
      · obtain ⟨l, s', i1, i2, i3, i4⟩ := hcol q b more (List.mem_of_getElem? y1.1) y3
        simp only [y2, atxSeek, i1, Res.bind_ok, Res.pure_eq]
        exact ⟨0, l, _, rfl, Or.inr (Or.inl ⟨x1, rfl, i, b, y1, rfl, i2⟩), ⟨⟨p, hp1, by rw [i4]; exact hp2⟩, i3⟩, i4⟩
      · obtain ⟨g1, g2, g3, g4⟩ := seekg_good e3 0
        obtain ⟨s', i1, i2, i3⟩ := collectPco_first (J := J) (fuel := fuel) g1 g3 (by rw [g2, e2]; exact h1)
        have hcc : s'.content = f.strm.content := by rw [i3, g2, e2]
        simp only [y2, atxSeek, i1, Res.bind_ok, Res.pure_eq]
        exact ⟨1, [], _, rfl, Or.inr (Or.inr (Or.inr ⟨x1, y1, rfl, rfl, rfl⟩)), ⟨⟨p, hp1, by rw [hcc]; exact hp2⟩, i2⟩, hcc⟩

end Ggnss
