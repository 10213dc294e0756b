import Verif.Spec.NavFind
import Verif.Props.NavFate
import Verif.Props.NavSearch
/-! # C112: searching a satellite in a file whose records have arbitrary lines -/
namespace Ggnss

theorem block_first {sys : SatSys} {ls : List (List Char)} (hb : IsBlock sys ls) : ∃ l0, ls.head? = some l0 := by
  have := hb.count
  have hm := hb.notMixed
  cases ls with
  | nil => cases sys <;> simp [specLines] at this hm
  | cons a b => exact ⟨a, rfl⟩

/-- What a call that reads a record comes to. -/
def ReadsAs (dateOf : List Char → Res DateTime) (sys : SatSys) (ls : List (List Char)) (f : NavFrame) (s : Stream) (r : Res NavOut) : BlockKind → Prop
  | .good p => ∃ f', r = .ok ⟨0, f', s.adv (linesText ls).length, 0⟩ ∧ RecordSays dateOf sys ls f f' ∧ f'.prn = p
  | .bad st m => ∃ f', r = .ok ⟨st, f', s.adv (linesText (ls.take m)).length, 0⟩ ∧ st ≠ 0
  | .undefined => r = .ub
  | .killed => r = .terminate

theorem record_kind {dateOf : List Char → Res DateTime} (hL : ∀ t, (∃ d, dateOf t = .ok d) ∨ ∃ e, dateOf t = .throw e) (junk : List Char) {f : NavFrame} {s : Stream}
    {sys : SatSys} {ls : List (List Char)} {tail : List Char} (hb : IsBlock sys ls) (hrc : ReachesColumns sys ls) (hp : PlainRecord sys ls) (hlen : f.data.length = 31)
    (hg : s.good = true) (hr : s.rest = linesText ls ++ tail) :
    ∃ k, BlockIs sys ls (fun t => ∃ d, dateOf t = .ok d) k ∧ ReadsAs dateOf sys ls f s (readNextRecord dateOf junk f s 0) k := by
  obtain ⟨l0, hl0⟩ := block_first hb
  obtain ⟨x, hx, hfate⟩ := record_fate hL junk hb hrc hp hlen hg hr
  have hbs : ∀ j, badStatus sys j ≠ 0 := by
    intro j; unfold badStatus; split <;> (try split) <;> decide
  cases hrd : readNextRecord dateOf junk f s 0 with
  | throw e => rw [hrd] at hx; cases hx
  | diverge =>
    rw [hrd] at hx
    cases hx
    cases hfate
  | ub =>
    rw [hrd] at hx
    cases hx
    cases hfate with
    | beyond l p h1 h2 h3 h4 h5 h6 => exact ⟨.undefined, .beyond l p h1 h2 h3 h4 (fun i _ q hq k hk => h5 i q hq k hk) h6, rfl⟩
  | terminate =>
    rw [hrd] at hx
    cases hx
    cases hfate with
    | date l h1 h2 => exact ⟨.killed, .date l h1 h2, rfl⟩
  | ok o =>
    rw [hrd] at hx
    cases hx
    have hv : ∃ d, dateOf (l0.drop 3) = .ok d := by
      have : ∀ {l : List Char}, ls.head? = some l → (∃ d, dateOf (l.drop 3) = .ok d) → ∃ d, dateOf (l0.drop 3) = .ok d := by
        intro l h1 h2
        rw [hl0] at h1
        cases h1
        exact h2
      cases hfate with
      | satellite l h1 h2 => exact this h1 h2
      | number l _ _ _ _ h1 h2 => exact this h1 h2
      | complete l _ h1 h2 => exact this h1 h2
    obtain ⟨m, h1, h2, h3⟩ := C99_record hb hrc hg hr hrd
    obtain ⟨st, fr, sm, en⟩ := o
    simp only at h1 h2 h3
    subst h2 h3
    cases h1 with
    | noSatellite _ l g1 g2 =>
      rw [hl0] at g1
      cases g1
      exact ⟨.bad 2 1, .satellite l0 hl0 hv g2, fr, rfl, by decide⟩
    | noNumber _ j k l g0 g1 g2 g3 g4 =>
      obtain ⟨p, hp1, hp2⟩ := g0 l0 hl0
      exact ⟨.bad (badStatus sys j) (j + 1), .number l0 p j k l hl0 hv hp1 hp2 g1 g2 g3 g4, fr, rfl, hbs j⟩
    | complete _ hs =>
      obtain ⟨p1, p2⟩ := hs.satellite l0 hl0
      have hnum : ∀ j q, ls[j]? = some q → ∀ k < specCount sys j, ∃ v, NumberIn (numText q (navCol j k)) v := fun j q hq k hk => by
        obtain ⟨v, hv, _⟩ := hs.numbers j q hq k hk
        exact ⟨v, hv⟩
      refine ⟨.good fr.prn, .good l0 _ hl0 hv p1 p2 (fun i _ q hq k hk => hnum i q hq k hk) ?_, fr, by simp, hs, rfl⟩
      intro htoe
      cases C110_determined hp hfate (.beyond l0 _ hl0 hv p1 p2 hnum htoe)

/-- The lines leave no choice. -/
theorem BlockIs.unique {sys : SatSys} {ls : List (List Char)} {valid : List Char → Prop} (hp : PlainRecord sys ls) {a b : BlockKind}
    (ha : BlockIs sys ls valid a) (hb : BlockIs sys ls valid b) : a = b := by
  have hh : ∀ {a b : List Char}, ls.head? = some a → ls.head? = some b → a = b := by
    intro a b h1 h2; rw [h1] at h2; exact Option.some.inj h2
  have hv : ∀ {a b : List Char}, ls.head? = some a → ls.head? = some b → valid (a.drop 3) → ¬ valid (b.drop 3) → False := by
    intro a b h1 h2 h3 h4; rw [hh h1 h2] at h3; exact h4 h3
  have hs : ∀ {a b : List Char} {p : Int}, ls.head? = some a → ls.head? = some b → (∀ p, PrnOf a p → p = 0) → PrnOf b p → p ≠ 0 → False := by
    intro a b p h1 h2 h3 h4 h5; rw [hh h1 h2] at h3; exact h5 (h3 p h4)
  have hn : ∀ {j k n : Nat} {q : List Char}, ls[j]? = some q → k < specCount sys j → NoNumberIn (numText q (navCol j k)) → ReadableBefore sys ls n → j < n → False := by
    intro j k n q h1 h2 h3 h4 h5
    obtain ⟨v, hv⟩ := h4 j h5 q h1 k h2
    exact hv.not_no (hp j q h1 k h2) h3
  cases ha with
  | date l a1 a2 =>
    cases hb with
    | date => rfl
    | satellite _ b1 b2 => exact (hv b1 a1 b2 a2).elim
    | number _ _ _ _ _ b1 b2 => exact (hv b1 a1 b2 a2).elim
    | good _ _ b1 b2 => exact (hv b1 a1 b2 a2).elim
    | beyond _ _ b1 b2 => exact (hv b1 a1 b2 a2).elim
  | satellite l a1 a2 a3 =>
    cases hb with
    | date _ b1 b2 => exact (hv a1 b1 a2 b2).elim
    | satellite => rfl
    | number _ _ _ _ _ b1 b2 b3 b4 => exact (hs a1 b1 a3 b3 b4).elim
    | good _ _ b1 b2 b3 b4 => exact (hs a1 b1 a3 b3 b4).elim
    | beyond _ _ b1 b2 b3 b4 => exact (hs a1 b1 a3 b3 b4).elim
  | number l p j k q a1 a2 a3 a4 a5 a6 a7 a8 =>
    have hj : j < ls.length := (List.getElem?_eq_some_iff.1 a5).1
    cases hb with
    | date _ b1 b2 => exact (hv a1 b1 a2 b2).elim
    | satellite _ b1 b2 b3 => exact (hs b1 a1 b3 a3 a4).elim
    | number _ _ j' _ _ _ _ _ _ b5 b6 b7 b8 =>
      rcases Nat.lt_trichotomy j j' with h | h | h
      · exact (hn a5 a6 a7 b8 h).elim
      · rw [h]
      · exact (hn b5 b6 b7 a8 h).elim
    | good _ _ _ _ _ _ b5 => exact (hn a5 a6 a7 b5 hj).elim
    | beyond _ _ _ _ _ _ b5 => exact (hn a5 a6 a7 b5 hj).elim
  | good l p a1 a2 a3 a4 a5 a6 =>
    cases hb with
    | date _ b1 b2 => exact (hv a1 b1 a2 b2).elim
    | satellite _ b1 b2 b3 => exact (hs b1 a1 b3 a3 a4).elim
    | number _ _ j' _ _ _ _ _ _ b5 b6 b7 b8 => exact (hn b5 b6 b7 a5 (List.getElem?_eq_some_iff.1 b5).1).elim
    | good _ _ b1 _ b3 => rw [hh a1 b1] at a3; rw [a3.unique b3]
    | beyond _ _ _ _ _ _ _ b6 => exact (a6 b6).elim
  | beyond l p a1 a2 a3 a4 a5 a6 =>
    cases hb with
    | date _ b1 b2 => exact (hv a1 b1 a2 b2).elim
    | satellite _ b1 b2 b3 => exact (hs b1 a1 b3 a3 a4).elim
    | number _ _ j' _ _ _ _ _ _ b5 b6 b7 b8 => exact (hn b5 b6 b7 a5 (List.getElem?_eq_some_iff.1 b5).1).elim
    | good _ _ _ _ _ _ _ b6 => exact (b6 a6).elim
    | beyond => rfl

/-- **C112** (no choice): the records determine how a search ends. -/
theorem C112_determined {valid : List Char → Prop} {sys : SatSys} {prn : Int} {bs : List NavBlock} (hp : ∀ b ∈ bs, b.1 = sys → PlainRecord sys b.2) {i j : Nat} {v w : SearchWhat}
    (h1 : SearchFate valid sys prn bs i v) (h2 : SearchFate valid sys prn bs j w) : i = j ∧ v = w := by
  induction h1 generalizing j w with
  | ended => cases h2; exact ⟨rfl, rfl⟩
  | @other b bs i v a1 _ ih =>
    cases h2 with
    | other _ b2 =>
      obtain ⟨rfl, rfl⟩ := ih (fun q hq => hp q (by simp [hq])) b2
      exact ⟨rfl, rfl⟩
    | pass _ b1 => exact (a1 b1).elim
    | found _ b1 => exact (a1 b1).elim
    | refused _ _ b1 => exact (a1 b1).elim
    | undefined b1 => exact (a1 b1).elim
    | killed b1 => exact (a1 b1).elim
  | @pass b bs i v p a1 a2 a3 a4 _ ih =>
    have hpb := hp b (by simp) a1
    cases h2 with
    | other b1 _ => exact (b1 a1).elim
    | pass q b1 _ _ _ b5 =>
      obtain ⟨rfl, rfl⟩ := ih (fun q hq => hp q (by simp [hq])) b5
      exact ⟨rfl, rfl⟩
    | found q b1 b2 b3 =>
      cases a2.unique hpb b2
      rcases b3 with h | h
      · exact (a3 h).elim
      · exact (a4 h).elim
    | refused _ _ b1 b2 => cases a2.unique hpb b2
    | undefined b1 b2 => cases a2.unique hpb b2
    | killed b1 b2 => cases a2.unique hpb b2
  | @found b bs p a1 a2 a3 =>
    have hpb := hp b (by simp) a1
    cases h2 with
    | other b1 _ => exact (b1 a1).elim
    | pass q b1 b2 b3 b4 _ =>
      cases a2.unique hpb b2
      rcases a3 with h | h
      · exact (b3 h).elim
      · exact (b4 h).elim
    | found q b1 b2 b3 => exact ⟨rfl, rfl⟩
    | refused _ _ b1 b2 => cases a2.unique hpb b2
    | undefined b1 b2 => cases a2.unique hpb b2
    | killed b1 b2 => cases a2.unique hpb b2
  | @refused b bs st m a1 a2 =>
    have hpb := hp b (by simp) a1
    cases h2 with
    | other b1 _ => exact (b1 a1).elim
    | pass q b1 b2 b3 b4 _ => cases a2.unique hpb b2
    | found q b1 b2 b3 => cases a2.unique hpb b2
    | refused _ _ b1 b2 => cases a2.unique hpb b2; exact ⟨rfl, rfl⟩
    | undefined b1 b2 => cases a2.unique hpb b2
    | killed b1 b2 => cases a2.unique hpb b2
  | @undefined b bs a1 a2 =>
    have hpb := hp b (by simp) a1
    cases h2 with
    | other b1 _ => exact (b1 a1).elim
    | pass q b1 b2 b3 b4 _ => cases a2.unique hpb b2
    | found q b1 b2 b3 => cases a2.unique hpb b2
    | refused _ _ b1 b2 => cases a2.unique hpb b2
    | undefined b1 b2 => exact ⟨rfl, rfl⟩
    | killed b1 b2 => cases a2.unique hpb b2
  | @killed b bs a1 a2 =>
    have hpb := hp b (by simp) a1
    cases h2 with
    | other b1 _ => exact (b1 a1).elim
    | pass q b1 b2 b3 b4 _ => cases a2.unique hpb b2
    | found q b1 b2 b3 => cases a2.unique hpb b2
    | refused _ _ b1 b2 => cases a2.unique hpb b2
    | undefined b1 b2 => cases a2.unique hpb b2
    | killed b1 b2 => exact ⟨rfl, rfl⟩

/-! ## The call -/

/-- `SearchDelivers` for the loop. -/
def LoopDelivers (dateOf : List Char → Res DateTime) (sys : SatSys) (bs : List NavBlock) (s : Stream) (i : Nat) (r : Res NavOut) : SearchWhat → Prop
  | .found => ∃ f' g b, bs[i]? = some b ∧ RecordSays dateOf sys b.2 g f' ∧ r = .ok ⟨0, f', s.adv (linesText (blockLines (bs.take (i + 1)))).length, 0⟩
  | .late => ∃ f' g b, bs[i]? = some b ∧ RecordSays dateOf sys b.2 g f' ∧ r = .ok ⟨-1, f', s.adv (linesText (blockLines (bs.take (i + 1)))).length, 0⟩
  | .ended => i = bs.length ∧ ∃ f', r = .ok ⟨-1, f', s.adv (linesText (blockLines bs)).length, 0⟩
  | .refused st m => ∃ f' b, bs[i]? = some b ∧ r = .ok ⟨st, f', s.adv (linesText (blockLines (bs.take i) ++ b.2.take m)).length, 0⟩
  | .undefined => r = .ub
  | .killed => r = .terminate

theorem adv_clear {s : Stream} (hg : s.good = true) (n : Nat) : (s.adv n).clear = s.adv n := by
  have := (Stream.good_iff s).1 hg
  cases s
  simp_all [Stream.clear, Stream.adv]

theorem LoopDelivers.cons {dateOf : List Char → Res DateTime} {sys : SatSys} {b : NavBlock} {bs : List NavBlock} {s : Stream} {i : Nat} {r : Res NavOut} {w : SearchWhat}
    (h : LoopDelivers dateOf sys bs (s.adv (linesText b.2).length) i r w) : LoopDelivers dateOf sys (b :: bs) s (i + 1) r w := by
  have e : ∀ q : List (List Char), (s.adv (linesText b.2).length).adv (linesText q).length = s.adv (linesText (b.2 ++ q)).length := by
    intro q; rw [Stream.adv_adv, linesText_append, List.length_append]
  have e2 : ∀ q : List NavBlock, blockLines (b :: q) = b.2 ++ blockLines q := fun q => by simp [blockLines]
  cases w with
  | found =>
    obtain ⟨f', g, c, h1, h2, h3⟩ := h
    exact ⟨f', g, c, by simpa using h1, h2, by rw [h3, e, List.take_succ_cons, e2]⟩
  | late =>
    obtain ⟨f', g, c, h1, h2, h3⟩ := h
    exact ⟨f', g, c, by simpa using h1, h2, by rw [h3, e, List.take_succ_cons, e2]⟩
  | ended =>
    obtain ⟨h0, f', h3⟩ := h
    exact ⟨by simp [h0], f', by rw [h3, e, e2]⟩
  | refused st m =>
    obtain ⟨f', c, h1, h3⟩ := h
    exact ⟨f', c, by simpa using h1, by rw [h3, e, List.take_succ_cons, e2, List.append_assoc]⟩
  | undefined => exact h
  | killed => exact h

theorem findLoop_blocks {dateOf : List Char → Res DateTime} (hL : ∀ t, (∃ d, dateOf t = .ok d) ∨ ∃ e, dateOf t = .throw e) (junk : Nat → List Char) {sys : SatSys} {prn : Int} :
    ∀ (bs : List NavBlock) (fuel : Nat) (f : NavFrame) (s : Stream), bs.length < fuel → (∀ b ∈ bs, IsBlock b.1 b.2) →
      (∀ b ∈ bs, b.1 = sys → ReachesColumns sys b.2 ∧ PlainRecord sys b.2) → f.data.length = 31 → s.good = true → s.rest = linesText (blockLines bs) →
      ∃ i w, SearchFate (fun t => ∃ d, dateOf t = .ok d) sys prn bs i w ∧ LoopDelivers dateOf sys bs s i (findLoop dateOf junk (acceptPrn prn) sys fuel f s 0) w := by
  intro bs
  induction bs with
  | nil =>
    intro fuel f s hfuel _ _ _ hg hr
    obtain ⟨m, rfl⟩ : ∃ m, fuel = m + 1 := ⟨fuel - 1, by simp at hfuel; omega⟩
    refine ⟨0, .ended, .ended, rfl, f, ?_⟩
    rw [findLoop_eof dateOf junk _ sys m f s hg (by simpa [blockLines, linesText] using hr)]
    simp [blockLines, linesText, Stream.adv]
  | cons b bs ih =>
    intro fuel f s hfuel hB hC hlen hg hr
    obtain ⟨m, rfl⟩ : ∃ m, fuel = m + 1 := ⟨fuel - 1, by simp at hfuel; omega⟩
    have hb := hB b (by simp)
    have hr' : s.rest = linesText b.2 ++ linesText (blockLines bs) := by
      rw [hr, ← linesText_append]; simp [blockLines]
    have ihs := fun f' hl => ih m f' (s.adv (linesText b.2).length) (by simp at hfuel; omega) (fun q hq => hB q (by simp [hq])) (fun q hq => hC q (by simp [hq])) hl
      (by simpa using hg) (Stream.adv_rest_append hr')
    rw [findLoop]
    simp only [peakSatsys_block hb hg hr', ne_eq, not_true_eq_false, if_false]
    by_cases hsys : b.1 = sys
    · rw [if_pos hsys]
      obtain ⟨hrc, hpl⟩ := hC b (by simp) hsys
      rw [hsys] at hb
      obtain ⟨k, hk, hrd⟩ := record_kind hL (junk s.pos) hb hrc hpl hlen hg hr'
      cases k with
      | good p =>
        obtain ⟨f', e1, hs, hpr⟩ := hrd
        rw [e1, Res.bind_ok]
        simp only [not_true_eq_false, if_false]
        unfold acceptPrn
        by_cases hm : prn = -1 ∨ prn = f'.prn
        · rw [if_pos hm]
          refine ⟨0, .found, .found p hsys hk ?_, f', f, b, rfl, hs, ?_⟩
          · rcases hm with h | h
            · exact Or.inl h
            · exact Or.inr (by rw [h, hpr])
          · simp [blockLines]
        · rw [if_neg hm]
          push Not at hm
          obtain ⟨i, w, h1, h2⟩ := ihs f' (by rw [hs.size]; exact hlen)
          exact ⟨i + 1, w, .pass p hsys hk hm.1 (by rw [← hpr]; exact fun h => hm.2 h.symm) h1, LoopDelivers.cons h2⟩
      | bad st n =>
        obtain ⟨f', e1, hst⟩ := hrd
        rw [e1, Res.bind_ok]
        simp only [hst, not_false_eq_true, if_true]
        refine ⟨0, .refused st n, .refused st n hsys hk, f', b, rfl, ?_⟩
        rw [adv_clear hg]
        simp [blockLines]
      | undefined =>
        have e1 : readNextRecord dateOf (junk s.pos) f s 0 = .ub := hrd
        rw [e1]
        exact ⟨0, .undefined, .undefined hsys hk, rfl⟩
      | killed =>
        have e1 : readNextRecord dateOf (junk s.pos) f s 0 = .terminate := hrd
        rw [e1]
        exact ⟨0, .killed, .killed hsys hk, rfl⟩
    · rw [if_neg hsys, ignore_block hb hg hr']
      simp only [not_true_eq_false, if_false]
      obtain ⟨i, w, h1, h2⟩ := ihs f hlen
      exact ⟨i + 1, w, .other hsys h1, LoopDelivers.cons h2⟩

/-- **C112** (something becomes of every search). -/
theorem C112_total {dateOf : List Char → Res DateTime} (hL : ∀ t, (∃ d, dateOf t = .ok d) ∨ ∃ e, dateOf t = .throw e) (junk : Nat → List Char) {sys : SatSys} {prn : Int}
    {bs : List NavBlock} {fuel : Nat} {f : NavFrame} {s : Stream} (hfuel : bs.length < fuel) (hB : ∀ b ∈ bs, IsBlock b.1 b.2)
    (hC : ∀ b ∈ bs, b.1 = sys → ReachesColumns sys b.2 ∧ PlainRecord sys b.2) (hlen : f.data.length = 31) (hg : s.good = true) (hr : s.rest = linesText (blockLines bs)) :
    ∃ i w, SearchFate (fun t => ∃ d, dateOf t = .ok d) sys prn bs i w ∧ SearchDelivers dateOf sys bs s i (findNext dateOf junk fuel sys prn f s 0) w := by
  obtain ⟨i, w, h1, h2⟩ := findLoop_blocks hL junk (prn := prn) bs fuel f s hfuel hB hC hlen hg hr
  refine ⟨i, w, h1, ?_⟩
  unfold findNext
  simp only [tellg_good hg]
  cases w with
  | found => obtain ⟨f', g, b, k1, k2, k3⟩ := h2; exact ⟨f', g, b, k1, k2, by rw [k3]; rfl⟩
  | late => obtain ⟨f', g, b, k1, k2, k3⟩ := h2; exact ⟨f', g, b, k1, k2, by rw [k3]; rfl⟩
  | ended => obtain ⟨k0, f', k3⟩ := h2; exact ⟨k0, f', by rw [k3]; rfl⟩
  | refused st m => obtain ⟨f', b, k1, k3⟩ := h2; exact ⟨f', b, k1, by rw [k3]; rfl⟩
  | undefined =>
    have h2 : findLoop dateOf junk (acceptPrn prn) sys fuel f s 0 = .ub := h2
    rw [h2]; rfl
  | killed =>
    have h2 : findLoop dateOf junk (acceptPrn prn) sys fuel f s 0 = .terminate := h2
    rw [h2]; rfl

/-- **C112**.  A search for a satellite in a file whose records have arbitrary lines ends as the records say: at the first record of the satellite, with its content in
the frame; at the first record of the system that cannot be read, whatever its satellite, with the status of its defect; at the end of the file; or not at all. -/
theorem C112_search {dateOf : List Char → Res DateTime} (hL : ∀ t, (∃ d, dateOf t = .ok d) ∨ ∃ e, dateOf t = .throw e) (junk : Nat → List Char) {sys : SatSys} {prn : Int}
    {bs : List NavBlock} {fuel : Nat} {f : NavFrame} {s : Stream} (hfuel : bs.length < fuel) (hB : ∀ b ∈ bs, IsBlock b.1 b.2)
    (hC : ∀ b ∈ bs, b.1 = sys → ReachesColumns sys b.2 ∧ PlainRecord sys b.2) (hlen : f.data.length = 31) (hg : s.good = true) (hr : s.rest = linesText (blockLines bs))
    {i : Nat} {w : SearchWhat} (hw : SearchFate (fun t => ∃ d, dateOf t = .ok d) sys prn bs i w) :
    SearchDelivers dateOf sys bs s i (findNext dateOf junk fuel sys prn f s 0) w := by
  obtain ⟨j, v, h1, h2⟩ := C112_total hL junk (prn := prn) hfuel hB hC hlen hg hr
  obtain ⟨rfl, rfl⟩ := C112_determined (fun b hb hs => (hC b hb hs).2) h1 hw
  exact h2

end Ggnss
