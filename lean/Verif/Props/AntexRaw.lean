import Verif.Props.Antex
import Verif.Spec.AntexBad
/-!
# C80: the search for an antenna in a file with damaged records
-/
namespace Ggnss

/-- The record is the antenna asked for, with its serial number. -/
def AtxRaw.Exact (k : AntCtor) (ss : List (List Char)) (r : AtxRaw) : Prop := r.name.Exact k ss
/-- The record is for the model and radome in general. -/
def AtxRaw.Close (k : AntCtor) (r : AtxRaw) : Prop := r.name.Close k

/-- An `Antex` object for the file with these records, in a state that no failed read has spoilt. -/
structure AtxOnRaw (rs : List AtxRaw) (f : AtxFile) : Prop where
  head : ∃ p, f.endOfHead = some p ∧ f.strm.content.drop p = atxRawText rs
  fail : f.strm.fail = false

/-- The record whose offsets the query is about: the first with the serial number, else (if the serial
number need not match) the last for the model. -/
def RawPick (rs : List AtxRaw) (k : AntCtor) (ss : List (List Char)) (must : Bool) (r : AtxRaw) : Prop :=
  (∃ i, FirstRaw rs (AtxRaw.Exact k ss) i r) ∨
  ((∀ q ∈ rs, ¬ q.Exact k ss) ∧ must = false ∧ ∃ i, LastRaw rs (AtxRaw.Close k) i r)

theorem AtxRaw.WF.named {r : AtxRaw} (h : r.WF) : r.name.Named := ⟨h.start, h.type⟩

theorem FirstRaw.cons_zero {b : AtxRaw} {bs : List AtxRaw} {P : AtxRaw → Prop} (h : P b) : FirstRaw (b :: bs) P 0 b :=
  ⟨rfl, h, by intro j hj; omega⟩

theorem FirstRaw.cons_succ {b c : AtxRaw} {bs : List AtxRaw} {P : AtxRaw → Prop} {i : Nat} (h : FirstRaw bs P i b)
    (hc : ¬ P c) : FirstRaw (c :: bs) P (i + 1) b := by
  refine ⟨by simpa using h.1, h.2.1, ?_⟩
  intro j hj q hq
  cases j with
  | zero => simp at hq; subst hq; exact hc
  | succ j => exact h.2.2 j (by omega) q (by simpa using hq)

theorem LastRaw.cons_zero {b : AtxRaw} {bs : List AtxRaw} {P : AtxRaw → Prop} (h : P b) (hn : ∀ q ∈ bs, ¬ P q) :
    LastRaw (b :: bs) P 0 b := by
  refine ⟨rfl, h, ?_⟩
  intro j hj q hq
  cases j with
  | zero => omega
  | succ j => exact hn q (List.mem_of_getElem? (by simpa using hq))

theorem LastRaw.cons_succ {b c : AtxRaw} {bs : List AtxRaw} {P : AtxRaw → Prop} {i : Nat} (h : LastRaw bs P i b) :
    LastRaw (c :: bs) P (i + 1) b := by
  refine ⟨by simpa using h.1, h.2.1, ?_⟩
  intro j hj q hq
  cases j with
  | zero => omega
  | succ j => exact h.2.2 j (by omega) q (by simpa using hq)

theorem FirstRaw.unique {bs : List AtxRaw} {P : AtxRaw → Prop} {i j : Nat} {b c : AtxRaw} (h : FirstRaw bs P i b) (h' : FirstRaw bs P j c) :
    b = c := by
  have : i = j := by
    rcases Nat.lt_trichotomy i j with hl | hl | hl
    · exact absurd h.2.1 (h'.2.2 i hl b h.1)
    · exact hl
    · exact absurd h'.2.1 (h.2.2 j hl c h'.1)
  subst this
  exact Option.some.inj (h.1.symm.trans h'.1)

theorem LastRaw.unique {bs : List AtxRaw} {P : AtxRaw → Prop} {i j : Nat} {b c : AtxRaw} (h : LastRaw bs P i b) (h' : LastRaw bs P j c) :
    b = c := by
  have : i = j := by
    rcases Nat.lt_trichotomy i j with hl | hl | hl
    · exact absurd h'.2.1 (h.2.2 j hl c h'.1)
    · exact hl
    · exact absurd h.2.1 (h'.2.2 i hl b h.1)
  subst this
  exact Option.some.inj (h.1.symm.trans h'.1)

theorem RawPick.unique {rs : List AtxRaw} {k : AntCtor} {ss : List (List Char)} {must : Bool} {r q : AtxRaw} (h : RawPick rs k ss must r)
    (h' : RawPick rs k ss must q) : r = q := by
  rcases h with ⟨i, h⟩ | ⟨h1, h2, i, h3⟩ <;> rcases h' with ⟨j, h'⟩ | ⟨h1', h2', j, h3'⟩
  · exact h.unique h'
  · exact absurd h.2.1 (h1' r (List.mem_of_getElem? h.1))
  · exact absurd h'.2.1 (h1 q (List.mem_of_getElem? h'.1))
  · exact h3.unique h3'

theorem atxRawText_cons (r : AtxRaw) (rs : List AtxRaw) : atxRawText (r :: rs) = linesText r.lines ++ atxRawText rs := by
  simp [atxRawText, linesText_append]

/-- Where a search ends up. -/
def RawResult (content : List Char) (rs : List AtxRaw) (k : AntCtor) (ss : List (List Char)) (bestPos : Option Nat)
    (m : AtxMatch) : Prop :=
  m.strm.content = content ∧ m.strm.fail = false ∧
  ((∃ i r q more, FirstRaw rs (AtxRaw.Exact k ss) i r ∧ m.status = -1 ∧ m.pos = some q ∧
      content.drop q = linesText r.body ++ more) ∨
   ((∀ r ∈ rs, ¬ r.Exact k ss) ∧ m.status = 0 ∧
     ((∃ i r q more, LastRaw rs (AtxRaw.Close k) i r ∧ m.pos = some q ∧ content.drop q = linesText r.body ++ more) ∨
      ((∀ r ∈ rs, ¬ r.Close k) ∧ m.pos = bestPos))))

theorem matchLoop_raw {J : AtxJunk} (hJ : J.WF) {antIn : List Char} {k : AntCtor}
    {ss : List (List Char)} (hi : AntReach antIn k ss) :
    ∀ (bs : List AtxRaw), (∀ b ∈ bs, b.WF) →
    ∀ (fuel : Nat) (cur best : List Char) (bestPos : Option Nat) (stat2 : Option Int) (s : Stream), s.good = true →
      s.rest = atxRawText bs → bs.length < fuel → (stat2 = some 0 ∨ (stat2 = none ∧ bs ≠ [])) →
    ∃ m, atxMatchLoop J antIn fuel cur best bestPos stat2 s = .ok m ∧ RawResult s.content bs k ss bestPos m := by
  intro bs
  induction bs with
  | nil =>
    intro _ fuel cur best bestPos stat2 s hg hr hf h2
    obtain ⟨fuel, rfl⟩ : ∃ k, fuel = k + 1 := ⟨fuel - 1, by simp at hf; omega⟩
    have h2 : stat2 = some 0 := by rcases h2 with h | h; exact h; exact absurd rfl h.2
    subst h2
    obtain ⟨s', he, hc, hg'⟩ := readType_eof (J := J) (cur := cur) (c := J.head s.pos) hg (by simpa [atxRawText, linesText] using hr)
    unfold atxMatchLoop
    rw [he, Res.bind_ok]
    simp only [ne_eq, Int.reduceNeg, reduceCtorEq, not_false_eq_true, if_true, atxMatchEnd]
    exact ⟨⟨0, best, bestPos, s'⟩, rfl, hc, ((Stream.good_iff s').1 hg').2, Or.inr ⟨by simp, rfl, Or.inr ⟨by simp, rfl⟩⟩⟩
  | cons b bs ih =>
    intro hw fuel cur best bestPos stat2 s hg hr hf _
    obtain ⟨fuel, rfl⟩ : ∃ k, fuel = k + 1 := ⟨fuel - 1, by simp at hf; omega⟩
    have hwb := hw b (by simp)
    rw [atxRawText_cons] at hr
    obtain ⟨ant, he, hreach⟩ := readType_block hJ hwb.named (cur := cur) (c := J.head s.pos) (by rw [hJ.head]; decide) hg
      (ls := b.body) hr
    have hr2 : (s.past [b.start, b.type]).rest = linesText b.body ++ atxRawText bs := by
      apply Stream.past_rest
      rw [hr]
      show linesText ([b.start, b.type] ++ b.body) ++ _ = _
      rw [linesText_append]; simp
    have hbody : (s.past [b.start, b.type]).content.drop (s.past [b.start, b.type]).pos = linesText b.body ++ atxRawText bs := hr2
    have hg2 : (s.past [b.start, b.type]).good = true := hg
    obtain ⟨r, hs1, hs2⟩ := same_iff hwb.named hreach hi
    have hcm := C13_compare_model hreach hi
    rw [model_eq hwb.named] at hcm
    obtain ⟨_, _, _, hs, hh1, hh2⟩ := hreach.shape
    rw [serial_nonblank hwb.named] at hh2
    unfold atxMatchLoop
    rw [he, Res.bind_ok]
    simp only [ne_eq, not_true_eq_false, if_false, hs1, Res.bind_ok]
    by_cases hx : b.name.Exact k ss
    · rw [if_pos (hs2.2 hx)]
      show ∃ m, (let t := (s.past [b.start, b.type]).tellg; (pure ⟨-1, ant, t.1, t.2⟩ : Res AtxMatch)) = .ok m ∧ _
      rw [tellg_good hg2]
      exact ⟨_, rfl, rfl, ((Stream.good_iff _).1 hg2).2,
        Or.inl ⟨0, b, _, _, FirstRaw.cons_zero hx, rfl, rfl, hbody⟩⟩
    · rw [if_neg (fun e => hx (hs2.1 e)), hcm, Res.bind_ok]
      have hskip : atxSkip J (s.past [b.start, b.type]) = .ok (0, (s.past [b.start, b.type]).past b.body) := by
        unfold atxSkip
        apply skip_lines hwb.last b.inner hwb.inner 5000 _ _ hg2 hr2
        have := hwb.few
        unfold AtxRaw.body at this
        simp at this; omega
      have hr3 : ((s.past [b.start, b.type]).past b.body).rest = atxRawText bs := Stream.past_rest hr2
      by_cases hcl : b.name.Close k
      · have hsf : hs = false := by
          cases hs with
          | false => rfl
          | true => exact absurd hcl.2 (hh2.1 rfl)
        simp only [decide_eq_true hcl.1, if_true, hh1, hsf, Res.bind_ok, Bool.not_false, Bool.and_self]
        obtain ⟨m, h1, h2, h3, h4⟩ := ih (fun q hq => hw q (by simp [hq])) fuel ant ant (some (s.past [b.start, b.type]).pos) (some 0)
          ((s.past [b.start, b.type]).past b.body) hg hr3 (by simp at hf; omega) (Or.inl rfl)
        have htl : (s.past [b.name.start, b.name.type]).tellg = (some (s.past [b.start, b.type]).pos, s.past [b.start, b.type]) := tellg_good hg2
        simp only [htl, hskip, Res.bind_ok, not_true_eq_false, if_false]
        refine ⟨m, h1, h2, h3, ?_⟩
        rcases h4 with ⟨i, b', q, more, e1, e2, e3, e4⟩ | ⟨e1, e2, e3⟩
        · exact Or.inl ⟨i + 1, b', q, more, e1.cons_succ hx, e2, e3, e4⟩
        · refine Or.inr ⟨List.forall_mem_cons.2 ⟨hx, e1⟩, e2, Or.inl ?_⟩
          rcases e3 with ⟨i, b', q, more, f1, f2, f3⟩ | ⟨f1, f2⟩
          · exact ⟨i + 1, b', q, more, f1.cons_succ, f2, f3⟩
          · exact ⟨0, b, _, _, LastRaw.cons_zero hcl f1, f2, hbody⟩
      · have hstep : ∀ (hsv : Bool), (decide (b.name.model = specModel k) = true → hsv = hs) →
            (decide (b.name.model = specModel k) && !hsv) = false := by
          intro hsv hhv
          by_cases hm : b.name.model = specModel k
          · have h1 := hhv (decide_eq_true hm)
            have : hs = true := hh2.2 (fun hns => hcl ⟨hm, hns⟩)
            simp [h1, this]
          · simp [hm]
        have hres : (if decide (b.name.model = specModel k) = true then antHasSerial ant else pure true) =
            Res.ok (if decide (b.name.model = specModel k) = true then hs else true) := by
          split
          · exact hh1
          · rfl
        rw [hres, Res.bind_ok]
        rw [hstep _ (by intro hm; rw [if_pos hm])]
        simp only [Bool.false_eq_true, if_false]
        have hskip' : atxSkip J (s.past [b.name.start, b.name.type]) = .ok (0, (s.past [b.start, b.type]).past b.body) := hskip
        simp only [hskip', Res.bind_ok, not_true_eq_false, if_false]
        obtain ⟨m, h1, h2, h3, h4⟩ := ih (fun q hq => hw q (by simp [hq])) fuel ant best bestPos (some 0)
          ((s.past [b.start, b.type]).past b.body) hg hr3 (by simp at hf; omega) (Or.inl rfl)
        refine ⟨m, h1, h2, h3, ?_⟩
        rcases h4 with ⟨i, b', q, more, e1, e2, e3, e4⟩ | ⟨e1, e2, e3⟩
        · exact Or.inl ⟨i + 1, b', q, more, e1.cons_succ hx, e2, e3, e4⟩
        · refine Or.inr ⟨List.forall_mem_cons.2 ⟨hx, e1⟩, e2, ?_⟩
          rcases e3 with ⟨i, b', q, more, f1, f2, f3⟩ | ⟨f1, f2⟩
          · exact Or.inl ⟨i + 1, b', q, more, f1.cons_succ, f2, f3⟩
          · exact Or.inr ⟨List.forall_mem_cons.2 ⟨hcl, f1⟩, f2⟩

end Ggnss
