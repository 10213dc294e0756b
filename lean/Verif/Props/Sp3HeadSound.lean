import Verif.Spec.Sp3HeadSound
import Verif.Props.Sp3Sound
import Verif.Props.Sp3HeadAny
/-! # C102: whatever an opened SP3 file reports is what the lines of its header say -/
namespace Ggnss

theorem sp3Nonzero_text {e0 : Bool} {buf l : List Char} {off : Nat} {n : Int} (h : sp3Nonzero e0 (fillLine buf l) off = .ok (some n)) :
    e0 = false ∧ n ≠ 0 ∧ (off ≤ l.length → ∃ v, LongBegins (l.drop off) v ∧ n = toInt32 v) := by
  unfold sp3Nonzero at h
  obtain ⟨p, hp, h⟩ := bind_ok_inv h
  by_cases hc : toInt32 (strtolVal p) = 0 ∨ (strtolErr p || e0) = true
  · rw [if_pos hc] at h; cases h
  rw [if_neg hc] at h
  cases h
  simp only [not_or, Bool.not_eq_true, Bool.or_eq_false_iff] at hc
  refine ⟨hc.2.2, hc.1, fun hoff => ?_⟩
  obtain ⟨p', hp', hcase⟩ := strtolA_text (l := l) (tail := buf.drop (l.length + 1)) hoff
  rw [fillLine_eq, hp'] at hp
  cases hp
  rcases hcase with ⟨rfl, _⟩ | ⟨v, r, rfl, hv⟩ | ⟨w, r, rfl, _⟩
  · exact absurd (by decide) hc.1
  · exact ⟨v, hv, rfl⟩
  · simp [strtolErr] at hc

theorem sp3Conv_text {e0 : Bool} {buf l : List Char} {off : Nat} {n : Int} (h : sp3Conv e0 (fillLine buf l) off = .ok (some n)) (hoff : off ≤ l.length) :
    ∃ v, LongBegins (l.drop off) v ∧ n = toInt32 v := by
  unfold sp3Conv at h
  obtain ⟨p, hp, h⟩ := bind_ok_inv h
  by_cases hc : (strtolErr p || e0) = true ∨ p = none
  · rw [if_pos hc] at h; cases h
  rw [if_neg hc] at h
  cases h
  obtain ⟨p', hp', hcase⟩ := strtolA_text (l := l) (tail := buf.drop (l.length + 1)) hoff
  rw [fillLine_eq, hp'] at hp
  cases hp
  rcases hcase with ⟨rfl, _⟩ | ⟨v, r, rfl, hv⟩ | ⟨w, r, rfl, _⟩
  · exact absurd (Or.inr rfl) hc
  · exact ⟨v, hv, rfl⟩
  · exact absurd (Or.inl (by simp [strtolErr])) hc

theorem sp3Double_text {buf l : List Char} {off : Nat} {q : Rat} (h : sp3Double (fillLine buf l) off = .ok (q, false)) (hoff : off ≤ l.length) :
    NumberOrZero (l.drop off) q := by
  unfold sp3Double at h
  obtain ⟨p, hp, h⟩ := bind_ok_inv h
  rw [fillLine_eq, List.drop_append_of_le_length hoff] at hp
  unfold strtodA at hp
  rw [if_pos (by simp)] at hp
  cases hp
  rcases strtod_line (l.drop off) (buf.drop (l.length + 1)) with ⟨v, r, h1, h2⟩ | ⟨h1 | ⟨v, r, h1⟩, h2⟩
  · rw [h1] at h; cases h; exact Or.inl h2
  · rw [h1] at h; cases h
    exact Or.inr ⟨rfl, fun w hw => strtod_not_begins h1 w (hw.nul _)⟩
  · rw [h1] at h; cases h

theorem castLong_cut {q : Rat} {n : Int} (h : castLong q = .ok n) : CutTo q n := by
  unfold castLong at h
  split at h
  · cases h; exact truncRat_abs _
  · cases h

theorem bytesAt_line {buf l t : List Char} {off n : Nat} (h : bytesAt (fillLine buf l) off n = .ok t) (hn : off + n ≤ l.length) : TextAt l off n t := by
  unfold bytesAt at h
  split at h
  · cases h
    refine ⟨hn, ?_⟩
    rw [fillLine_eq, List.drop_append_of_le_length (by omega), List.take_append_of_le_length (by simp; omega)]
  · cases h

/-- The first line. -/
theorem sp3First_text {L : Sp3Lib} {e0 : Bool} {buf x : List Char} {r : Sp3First} (h : sp3First L e0 (fillLine buf x) = .ok (.inr r)) :
    e0 = false ∧ (20 ≤ x.length → ∃ t, StartGives x t ∧ L.date t = .ok r.start) ∧
      (32 ≤ x.length → ∃ v, LongBegins (x.drop 32) v ∧ r.numEpochs = toInt32 v ∧ r.numEpochs ≠ 0) ∧
      (51 ≤ x.length → TextAt x 46 5 r.crdSys) ∧ (55 ≤ x.length → TextAt x 52 3 r.orbType) ∧ (59 ≤ x.length → TextAt x 56 3 r.agency) := by
  unfold sp3First at h
  obtain ⟨c0, _, h⟩ := bind_ok_inv h
  by_cases h0 : c0 ≠ '#'
  · rw [if_pos h0] at h; cases h
  rw [if_neg h0] at h
  obtain ⟨v, _, h⟩ := bind_ok_inv h
  by_cases hv : v ≠ 'c' ∧ v ≠ 'd'
  · rw [if_pos hv] at h; cases h
  rw [if_neg hv] at h
  obtain ⟨a1, e1, h⟩ := bind_ok_inv h
  cases a1 with
  | none => cases h
  | some a1 =>
  obtain ⟨a2, e2, h⟩ := bind_ok_inv h
  cases a2 with
  | none => cases h
  | some a2 =>
  obtain ⟨a3, e3, h⟩ := bind_ok_inv h
  cases a3 with
  | none => cases h
  | some a3 =>
  obtain ⟨a4, e4, h⟩ := bind_ok_inv h
  cases a4 with
  | none => cases h
  | some a4 =>
  obtain ⟨a5, e5, h⟩ := bind_ok_inv h
  cases a5 with
  | none => cases h
  | some a5 =>
  simp only at h
  unfold sp3FirstEnd at h
  obtain ⟨⟨q, er⟩, e6, h⟩ := bind_ok_inv h
  obtain ⟨a7, e7, h⟩ := bind_ok_inv h
  cases a7 with
  | none => cases h
  | some a7 =>
  obtain ⟨b1, f1, h⟩ := bind_ok_inv h
  obtain ⟨b2, f2, h⟩ := bind_ok_inv h
  obtain ⟨b3, f3, h⟩ := bind_ok_inv h
  obtain ⟨us, f4, h⟩ := bind_ok_inv h
  obtain ⟨d, f5, h⟩ := bind_ok_inv h
  cases h
  obtain ⟨he, n7, w7⟩ := sp3Nonzero_text e7
  simp only [Bool.or_eq_false_iff] at he
  obtain ⟨he0, rfl⟩ := he
  obtain ⟨-, n1, w1⟩ := sp3Nonzero_text e1
  obtain ⟨-, n2, w2⟩ := sp3Nonzero_text e2
  obtain ⟨-, n3, w3⟩ := sp3Nonzero_text e3
  refine ⟨he0, fun hx => ⟨_, ⟨?_, ?_, ?_, sp3Conv_text e4 (by omega), sp3Conv_text e5 (by omega), q, sp3Double_text e6 hx, castLong_cut f4⟩, f5⟩, fun hx => ?_,
    fun hx => bytesAt_line f1 hx, fun hx => bytesAt_line f2 hx, fun hx => bytesAt_line f3 hx⟩
  · obtain ⟨v, h1, h2⟩ := w1 (by omega); exact ⟨v, h1, h2, n1⟩
  · obtain ⟨v, h1, h2⟩ := w2 (by omega); exact ⟨v, h1, h2, n2⟩
  · obtain ⟨v, h1, h2⟩ := w3 (by omega); exact ⟨v, h1, h2, n3⟩
  · obtain ⟨v, h1, h2⟩ := w7 hx; exact ⟨v, h1, h2, n7⟩

/-- The second line; the day fraction did not overflow when the reader goes on after it. -/
theorem sp3Second_text {L : Sp3Lib} {e0 : Bool} {buf x : List Char} {start : MicroTime} {r : Int × Bool} (h : sp3Second L e0 (fillLine buf x) start = .ok (.inr r)) :
    (8 ≤ x.length → ∃ w s, LongBegins (x.drop 3) w ∧ toInt32 w ≠ 0 ∧ NumberOrZero (x.drop 8) s ∧ L.sameWeek start (toInt32 w) s = true) ∧
    (24 ≤ x.length → ∃ q, NumberOrZero (x.drop 24) q ∧ CutTo (q * 1000000) r.1) ∧
    (r.2 = false → 45 ≤ x.length → ∃ m y, LongBegins (x.drop 39) m ∧ toInt32 m ≠ 0 ∧ NumberOrZero (x.drop 45) y ∧ L.sameMjd start (toInt32 m) y = true) := by
  unfold sp3Second at h
  obtain ⟨b, _, h⟩ := bind_ok_inv h
  cases b with
  | false => cases h
  | true =>
  simp only [Bool.not_true, Bool.false_eq_true, if_false] at h
  obtain ⟨a1, e1, h⟩ := bind_ok_inv h
  cases a1 with
  | none => cases h
  | some a1 =>
  obtain ⟨⟨s, er⟩, e2, h⟩ := bind_ok_inv h
  simp only at h
  cases hw : L.sameWeek start a1 s with
  | false => rw [hw] at h; cases h
  | true =>
  rw [hw] at h
  simp only [Bool.not_true, Bool.false_eq_true, if_false] at h
  obtain ⟨⟨q, er3⟩, e3, h⟩ := bind_ok_inv h
  obtain ⟨us, e4, h⟩ := bind_ok_inv h
  obtain ⟨a5, e5, h⟩ := bind_ok_inv h
  cases a5 with
  | none => cases h
  | some a5 =>
  obtain ⟨⟨y, er6⟩, e6, h⟩ := bind_ok_inv h
  simp only at h
  cases hm : L.sameMjd start a5 y with
  | false => rw [hm] at h; cases h
  | true =>
  rw [hm] at h
  simp only [Bool.not_true, Bool.false_eq_true, if_false] at h
  cases h
  obtain ⟨he, n5, w5⟩ := sp3Nonzero_text e5
  simp only [Bool.or_eq_false_iff] at he
  obtain ⟨⟨-, rfl⟩, rfl⟩ := he
  obtain ⟨-, n1, w1⟩ := sp3Nonzero_text e1
  refine ⟨fun hx => ?_, fun hx => ⟨q, sp3Double_text e3 hx, castLong_cut e4⟩, fun hr hx => ?_⟩
  · obtain ⟨v, h1, rfl⟩ := w1 (by omega)
    exact ⟨v, s, h1, n1, sp3Double_text e2 hx, hw⟩
  · obtain ⟨v, h1, rfl⟩ := w5 (by omega)
    simp only [Bool.or_eq_false_iff] at hr
    obtain ⟨-, rfl⟩ := hr
    exact ⟨v, y, h1, n5, sp3Double_text e6 hx, hm⟩

theorem sp3HeadMid_text {e0 : Bool} {buf : List Char} {s : Stream} {ls : List (List Char)} {r : Int × List Char × Option Nat × Stream}
    (hl : ∀ x ∈ ls, LineFits 84 x) (hb : 2 ≤ buf.length) (hL : LinesLeft s ls) (h : sp3HeadMid e0 buf s = .ok (.inr r)) :
    e0 = false ∧ r.1 ≠ 0 ∧ ∃ sats accs last c1 c2 f1 f2 i1 i2 comments others,
      ls = sats ++ (accs ++ last :: c1 :: c2 :: f1 :: f2 :: i1 :: i2 :: (comments ++ others)) ∧
      (sats ≠ [] ∧ ∀ l ∈ sats, Begins l '+' ' ') ∧ (accs ≠ [] ∧ ∀ l ∈ accs, Begins l '+' '+') ∧
      (Begins c1 '%' 'c' ∧ Begins c2 '%' 'c') ∧ (Begins f1 '%' 'f' ∧ Begins f2 '%' 'f') ∧
      (Begins i1 '%' 'i' ∧ Begins i2 '%' 'i') ∧ (∀ l ∈ comments, Begins l '/' '*') ∧ LinesLeft r.2.2.2 others ∧
      (r.2.2.2.good = true → ∀ x ∈ others.head?, x.head? ≠ some '/') ∧
      (∃ sat, sats.head? = some sat ∧ (3 ≤ sat.length → ∃ v, LongBegins (sat.drop 3) v ∧ r.1 = toInt32 v)) ∧ (12 ≤ c1.length → TextAt c1 9 3 r.2.1) := by
  unfold sp3HeadMid at h
  obtain ⟨⟨b1, B1, S1⟩, e1, h⟩ := bind_ok_inv h
  cases b1 with
  | false => simp at h
  | true =>
  simp only [Bool.not_true, Bool.false_eq_true, if_false] at h
  obtain ⟨n, e2, h⟩ := bind_ok_inv h
  cases n with
  | none => simp at h
  | some n =>
  simp only at h
  obtain ⟨a, e3, h⟩ := bind_ok_inv h
  cases a with
  | none => simp at h
  | some a =>
  simp only at h
  obtain ⟨b4, e4, h⟩ := bind_ok_inv h
  cases b4 with
  | false => simp at h
  | true =>
  simp only [Bool.not_true, Bool.false_eq_true, if_false] at h
  obtain ⟨c, e5, h⟩ := bind_ok_inv h
  cases c with
  | none => simp at h
  | some c =>
  simp only at h
  obtain ⟨⟨b6, B6, S6⟩, e6, h⟩ := bind_ok_inv h
  cases b6 with
  | false => simp at h
  | true =>
  simp only [Bool.not_true, Bool.false_eq_true, if_false] at h
  obtain ⟨ts, e7, h⟩ := bind_ok_inv h
  obtain ⟨⟨b8, B8, S8⟩, e8, h⟩ := bind_ok_inv h
  cases b8 with
  | false => simp at h
  | true =>
  simp only [Bool.not_true, Bool.false_eq_true, if_false] at h
  obtain ⟨t9, e9, h⟩ := bind_ok_inv h
  cases t9 with
  | inl e => simp at h
  | inr t9 =>
  simp only [Res.pure_eq, Res.ok.injEq, Sum.inr.injEq] at h
  have hfin := h
  clear h
  obtain ⟨sat, l1, q1, p1, rfl, rfl, g1, L1⟩ := sp3Expect_sound hl hL (by decide) (by decide) hb e1
  subst q1
  obtain ⟨sats, acc, more, buf', q2, p2, p3, p4, hb', L2⟩ := sp3SatLines_sound _ sat l1 buf _ a (hl sat (by simp)).2.1
    (fun x hx => hl x (by simp [hx])) hb L1 e3 e4
  obtain ⟨he0, hn, hnv⟩ := sp3Nonzero_text e2
  have hsats : sats ≠ [] := by
    rintro rfl
    simp at q2
    have := p1.2
    rw [q2.1] at this
    have h2 := p3.2
    rw [h2] at this; simp at this
  have hhead : sats.head? = some sat := by
    cases sats with
    | nil => exact absurd rfl hsats
    | cons y ys => simp only [List.cons_append, List.cons.injEq] at q2; rw [q2.1]; rfl
  rw [q2] at hl ⊢
  rw [p4] at e5
  obtain ⟨hb5, h5⟩ := sp3AccLines_sound _ acc more buf' _ c (hl acc (by simp)) (fun x hx => hl x (by simp [hx])) hb' L2 p3 e5
  rcases h5 with h5 | ⟨accs, last, more5, q5, p5, p5', L5⟩
  · obtain ⟨c1, l6, q6, _⟩ := sp3Expect_sound (ls := []) (by simp) (fun hg => by rw [h5] at hg; cases hg) (by decide) (by decide) hb5 e6
    cases q6
  · have hl5 : ∀ x ∈ more5, LineFits 84 x := by
      intro x hx
      apply hl x
      rw [q5]; simp [hx]
    obtain ⟨c1, l6, q6, p6, rfl, rfl, g6, L6⟩ := sp3Expect_sound hl5 L5 (by decide) (by decide) hb5 e6
    subst q6
    obtain ⟨c2, l7, q7, p7, rfl, rfl, g7, L7⟩ := sp3Expect_sound (fun x hx => hl5 x (by simp [hx])) L6 (by decide) (by decide) (fill_len2 hb5) e8
    subst q7
    obtain ⟨f1, f2, i1, i2, cs, os, q8, h1, h2, h3, h4, h5, h6, h7⟩ := sp3HeadTail_sound (fun x hx => hl5 x (by simp [hx])) (fill_len2 (fill_len2 hb5)) L7 e9
    subst q8
    rw [← hfin]
    exact ⟨he0, hn, sats, accs, last, c1, c2, f1, f2, i1, i2, cs, os, by rw [q5], ⟨hsats, p2⟩, ⟨p5, p5'⟩, ⟨p6, p7⟩, ⟨h1, h2⟩, ⟨h3, h4⟩, h5, h6, h7, ⟨sat, hhead, hnv⟩, fun hc => bytesAt_line e7 hc⟩

/-- **C102**.  Whatever lines a file consists of (at most 84 chars each): when it is opened, then every member of the object is what the columns of the header say
that the format gives to it — read as numbers by their beginning, with a text that is no number counting as 0 in the four real columns (seconds, second of week,
interval, fraction of the day); the start epoch agrees with the week and the day of the second line; and reading goes on behind the comments. -/
theorem C102_opened {L : Sp3Lib} {e0 : Bool} {junk : List Char} (hj : junk.length = 85) {ls : List (List Char)}
    (hl : ∀ l ∈ ls, LineFits 84 l) {f : Sp3File} (h : sp3Open L e0 junk (linesText ls) = .ok f) :
    ∃ d : Sp3Lines ls, ∃ sat, d.sats.head? = some sat ∧ Sp3HeaderGives L d.first d.second sat d.c1 f ∧
      (f.strm.good = true → f.strm.rest = linesText d.others ∧ ∀ x ∈ d.others.head?, x.head? ≠ some '/') := by
  unfold sp3Open at h
  obtain ⟨r, e, h⟩ := bind_ok_inv h
  cases r with
  | inl e => simp at h
  | inr f' =>
  simp only [Res.pure_eq, Res.ok.injEq] at h
  subst h
  have e := noexcept_ok_inv e
  have hL0 : LinesLeft ((⟨linesText ls, 0, false, false⟩ : Stream).seekg 0) ls := fun _ => by simp [Stream.seekg, Stream.rest]
  generalize (⟨linesText ls, 0, false, false⟩ : Stream).seekg 0 = s at hL0 e
  simp only at e
  obtain ⟨r1, e1, e⟩ := bind_ok_inv e
  cases r1 with
  | inl e => simp at e
  | inr h1 =>
  simp only at e
  obtain ⟨r2, e2, e⟩ := bind_ok_inv e
  cases r2 with
  | inl e => simp at e
  | inr itv =>
  simp only at e
  obtain ⟨r3, e3, e⟩ := bind_ok_inv e
  cases r3 with
  | inl e => simp at e
  | inr m =>
  simp only [Res.pure_eq, Res.ok.injEq, Sum.inr.injEq] at e
  have hfin := e
  clear e
  -- the first line
  have hfirst : ∀ x : List Char, sp3First L e0 (fillLine junk x) = .ok (.inr h1) →
      (Begins x '#' 'c' ∨ Begins x '#' 'd') ∧ x[1]? = some h1.version := by
    intro x hx
    have hlen : 2 ≤ (fillLine junk x).length := fill_len2 (by omega)
    unfold sp3First at hx
    rw [getAt_lt (by omega : 0 < (fillLine junk x).length), Res.bind_ok] at hx
    split at hx
    · simp at hx
    · rename_i h0
      rw [getAt_lt (by omega : 1 < (fillLine junk x).length), Res.bind_ok] at hx
      split at hx
      · simp at hx
      · rename_i h1'
        have hv : h1.version = (fillLine junk x)[1] := by
          obtain ⟨a1, _, hx⟩ := bind_ok_inv hx
          cases a1 with
          | none => simp at hx
          | some a1 =>
          simp only at hx
          obtain ⟨a2, _, hx⟩ := bind_ok_inv hx
          cases a2 with
          | none => simp at hx
          | some a2 =>
          simp only at hx
          obtain ⟨a3, _, hx⟩ := bind_ok_inv hx
          cases a3 with
          | none => simp at hx
          | some a3 =>
          simp only at hx
          obtain ⟨a4, _, hx⟩ := bind_ok_inv hx
          cases a4 with
          | none => simp at hx
          | some a4 =>
          simp only at hx
          obtain ⟨a5, _, hx⟩ := bind_ok_inv hx
          cases a5 with
          | none => simp at hx
          | some a5 =>
          simp only at hx
          unfold sp3FirstEnd at hx
          obtain ⟨_, _, hx⟩ := bind_ok_inv hx
          obtain ⟨a6, _, hx⟩ := bind_ok_inv hx
          cases a6 with
          | none => simp at hx
          | some a6 =>
          simp only at hx
          obtain ⟨_, _, hx⟩ := bind_ok_inv hx
          obtain ⟨_, _, hx⟩ := bind_ok_inv hx
          obtain ⟨_, _, hx⟩ := bind_ok_inv hx
          obtain ⟨_, _, hx⟩ := bind_ok_inv hx
          obtain ⟨_, _, hx⟩ := bind_ok_inv hx
          simp only [Res.pure_eq, Res.ok.injEq, Sum.inr.injEq] at hx
          rw [← hx]
        have g0 : (fillLine junk x)[0]? = some '#' := by
          rw [List.getElem?_eq_getElem (by omega)]
          simpa using h0
        have g1 : (fillLine junk x)[1]? = some h1.version := by
          rw [List.getElem?_eq_getElem (by omega), hv]
        have hvv : h1.version = 'c' ∨ h1.version = 'd' := by
          rw [hv]
          by_contra hno
          simp only [not_or] at hno
          exact h1' hno
        match x, g0, g1 with
        | [], g0, _ => simp [fillLine] at g0; exact absurd g0 (by decide)
        | [y], _, g1 =>
          simp [fillLine] at g1
          rw [← g1] at hvv
          exact absurd hvv (by decide)
        | y :: z :: x, g0, g1 =>
          simp [fillLine] at g0 g1
          refine ⟨?_, by simp [g1]⟩
          rcases hvv with hvv | hvv
          · left; simp [Begins, g0, g1, hvv]
          · right; simp [Begins, g0, g1, hvv]
  rcases getline_lines hl hL0 with ⟨x, ls1, q1, w1, g1, L1⟩ | ⟨s1, w1, g1⟩
  · rw [w1] at e1 e2 e3
    simp only at e1 e2 e3
    obtain ⟨hx1, hx2⟩ := hfirst x e1
    subst q1
    have hsecond : ∀ y : List Char, sp3Second L e0 (fillLine (fillLine junk x) y) h1.start = .ok (.inr itv) → Begins y '#' '#' := by
      intro y hy
      unfold sp3Second at hy
      rw [starts_iff (by decide) (by decide) (fill_len2 (fill_len2 (by omega))), Res.bind_ok] at hy
      by_contra hno
      rw [decide_eq_false hno] at hy
      simp at hy
    rcases getline_lines (fun z hz => hl z (by simp [hz])) L1 with ⟨y, ls2, q2, w2, g2, L2⟩ | ⟨s2, w2, g2⟩
    · rw [w2] at e2 e3
      simp only at e2 e3
      subst q2
      obtain ⟨he, hn, sats, accs, last, c1, c2, f1, f2, i1, i2, cs, os, q3, p1, p2, p3, p4, p5, p6, p7, p8, ⟨sat, p9, p10⟩, p11⟩ := sp3HeadMid_text
        (fun z hz => hl z (by simp [hz])) (fill_len2 (fill_len2 (by omega))) L2 e3
      obtain ⟨-, v1, v2, v3, v4, v5⟩ := sp3First_text e1
      obtain ⟨v6, v7, v8⟩ := sp3Second_text e2
      refine ⟨⟨x, y, sats, accs, last, c1, c2, f1, f2, i1, i2, cs, os, by rw [q3], hx1, hsecond y e2, p1, p2, p3, p4, p5, p6⟩, sat, p9, ?_, ?_⟩
      · rw [← hfin]
        exact ⟨hx2, v1, v2, v3, v4, v5, v6, v7, v8 he, fun h3 => let ⟨v, a, b⟩ := p10 h3; ⟨v, a, b, hn⟩, p11⟩
      intro hg
      rw [← hfin] at hg ⊢
      exact ⟨p7 hg, p8 hg⟩
    · rw [w2] at e2
      have := hsecond _ e2
      simp [Begins] at this
  · rw [w1] at e1
    have := (hfirst _ e1).2
    simp at this

/-- **C102**: two objects that both say what the same lines say are the same, as long as the four real columns are not hexadecimal, infinite or "not a number". -/
theorem C102_determined {L : Sp3Lib} {first second sat c1 : List Char} {f g : Sp3File} (hf : Sp3HeaderGives L first second sat c1 f)
    (hg : Sp3HeaderGives L first second sat c1 g) (h1 : 59 ≤ first.length) (h2 : 24 ≤ second.length) (h3 : 3 ≤ sat.length) (h4 : 12 ≤ c1.length)
    (ho : ¬ OddNumber (first.drop 20)) (ho2 : ¬ OddNumber (second.drop 24)) : f.members = g.members := by
  have hz : ∀ {t : List Char} {v w : Rat}, ¬ OddNumber t → NumberOrZero t v → NumberOrZero t w → v = w := by
    rintro t v w ho (hv | ⟨rfl, hv⟩) (hw | ⟨rfl, hw⟩)
    · exact hv.unique ho hw
    · exact absurd ((hv.resolve_left ho).1) (hw _)
    · exact absurd ((hw.resolve_left ho).1) (hv _)
    · rfl
  have hi : ∀ {t : List Char} {a b : Int}, (∃ v, LongBegins t v ∧ a = toInt32 v) → (∃ v, LongBegins t v ∧ b = toInt32 v) → a = b := by
    rintro t a b ⟨v, hv, rfl⟩ ⟨w, hw, rfl⟩
    rw [hv.unique hw]
  have hd : ∀ {t : List Char} {a b : Int}, (∃ v, LongBegins t v ∧ a = toInt32 v ∧ a ≠ 0) → (∃ v, LongBegins t v ∧ b = toInt32 v ∧ b ≠ 0) → a = b :=
    fun ⟨v, a, b, _⟩ ⟨w, c, d, _⟩ => hi ⟨v, a, b⟩ ⟨w, c, d⟩
  have hc : ∀ {t : List Char} {a b : Int}, ¬ OddNumber t → (∃ q, NumberOrZero t q ∧ CutTo (q * 1000000) a) → (∃ q, NumberOrZero t q ∧ CutTo (q * 1000000) b) → a = b := by
    rintro t a b ho ⟨q, hq, ha⟩ ⟨q', hq', hb⟩
    rw [hz ho hq hq'] at ha
    exact trunc_unique ha hb
  have hs : f.start = g.start := by
    obtain ⟨s, a, b⟩ := hf.start (by omega)
    obtain ⟨t, c, d⟩ := hg.start (by omega)
    have : s = t := by
      obtain ⟨y, m, dd, hh, mm, us⟩ := s
      obtain ⟨y', m', dd', hh', mm', us'⟩ := t
      have e1 := hd a.year c.year
      have e2 := hd a.month c.month
      have e3 := hd a.day c.day
      have e4 := hi a.hour c.hour
      have e5 := hi a.minute c.minute
      have e6 := hc ho a.seconds c.seconds
      simp only at e1 e2 e3 e4 e5 e6
      subst e1 e2 e3 e4 e5 e6
      rfl
    rw [this, d] at b
    exact (Res.ok.inj b).symm
  have ht : ∀ {l : List Char} {o n : Nat} {a b : List Char}, TextAt l o n a → TextAt l o n b → a = b := fun h h' => h.2.symm.trans h'.2
  have hv : f.version = g.version := Option.some.inj (hf.version.symm.trans hg.version)
  unfold Sp3File.members
  rw [hv, hs, hd (hf.epochs (by omega)) (hg.epochs (by omega)), hd (hf.satellites h3) (hg.satellites h3), ht (hf.crdSys (by omega)) (hg.crdSys (by omega)),
    ht (hf.orbType (by omega)) (hg.orbType (by omega)), ht (hf.agency (by omega)) (hg.agency (by omega)), ht (hf.timeSys h4) (hg.timeSys h4),
    hc ho2 (hf.interval h2) (hg.interval h2)]

end Ggnss
