import Verif.Props.Sp3HeadAny
import Verif.Props.Sp3Cut
/-!
# C85: SP3 files that end in, or right after, the header
-/
namespace Ggnss

/-- The same stream with more bytes at the end of its file. -/
def Stream.ext (s : Stream) (x : List Char) : Stream := { s with content := s.content ++ x }

theorem Stream.ext_good (s : Stream) (x : List Char) : (s.ext x).good = s.good := rfl

theorem Stream.ext_rest {s : Stream} {c : Char} {r : List Char} (x : List Char) (h : s.rest = c :: r) : (s.ext x).rest = s.rest ++ x := by
  unfold Stream.rest at h ⊢
  unfold Stream.ext
  have : s.pos ≤ s.content.length := by
    by_contra hc
    rw [List.drop_eq_nil_of_le (by omega)] at h
    cases h
  simp [List.drop_append_of_le_length this]

theorem getline_good_before {s : Stream} {n : Nat} (h : (s.getline n).2.good = true) : s.good = true := by
  by_contra hc
  unfold Stream.getline at h
  rw [if_neg hc] at h
  simp [Stream.good] at h

theorem peek_good_before {s : Stream} (h : s.peek.2.good = true) : s.good = true ∧ s.peek.2 = s ∧ ∃ c r, s.rest = c :: r ∧ s.peek.1 = some c := by
  unfold Stream.peek at h ⊢
  split at h
  · rename_i hg
    rw [if_pos hg]
    cases hr : s.rest with
    | nil => rw [hr] at h; simp [Stream.good] at h
    | cons c r => exact ⟨hg, rfl, c, r, rfl, rfl⟩
  · simp [Stream.good] at h

/-- A line read with the stream good afterwards does not depend on what is appended to the file. -/
theorem getline_ext {s : Stream} {n : Nat} (x : List Char) (h : (s.getline n).2.good = true) :
    (s.ext x).getline n = ((s.getline n).1, (s.getline n).2.ext x) := by
  have hg := getline_good_before h
  unfold Stream.getline at h ⊢
  rw [Stream.ext_good, if_pos hg, if_pos hg]
  rw [if_pos hg] at h
  simp only at h ⊢
  split at h
  · rename_i hlen
    split at h
    · rename_i hd
      simp [Stream.good] at h
    · rename_i c r hd
      have hc : ∃ c0 r0, s.rest = c0 :: r0 := by
        cases hr : s.rest with
        | nil => rw [hr] at hd; simp at hd
        | cons c0 r0 => exact ⟨c0, r0, rfl⟩
      obtain ⟨c0, r0, hr⟩ := hc
      have he := Stream.ext_rest x hr
      have hsplit : s.rest = s.rest.takeWhile (fun c => decide (c ≠ '\n')) ++ (c :: r) := by
        rw [← hd]
        conv_lhs => rw [← List.take_append_drop (s.rest.takeWhile (fun c => decide (c ≠ '\n'))).length s.rest]
        congr 1
        have := List.takeWhile_prefix (l := s.rest) (fun c => decide (c ≠ '\n'))
        exact (List.prefix_iff_eq_take.1 this).symm
      have hcn : c = '\n' := by
        have h1 : s.rest.dropWhile (fun c => decide (c ≠ '\n')) = c :: r := by
          have := List.takeWhile_append_dropWhile (p := fun c => decide (c ≠ '\n')) (l := s.rest)
          rw [← this] at hsplit
          have h2 := List.append_cancel_left (by simpa using hsplit : s.rest.takeWhile (fun c => decide (c ≠ '\n')) ++ s.rest.dropWhile (fun c => decide (c ≠ '\n')) = s.rest.takeWhile (fun c => decide (c ≠ '\n')) ++ (c :: r))
          exact h2
        have h3 : (s.rest.dropWhile (fun c => decide (c ≠ '\n'))) ≠ [] := by rw [h1]; simp
        have h4 := List.head_dropWhile_not (fun c => decide (c ≠ '\n')) (l := s.rest) h3
        simp only [h1, List.head_cons] at h4
        simpa using h4
      have htw : (s.rest ++ x).takeWhile (fun c => decide (c ≠ '\n')) = s.rest.takeWhile (fun c => decide (c ≠ '\n')) := by
        have hall : ∀ c ∈ s.rest.takeWhile (fun c => decide (c ≠ '\n')), decide (c ≠ '\n') = true := by
          intro c hc; exact List.mem_takeWhile_imp (p := fun c => decide (c ≠ '\n')) hc
        generalize s.rest.takeWhile (fun c => decide (c ≠ '\n')) = b at hsplit hall
        rw [hsplit, List.append_assoc, List.takeWhile_append_of_pos (by simpa using hall)]
        subst hcn
        simp
      rw [he, htw, if_pos hlen]
      have hdrop : (s.rest ++ x).drop (s.rest.takeWhile (fun c => decide (c ≠ '\n'))).length = c :: (r ++ x) := by
        rw [List.drop_append_of_le_length ((List.takeWhile_prefix _).length_le), hd]
        rfl
      rw [hdrop, if_pos hlen]
      rfl
  · simp [Stream.good] at h

theorem peek_ext {s : Stream} (x : List Char) (h : s.peek.2.good = true) : (s.ext x).peek = (s.peek.1, s.peek.2.ext x) := by
  obtain ⟨hg, he, c, r, hr, hp⟩ := peek_good_before h
  rw [he, hp]
  exact Stream.peek_cons (tail := r ++ x) hg (by rw [Stream.ext_rest x hr, hr]; rfl)

theorem sp3SatLines_good : ∀ {left : Nat} {buf : List Char} {s : Stream} {o : Nat × List Char × Stream},
    sp3SatLines left buf s = .ok (some o) → o.2.2.good = true → s.good = true := by
  intro left
  induction left with
  | zero => intro buf s o h; simp [sp3SatLines] at h
  | succ left ih =>
    intro buf s o h hg
    unfold sp3SatLines at h
    obtain ⟨e, _, h⟩ := bind_ok_inv h
    split at h
    · exact getline_good_before (ih h hg)
    · simp at h; subst h; exact hg

theorem sp3SatLines_ext (x : List Char) : ∀ {left : Nat} {buf : List Char} {s : Stream} {o : Nat × List Char × Stream},
    sp3SatLines left buf s = .ok (some o) → o.2.2.good = true → sp3SatLines left buf (s.ext x) = .ok (some (o.1, o.2.1, o.2.2.ext x)) := by
  intro left
  induction left with
  | zero => intro buf s o h; simp [sp3SatLines] at h
  | succ left ih =>
    intro buf s o h hg
    unfold sp3SatLines at h ⊢
    obtain ⟨e, he, h⟩ := bind_ok_inv h
    rw [he, Res.bind_ok]
    split at h
    · rename_i h1
      rw [if_pos h1]
      simp only
      rw [getline_ext x (sp3SatLines_good h hg)]
      exact ih h hg
    · rename_i h1
      rw [if_neg h1]
      simp at h; subst h; rfl

theorem sp3AccLines_good : ∀ {left : Nat} {buf : List Char} {s : Stream} {o : Nat × List Char × Stream},
    sp3AccLines left buf s = .ok (some o) → o.2.2.good = true → s.good = true := by
  intro left
  induction left with
  | zero => intro buf s o h; simp [sp3AccLines] at h
  | succ left ih =>
    intro buf s o h hg
    unfold sp3AccLines at h
    obtain ⟨e, _, h⟩ := bind_ok_inv h
    split at h
    · simp only at h
      split at h
      · simp only [Res.pure_eq, Res.ok.injEq, Option.some.injEq] at h; subst h
        exact getline_good_before (peek_good_before hg).1
      · exact getline_good_before (peek_good_before (ih h hg)).1
    · simp at h; subst h; exact hg

theorem sp3AccLines_ext (x : List Char) : ∀ {left : Nat} {buf : List Char} {s : Stream} {o : Nat × List Char × Stream},
    sp3AccLines left buf s = .ok (some o) → o.2.2.good = true → sp3AccLines left buf (s.ext x) = .ok (some (o.1, o.2.1, o.2.2.ext x)) := by
  intro left
  induction left with
  | zero => intro buf s o h; simp [sp3AccLines] at h
  | succ left ih =>
    intro buf s o h hg
    unfold sp3AccLines at h ⊢
    obtain ⟨e, he, h⟩ := bind_ok_inv h
    rw [he, Res.bind_ok]
    split at h
    · rename_i h1
      rw [if_pos h1]
      simp only at h ⊢
      have hpg : (s.getline SP3_HEADER_CHARS).2.peek.2.good = true := by
        split at h
        · simp only [Res.pure_eq, Res.ok.injEq, Option.some.injEq] at h; subst h; exact hg
        · exact sp3AccLines_good h hg
      rw [getline_ext x (peek_good_before hpg).1]
      simp only
      rw [peek_ext x hpg]
      simp only
      split at h
      · rename_i h2
        rw [if_pos h2]
        simp only [Res.pure_eq, Res.ok.injEq, Option.some.injEq] at h; subst h; rfl
      · rename_i h2
        rw [if_neg h2]
        exact ih h hg
    · rename_i h1
      rw [if_neg h1]
      simp at h; subst h; rfl

theorem sp3Expect_ext (x : List Char) {a b : Char} {buf : List Char} {s : Stream} {o : Bool × List Char × Stream}
    (h : sp3Expect a b buf s = .ok o) (hg : o.2.2.good = true) :
    s.good = true ∧ sp3Expect a b buf (s.ext x) = .ok (o.1, o.2.1, o.2.2.ext x) := by
  unfold sp3Expect at h ⊢
  simp only at h ⊢
  obtain ⟨e, he, h⟩ := bind_ok_inv h
  simp only [Res.pure_eq, Res.ok.injEq] at h
  subst h
  refine ⟨getline_good_before hg, ?_⟩
  rw [getline_ext x hg]
  simp only
  rw [he]
  rfl

theorem sp3Comments_ext (x : List Char) : ∀ {room : Nat} {c : Option Char} {buf : List Char} {s o : Stream},
    sp3Comments room c buf s = .ok (.inr o) → o.good = true → s.good = true ∧ sp3Comments room c buf (s.ext x) = .ok (.inr (o.ext x)) := by
  intro room
  induction room with
  | zero =>
    intro c buf s o h hg
    unfold sp3Comments at h ⊢
    split at h
    · rename_i h1
      rw [if_pos h1]
      simp at h; subst h; exact ⟨hg, rfl⟩
    · simp only at h
      obtain ⟨_, _, h⟩ := bind_ok_inv h
      split at h <;> simp at h
  | succ room ih =>
    intro c buf s o h hg
    unfold sp3Comments at h ⊢
    split at h
    · rename_i h1
      rw [if_pos h1]
      simp at h; subst h; exact ⟨hg, rfl⟩
    · rename_i h1
      rw [if_neg h1]
      simp only at h ⊢
      obtain ⟨e, he, h⟩ := bind_ok_inv h
      split at h
      · simp at h
      · rename_i h2
        obtain ⟨i1, i2⟩ := ih h hg
        have hp := peek_good_before i1
        refine ⟨getline_good_before hp.1, ?_⟩
        rw [getline_ext x hp.1]
        simp only
        rw [he, Res.bind_ok, if_neg h2, peek_ext x i1]
        exact i2

theorem sp3Comments_rest : ∀ {room : Nat} {buf : List Char} {s o : Stream},
    sp3Comments room s.peek.1 buf s.peek.2 = .ok (.inr o) → o.good = true → o.rest ≠ [] := by
  intro room
  induction room with
  | zero =>
    intro buf s o h hg
    unfold sp3Comments at h
    split at h
    · simp at h; subst h
      obtain ⟨_, h1, c, r, h2, _⟩ := peek_good_before hg
      rw [h1, h2]; simp
    · simp only at h
      obtain ⟨_, _, h⟩ := bind_ok_inv h
      split at h <;> simp at h
  | succ room ih =>
    intro buf s o h hg
    unfold sp3Comments at h
    split at h
    · simp at h; subst h
      obtain ⟨_, h1, c, r, h2, _⟩ := peek_good_before hg
      rw [h1, h2]; simp
    · simp only at h
      obtain ⟨_, _, h⟩ := bind_ok_inv h
      split at h
      · simp at h
      · exact ih h hg

theorem sp3HeadTail_ext (x : List Char) {left : Nat} {buf : List Char} {s : Stream} {o : Option Nat × Stream}
    (h : sp3HeadTail left buf s = .ok (.inr o)) (hg : o.2.good = true) :
    s.good = true ∧ sp3HeadTail left buf (s.ext x) = .ok (.inr (o.1, o.2.ext x)) ∧ o.1 = some o.2.pos ∧ o.2.rest ≠ [] := by
  unfold sp3HeadTail at h ⊢
  obtain ⟨a1, e1, h⟩ := bind_ok_inv h
  split at h
  · simp at h
  rename_i c1
  obtain ⟨a2, e2, h⟩ := bind_ok_inv h
  split at h
  · simp at h
  rename_i c2
  obtain ⟨a3, e3, h⟩ := bind_ok_inv h
  split at h
  · simp at h
  rename_i c3
  obtain ⟨a4, e4, h⟩ := bind_ok_inv h
  split at h
  · simp at h
  rename_i c4
  simp only at h
  obtain ⟨a5, e5, h⟩ := bind_ok_inv h
  cases a5 with
  | inl e => simp at h
  | inr s5 =>
  simp only [Res.pure_eq, Res.ok.injEq, Sum.inr.injEq] at h
  subst h
  have hg5 : s5.good = true := by
    by_contra hc
    unfold Stream.tellg at hg
    rw [if_neg hc] at hg
    simp [Stream.good] at hg
  obtain ⟨i5, x5⟩ := sp3Comments_ext x e5 hg5
  have hp := peek_good_before i5
  obtain ⟨i4, x4⟩ := sp3Expect_ext x e4 hp.1
  obtain ⟨i3, x3⟩ := sp3Expect_ext x e3 i4
  obtain ⟨i2, x2⟩ := sp3Expect_ext x e2 i3
  obtain ⟨i1, x1⟩ := sp3Expect_ext x e1 i2
  refine ⟨i1, ?_, ?_, ?_⟩
  · simp only [x1, x2, x3, x4, Res.bind_ok, c1, c2, c3, c4, if_false, Bool.false_eq_true]
    rw [peek_ext x i5]
    simp only
    rw [x5, Res.bind_ok]
    simp only
    rw [tellg_good hg5, tellg_good (s := s5.ext x) hg5]
    rfl
  · rw [tellg_good hg5]
  · rw [tellg_good hg5]; exact sp3Comments_rest e5 hg5

theorem sp3HeadMid_ext (x : List Char) {e0 : Bool} {buf : List Char} {s : Stream} {o : Int × List Char × Option Nat × Stream}
    (h : sp3HeadMid e0 buf s = .ok (.inr o)) (hg : o.2.2.2.good = true) :
    s.good = true ∧ sp3HeadMid e0 buf (s.ext x) = .ok (.inr (o.1, o.2.1, o.2.2.1, o.2.2.2.ext x)) ∧ o.2.2.1 = some o.2.2.2.pos ∧ o.2.2.2.rest ≠ [] := by
  unfold sp3HeadMid at h ⊢
  obtain ⟨a1, e1, h⟩ := bind_ok_inv h
  split at h
  · simp at h
  rename_i c1
  obtain ⟨a2, e2, h⟩ := bind_ok_inv h
  cases a2 with
  | none => simp at h
  | some ns =>
  simp only at h
  obtain ⟨a3, e3, h⟩ := bind_ok_inv h
  cases a3 with
  | none => simp at h
  | some a3 =>
  simp only at h
  obtain ⟨a4, e4, h⟩ := bind_ok_inv h
  split at h
  · simp at h
  rename_i c4
  obtain ⟨a5, e5, h⟩ := bind_ok_inv h
  cases a5 with
  | none => simp at h
  | some a5 =>
  simp only at h
  obtain ⟨a6, e6, h⟩ := bind_ok_inv h
  split at h
  · simp at h
  rename_i c6
  obtain ⟨a7, e7, h⟩ := bind_ok_inv h
  obtain ⟨a8, e8, h⟩ := bind_ok_inv h
  split at h
  · simp at h
  rename_i c8
  obtain ⟨a9, e9, h⟩ := bind_ok_inv h
  cases a9 with
  | inl e => simp at h
  | inr t =>
  simp only [Res.pure_eq, Res.ok.injEq, Sum.inr.injEq] at h
  subst h
  obtain ⟨i9, x9, p9⟩ := sp3HeadTail_ext x e9 hg
  obtain ⟨i8, x8⟩ := sp3Expect_ext x e8 i9
  obtain ⟨i6, x6⟩ := sp3Expect_ext x e6 i8
  have x5 := sp3AccLines_ext x e5 i6
  have i5 := sp3AccLines_good e5 i6
  have x3 := sp3SatLines_ext x e3 i5
  have i3 := sp3SatLines_good e3 i5
  obtain ⟨i1, x1⟩ := sp3Expect_ext x e1 i3
  refine ⟨i1, ?_, p9⟩
  simp only [x1, e2, x3, e4, x5, x6, e7, x8, x9, Res.bind_ok, c1, c4, c6, c8, if_false, Bool.false_eq_true, Res.pure_eq]

/-- What the constructor reads does not depend on what is appended to a file after whose header something stands. -/
theorem sp3Open_ext {L : Sp3Lib} {e0 : Bool} {junk content : List Char} (x : List Char) {f : Sp3File}
    (h : sp3Open L e0 junk content = .ok f) (hg : f.strm.good = true) :
    sp3Open L e0 junk (content ++ x) = .ok { f with strm := f.strm.ext x } ∧ f.endOfHead = some f.strm.pos ∧
      f.strm.rest ≠ [] := by
  unfold sp3Open at h ⊢
  obtain ⟨r, e, h⟩ := bind_ok_inv h
  cases r with
  | inl e => simp at h
  | inr f' =>
  simp only [Res.pure_eq, Res.ok.injEq] at h
  subst h
  have e := noexcept_ok_inv e
  simp only at e
  obtain ⟨r1, e1, e⟩ := bind_ok_inv e
  cases r1 with
  | inl e => simp at e
  | inr h1 =>
  simp only at e
  obtain ⟨r2, e2, e⟩ := bind_ok_inv e
  cases r2 with
  | inl e => simp at e
  | inr itv =>
  simp only at e
  obtain ⟨r3, e3, e⟩ := bind_ok_inv e
  cases r3 with
  | inl e => simp at e
  | inr m =>
  simp only [Res.pure_eq, Res.ok.injEq, Sum.inr.injEq] at e
  subst e
  obtain ⟨i3, x3, p3⟩ := sp3HeadMid_ext x e3 hg
  have i2 := getline_good_before i3
  have he : (⟨content ++ x, 0, false, false⟩ : Stream).seekg 0 = ((⟨content, 0, false, false⟩ : Stream).seekg 0).ext x := rfl
  refine ⟨?_, p3⟩
  unfold sp3ReadHeader
  simp only [he, getline_ext x i2, e1, Res.bind_ok, getline_ext x i3, e2, x3, Res.pure_eq, Res.noexcept_ok]

/-- The object made by the constructor: its stream is good and its place is remembered, or it has failed and no place is remembered. -/
theorem sp3Open_state {L : Sp3Lib} {e0 : Bool} {junk content : List Char} {f : Sp3File} (h : sp3Open L e0 junk content = .ok f) :
    (f.strm.good = true ∧ f.endOfHead = some f.strm.pos) ∨ (f.strm.fail = true ∧ f.endOfHead = none) := by
  unfold sp3Open at h
  obtain ⟨r, e, h⟩ := bind_ok_inv h
  cases r with
  | inl e => simp at h
  | inr f' =>
  simp only [Res.pure_eq, Res.ok.injEq] at h
  subst h
  have e := noexcept_ok_inv e
  simp only at e
  obtain ⟨r1, e1, e⟩ := bind_ok_inv e
  cases r1 with
  | inl e => simp at e
  | inr h1 =>
  simp only at e
  obtain ⟨r2, e2, e⟩ := bind_ok_inv e
  cases r2 with
  | inl e => simp at e
  | inr itv =>
  simp only at e
  obtain ⟨r3, e3, e⟩ := bind_ok_inv e
  cases r3 with
  | inl e => simp at e
  | inr m =>
  simp only [Res.pure_eq, Res.ok.injEq, Sum.inr.injEq] at e
  subst e
  have key : ∀ (left : Nat) (buf : List Char) (s : Stream) (o : Option Nat × Stream), sp3HeadTail left buf s = .ok (.inr o) →
      (o.2.good = true ∧ o.1 = some o.2.pos) ∨ (o.2.fail = true ∧ o.1 = none) := by
    intro left buf s o h
    unfold sp3HeadTail at h
    obtain ⟨a1, _, h⟩ := bind_ok_inv h
    split at h
    · simp at h
    obtain ⟨a2, _, h⟩ := bind_ok_inv h
    split at h
    · simp at h
    obtain ⟨a3, _, h⟩ := bind_ok_inv h
    split at h
    · simp at h
    obtain ⟨a4, _, h⟩ := bind_ok_inv h
    split at h
    · simp at h
    simp only at h
    obtain ⟨a5, _, h⟩ := bind_ok_inv h
    cases a5 with
    | inl e => simp at h
    | inr s5 =>
    simp only [Res.pure_eq, Res.ok.injEq, Sum.inr.injEq] at h
    subst h
    unfold Stream.tellg
    split
    · rename_i hg; exact Or.inl ⟨hg, rfl⟩
    · exact Or.inr ⟨rfl, rfl⟩
  unfold sp3HeadMid at e3
  obtain ⟨a1, _, e3⟩ := bind_ok_inv e3
  split at e3
  · simp at e3
  obtain ⟨a2, _, e3⟩ := bind_ok_inv e3
  cases a2 with
  | none => simp at e3
  | some ns =>
  simp only at e3
  obtain ⟨a3, _, e3⟩ := bind_ok_inv e3
  cases a3 with
  | none => simp at e3
  | some a3 =>
  simp only at e3
  obtain ⟨a4, _, e3⟩ := bind_ok_inv e3
  split at e3
  · simp at e3
  obtain ⟨a5, _, e3⟩ := bind_ok_inv e3
  cases a5 with
  | none => simp at e3
  | some a5 =>
  simp only at e3
  obtain ⟨a6, _, e3⟩ := bind_ok_inv e3
  split at e3
  · simp at e3
  obtain ⟨a7, _, e3⟩ := bind_ok_inv e3
  obtain ⟨a8, _, e3⟩ := bind_ok_inv e3
  split at e3
  · simp at e3
  obtain ⟨a9, e9, e3⟩ := bind_ok_inv e3
  cases a9 with
  | inl e => simp at e3
  | inr t =>
  simp only [Res.pure_eq, Res.ok.injEq, Sum.inr.injEq] at e3
  subst e3
  exact key _ _ _ _ e9

/-- A stream that is not good gives status 1, whatever happened before; nothing is changed. -/
theorem getNextEpoch_notGood (junk : List Char) (fuel : Nat) (t : Sp3Epoch) (vec : List Sp3Rec) (sr : Int) (s : Stream) (errno : Int)
    (h : s.good = false) : getNextEpoch junk fuel t vec sr s errno = .ok ⟨1, t, vec, sr, s, errno⟩ := by
  unfold getNextEpoch
  rw [h]
  rfl

/-- **C85** (header).  An SP3 file that ends anywhere in the header or right after it, with nothing behind the comments: when the
constructor accepts it at all, the object delivers no epoch.  The first and every later call, also after a `rewind` with the default
argument, returns 1 and changes nothing. -/
theorem C85_header_cut {L : Sp3Lib} {e0 : Bool} {junk content : List Char} {h : Sp3Header} (hw : h.WF) {d : MicroTime}
    (hd : ∀ t, h.StartIs t → L.date t = .ok d) (hwk : L.sameWeek d h.week h.sow.value = true)
    (hmj : L.sameMjd d h.mjd h.dayFraction.value = true) (he : e0 = false) (hcut : content <+: linesText h.lines) {f : Sp3File}
    (ho : sp3Open L e0 junk content = .ok f) (junk' : List Char) (fuel : Nat) (t : Sp3Epoch) (vec : List Sp3Rec) (sr errno : Int) :
    getNextEpoch junk' fuel t vec sr f.strm errno = .ok ⟨1, t, vec, sr, f.strm, errno⟩ ∧
    (∀ s : Stream, ∃ s', sp3Rewind f.endOfHead s none = s' ∧ getNextEpoch junk' fuel t vec sr s' errno = .ok ⟨1, t, vec, sr, s', errno⟩) := by
  subst he
  have hng : ¬ f.strm.good = true := by
    intro hg
    obtain ⟨x, hx⟩ := hcut
    obtain ⟨h1, h2, hne⟩ := sp3Open_ext (x ++ ['*']) ho hg
    obtain ⟨f', h3, _, _, _, h4, h5, _⟩ := sp3Open_core junk hw.toFrame hw.accsRead hd hwk hmj (c := '*') (by decide) []
    rw [← List.append_assoc, hx, h3] at h1
    simp only [Res.ok.injEq] at h1
    subst h1
    simp only at h5
    obtain ⟨c, r, hr⟩ := List.exists_cons_of_ne_nil hne
    rw [Stream.ext_rest _ hr, hr] at h5
    have := congrArg List.length h5
    simp at this
  rcases sp3Open_state ho with ⟨hg, _⟩ | ⟨hf, hn⟩
  · exact absurd hg hng
  · refine ⟨getNextEpoch_notGood _ _ _ _ _ _ _ (by simpa using hng), fun s => ⟨_, rfl, getNextEpoch_notGood _ _ _ _ _ _ _ ?_⟩⟩
    rw [hn]
    simp [sp3Rewind, Stream.good]

/-! ## A header and nothing else -/

theorem sp3Comments_end :
    ∀ (cs : List (List Char)), (∀ l ∈ cs, LineFits 84 l ∧ Begins l '/' '*') → ∀ (room : Nat) (buf : List Char) (s : Stream),
      cs.length ≤ room → s.good = true → s.rest = linesText cs →
      sp3Comments room s.peek.1 buf s.peek.2 = .ok (.inr { s.past cs with eof := true }) := by
  intro cs
  induction cs with
  | nil =>
    intro _ room buf s _ hg hr
    rw [Stream.peek_nil hg (by simpa [linesText] using hr)]
    unfold sp3Comments
    rw [if_pos (by simp), Stream.past_nil]
  | cons x cs ih =>
    intro hw room buf s hroom hg hr
    obtain ⟨hx1, hx2⟩ := hw x (by simp)
    obtain ⟨room, rfl⟩ : ∃ k, room = k + 1 := ⟨room - 1, by simp at hroom; omega⟩
    have hr' : s.rest = linesText (x :: cs) ++ [] := by simpa using hr
    have h' := ih (fun y hy => hw y (by simp [hy])) room (fillLine buf x) (s.past [x]) (by simp at hroom; omega) hg (by simpa using rest_cons hr')
    rw [peek_line hg hr' hx2]
    unfold sp3Comments
    rw [if_neg (by simp)]
    simp only [getline_past (n := SP3_HEADER_CHARS) hg hr' hx1.1 hx1.2.2, getAt_fill hx2.2, Res.bind_ok, ne_eq, not_true_eq_false, if_false]
    rw [h', Stream.past_past]
    rfl

theorem sp3HeadTail_end {h : Sp3Header} (hw : h.Frame) (left : Nat)
    (hroom : h.comments.length ≤ left + 1) (buf : List Char) (s : Stream) (hg : s.good = true)
    (hr : s.rest = linesText (h.f1 :: h.f2 :: h.i1 :: h.i2 :: h.comments) ++ []) :
    sp3HeadTail left buf s =
      .ok (.inr (none, { s.past (h.f1 :: h.f2 :: h.i1 :: h.i2 :: h.comments) with eof := true, fail := true })) := by
  have r1 := rest_cons hr
  have r2 := rest_cons r1
  have r3 := rest_cons r2
  have r4 := rest_cons r3
  have g : ∀ ls, (s.past ls).good = true := fun ls => hg
  simp only [Stream.past_past] at r2 r3 r4
  have e1 := sp3Expect_line (buf := buf) hg hr hw.f1_ok.1 hw.f1_ok.2
  have e2 := fun buf => sp3Expect_line (buf := buf) (g _) r1 hw.f2_ok.1 hw.f2_ok.2
  have e3 := fun buf => sp3Expect_line (buf := buf) (g _) r2 hw.i1_ok.1 hw.i1_ok.2
  have e4 := fun buf => sp3Expect_line (buf := buf) (g _) r3 hw.i2_ok.1 hw.i2_ok.2
  rw [List.append_nil] at r4
  have e5 := fun buf => sp3Comments_end h.comments hw.comments (left + 1) buf _ hroom (g _) r4
  unfold sp3HeadTail
  simp only [e1, e2, Res.bind_ok, Bool.not_true, Bool.false_eq_true, if_false, Stream.past_past]
  simp only [e3, Res.bind_ok, Bool.not_true, Bool.false_eq_true, if_false, Stream.past_past]
  simp only [e4, Res.bind_ok, Bool.not_true, Bool.false_eq_true, if_false, Stream.past_past]
  simp only [e5, Res.bind_ok, Stream.past_past]
  rfl

theorem sp3HeadMid_end {h : Sp3Header} (hw : h.Frame) (ha : h.AccsRead) (buf : List Char) (s : Stream)
    (hg : s.good = true) {rest' : List (List Char)} (hrest : h.lines = h.first :: h.second :: rest')
    (hr : s.rest = linesText rest' ++ []) :
    sp3HeadMid false buf s = .ok (.inr ((h.satellites : Int), h.timeSys, none, { s.past rest' with eof := true, fail := true })) := by
  have hrest' : rest' = h.sat :: (h.sats ++ h.acc :: (h.accs ++ h.c1 :: h.c2 :: h.f1 :: h.f2 :: h.i1 :: h.i2 :: h.comments)) := by
    unfold Sp3Header.lines at hrest
    simpa using hrest.symm
  have g : ∀ ls, (s.past ls).good = true := fun ls => hg
  rw [hrest'] at hr
  have r1 := rest_cons hr
  have r2 : (s.past (h.sat :: (h.sats ++ [h.acc]))).rest =
      linesText (h.accs ++ h.c1 :: h.c2 :: h.f1 :: h.f2 :: h.i1 :: h.i2 :: h.comments) ++ [] := by
    apply Stream.past_rest
    rw [hr, ← List.append_assoc, ← linesText_append]
    simp
  have r3 : (s.past (h.sat :: (h.sats ++ h.acc :: h.accs))).rest =
      linesText (h.c1 :: h.c2 :: h.f1 :: h.f2 :: h.i1 :: h.i2 :: h.comments) ++ [] := by
    apply Stream.past_rest
    rw [hr, ← List.append_assoc, ← linesText_append]
    simp
  have r4 := rest_cons r3
  have r5 := rest_cons r4
  simp only [Stream.past_past] at r4 r5
  obtain ⟨left, hleft⟩ : ∃ left, 999 = h.sats.length + 2 + (h.accs.length + left) :=
    ⟨999 - h.sats.length - 2 - h.accs.length, by have := hw.few; omega⟩
  have e1 := sp3Expect_line (buf := buf) hg hr hw.sat_ok.1 hw.sat_ok.2
  obtain ⟨b2, e2⟩ := sp3SatLines_wf (t := []) (more := h.accs ++ h.c1 :: h.c2 :: h.f1 :: h.f2 :: h.i1 :: h.i2 :: h.comments)
    hw.acc_ok.1 hw.acc_ok.2 (h.accs.length + left) h.sats hw.sats buf h.sat (s.past [h.sat]) hw.sat_ok.1 hw.sat_ok.2 (g _) r1
  obtain ⟨b3, e3⟩ := ha ([]) left b2 (s.past (h.sat :: (h.sats ++ [h.acc]))) (g _) r2
  have e4 := fun buf => sp3Expect_line (buf := buf) (g _) r3 hw.c1_ok.1 hw.c1_ok.2
  have e5 := fun buf => sp3Expect_line (buf := buf) (g _) r4 hw.c2_ok.1 hw.c2_ok.2
  have e6 := fun buf => sp3HeadTail_end hw left (by have := hw.fewc; omega) buf _ (g _) r5
  rw [← hleft] at e2
  simp only [Stream.past_past, List.cons_append, List.nil_append, List.append_assoc] at e2 e3 e4 e5 e6
  unfold sp3HeadMid
  simp only [e1, Res.bind_ok, Bool.not_true, Bool.false_eq_true, if_false, sp3Nonzero_nat hw.satellites.1 hw.satellites.2, e2,
    starts_begins hw.acc_ok.2, decide_true, Bool.and_self, e3, e4, bytesAt_text hw.timeSys, e5, e6, hrest', Res.pure_eq]

/-- **C85** (header).  A file that is a well formed header and nothing else is accepted by the constructor, and the object says what the
header says; but no place after the header is remembered (`C85_header_cut` says what that means for the calls that follow). -/
theorem C85_header_only {L : Sp3Lib} (junk : List Char) {h : Sp3Header} (hw : h.WF) {d : MicroTime}
    (hd : ∀ t, h.StartIs t → L.date t = .ok d) (hwk : L.sameWeek d h.week h.sow.value = true)
    (hmj : L.sameMjd d h.mjd h.dayFraction.value = true) :
    ∃ f, sp3Open L false junk (linesText h.lines) = .ok f ∧ h.SaysIn d f ∧ f.agency = h.agency.take 3 ∧
      f.strm.good = false ∧ f.endOfHead = none := by
  generalize hct : linesText h.lines = content
  have hg : (⟨content, 0, false, false⟩ : Stream).good = true := rfl
  have hr : (⟨content, 0, false, false⟩ : Stream).rest = linesText h.lines ++ [] := by rw [hct]; simp [Stream.rest]
  have hs0 : (⟨content, 0, false, false⟩ : Stream).seekg 0 = ⟨content, 0, false, false⟩ := rfl
  have hc0 : (⟨content, 0, false, false⟩ : Stream).content = content := rfl
  generalize hs : (⟨content, 0, false, false⟩ : Stream) = s at hg hr hs0 hc0
  obtain ⟨rest', hrest⟩ : ∃ rest', h.lines = h.first :: h.second :: rest' := ⟨_, rfl⟩
  rw [hrest] at hr
  have r1 := rest_cons hr
  have r2 := rest_cons r1
  have g1 := getline_past (n := SP3_HEADER_CHARS) hg hr hw.first_fits.1 hw.first_fits.2.2
  have g2 := getline_past (n := SP3_HEADER_CHARS) (s := s.past [h.first]) hg r1 hw.second_fits.1 hw.second_fits.2.2
  have e3 := sp3HeadMid_end hw.toFrame hw.accsRead (fillLine (fillLine junk h.first) h.second) _ (by exact hg) hrest r2
  have hsecond := sp3Second_wf (L := L) hw.toDated (fillLine junk h.first) d
  rw [if_pos hwk, if_pos hmj] at hsecond
  generalize hsf : ({ ((s.past [h.first]).past [h.second]).past rest' with eof := true, fail := true } : Stream) = sf at e3
  have hgf : sf.good = false := by rw [← hsf]; rfl
  have hb := truncRat_bounds (q := h.interval.value * 1000000) (by have := hw.interval.2.1; linarith)
  refine ⟨⟨h.version, d, h.epochs, h.satellites, h.crdSys, h.orbType, h.agency.take 3, h.timeSys,
    truncRat (h.interval.value * 1000000), none, sf⟩, ?_, ⟨rfl, rfl, rfl, rfl, rfl, rfl, rfl, hb⟩, rfl, hgf, rfl⟩
  · unfold sp3Open
    rw [hs]
    unfold sp3ReadHeader
    simp only [hs0, g1, Res.bind_ok, sp3First_wf hw.toDated junk hd, g2, hsecond, e3, Res.pure_eq, Res.noexcept_ok]

end Ggnss
