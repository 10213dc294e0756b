import Verif.Props.Sp3HeadAny
/-!
# C61: SP3 files with arbitrary content, a single line of accuracies, whole files
-/
namespace Ggnss

/-! ## Arbitrary content -/

/-- The computation ends, and is undefined only if `P`. -/
def UbOnly {α : Type} (P : Prop) (x : Res α) : Prop := x ≠ .diverge ∧ (x = .ub → P)

theorem UbOnly.ok {α : Type} {P : Prop} (a : α) : UbOnly P (Res.ok a) := ⟨by simp, by simp⟩

theorem UbOnly.sane {α : Type} {P : Prop} {x : Res α} (h : Sane x) : UbOnly P x := ⟨h.2, fun e => absurd e h.1⟩

theorem UbOnly.bind {α β : Type} {P : Prop} {x : Res α} {f : α → Res β} (hx : UbOnly P x) (hf : ∀ a, x = .ok a → UbOnly P (f a)) :
    UbOnly P (x >>= f) := by
  cases x with
  | ok a => exact hf a rfl
  | ub => exact ⟨by simp, fun _ => hx.2 rfl⟩
  | diverge => exact absurd rfl hx.1
  | throw e => exact ⟨by simp, by simp⟩
  | terminate => exact ⟨by simp, by simp⟩

theorem UbOnly.noexcept {α : Type} {P : Prop} {x : Res α} (h : UbOnly P x) : UbOnly P x.noexcept := by
  cases x with
  | ok a => exact h
  | ub => exact ⟨by simp, fun _ => h.2 rfl⟩
  | diverge => exact absurd rfl h.1
  | throw e => exact ⟨by simp, by simp⟩
  | terminate => exact ⟨by simp, by simp⟩

theorem HeadArr.nonzero {line : List Char} (h : HeadArr line) (e0 : Bool) {k : Nat} (hk : k ≤ 60) : ∃ r, sp3Nonzero e0 line k = .ok r := by
  unfold sp3Nonzero
  rw [h.strtol hk, Res.bind_ok]
  split <;> exact ⟨_, rfl⟩

theorem HeadArr.conv {line : List Char} (h : HeadArr line) (e0 : Bool) {k : Nat} (hk : k ≤ 60) : ∃ r, sp3Conv e0 line k = .ok r := by
  unfold sp3Conv
  rw [h.strtol hk, Res.bind_ok]
  split <;> exact ⟨_, rfl⟩

/-- The number at column `k` of this array, 0 when there is none. -/
def numberAt (line : List Char) (k : Nat) : Rat := match strtod (line.drop k) with | none => 0 | some v => v.1

theorem HeadArr.double {line : List Char} (h : HeadArr line) {k : Nat} (hk : k ≤ 60) : ∃ er, sp3Double line k = .ok (numberAt line k, er) := by
  unfold sp3Double numberAt
  rw [h.strtod hk, Res.bind_ok]
  cases Ggnss.strtod (line.drop k) <;> exact ⟨_, rfl⟩

theorem HeadArr.bytes {line : List Char} (h : HeadArr line) {k n : Nat} (hk : k + n ≤ 85) : ∃ r, bytesAt line k n = .ok r := by
  unfold bytesAt
  rw [if_pos (by rw [h.1]; exact hk)]
  exact ⟨_, rfl⟩

theorem HeadArr.starts {line : List Char} (h : HeadArr line) (a b : Char) : ∃ r, sp3Starts line a b = .ok r := by
  unfold sp3Starts
  rw [getAt_lt (by have := h.1; omega : 0 < line.length), Res.bind_ok, getAt_lt (by have := h.1; omega : 1 < line.length), Res.bind_ok]
  exact ⟨_, rfl⟩

theorem HeadArr.expect {line : List Char} (h : HeadArr line) (a b : Char) (s : Stream) :
    ∃ r s', sp3Expect a b line s = .ok (r, fillLine line (s.getline SP3_HEADER_CHARS).1, s') := by
  have h' : HeadArr (fillLine line (s.getline SP3_HEADER_CHARS).1) := h.getline s
  obtain ⟨r, hr⟩ := h'.starts a b
  unfold sp3Expect
  simp only [hr, Res.bind_ok]
  exact ⟨_, _, rfl⟩

theorem HeadArr.getline' {line : List Char} (h : HeadArr line) (s : Stream) : HeadArr (fillLine line (s.getline SP3_HEADER_CHARS).1) :=
  h.getline s

theorem HeadArr.cmp2 {line : List Char} (h : HeadArr line) (a b : Char) :
    ∃ r, strncmpEq 2 line (cArr [a, b]) = .ok r := by
  match line, h.1 with
  | x :: y :: l, _ =>
    unfold strncmpEq cArr
    simp only [List.cons_append]
    unfold strncmpEq strncmpEq
    repeat' split
    all_goals exact ⟨_, rfl⟩

theorem sp3SatLines_any : ∀ (left : Nat) (line : List Char) (s : Stream), HeadArr line →
    ∃ r, sp3SatLines left line s = .ok r ∧ ∀ x ∈ r, HeadArr x.2.1 := by
  intro left
  induction left with
  | zero => intro line s _; exact ⟨_, rfl, by simp⟩
  | succ left ih =>
    intro line s h
    obtain ⟨b, hb⟩ := h.cmp2 '+' ' '
    unfold sp3SatLines
    rw [hb, Res.bind_ok]
    split
    · exact ih _ _ (h.getline' s)
    · exact ⟨_, rfl, by simp [h]⟩

theorem sp3AccLines_any : ∀ (left : Nat) (line : List Char) (s : Stream), HeadArr line →
    ∃ r, sp3AccLines left line s = .ok r ∧ ∀ x ∈ r, HeadArr x.2.1 := by
  intro left
  induction left with
  | zero => intro line s _; exact ⟨_, rfl, by simp⟩
  | succ left ih =>
    intro line s h
    obtain ⟨b, hb⟩ := h.cmp2 '+' '+'
    unfold sp3AccLines
    rw [hb, Res.bind_ok]
    simp only
    split
    · split
      · exact ⟨_, rfl, by simpa using h.getline' s⟩
      · exact ih _ _ (h.getline' s)
    · exact ⟨_, rfl, by simp [h]⟩

theorem sp3Comments_any : ∀ (room : Nat) (c : Option Char) (line : List Char) (s : Stream), HeadArr line →
    ∃ r, sp3Comments room c line s = .ok r := by
  intro room
  induction room with
  | zero =>
    intro c line s h
    unfold sp3Comments
    split
    · exact ⟨_, rfl⟩
    · simp only
      rw [getAt_lt (by have := (h.getline' s).1; omega : 1 < (fillLine line (s.getline SP3_HEADER_CHARS).1).length), Res.bind_ok]
      split <;> exact ⟨_, rfl⟩
  | succ room ih =>
    intro c line s h
    unfold sp3Comments
    split
    · exact ⟨_, rfl⟩
    · simp only
      rw [getAt_lt (by have := (h.getline' s).1; omega : 1 < (fillLine line (s.getline SP3_HEADER_CHARS).1).length), Res.bind_ok]
      split
      · exact ⟨_, rfl⟩
      · exact ih _ _ _ (h.getline' s)

theorem sp3HeadTail_any (left : Nat) {line : List Char} (h : HeadArr line) (s : Stream) : ∃ r, sp3HeadTail left line s = .ok r := by
  unfold sp3HeadTail
  obtain ⟨b1, s1, e1⟩ := h.expect '%' 'f' s
  have h1 := h.getline' s
  rw [e1, Res.bind_ok]
  generalize fillLine line (s.getline SP3_HEADER_CHARS).1 = l1 at h1 ⊢
  simp only
  split
  · exact ⟨_, rfl⟩
  obtain ⟨b2, s2, e2⟩ := h1.expect '%' 'f' s1
  have h2 := h1.getline' s1
  rw [e2, Res.bind_ok]
  generalize fillLine l1 (s1.getline SP3_HEADER_CHARS).1 = l2 at h2 ⊢
  simp only
  split
  · exact ⟨_, rfl⟩
  obtain ⟨b3, s3, e3⟩ := h2.expect '%' 'i' s2
  have h3 := h2.getline' s2
  rw [e3, Res.bind_ok]
  generalize fillLine l2 (s2.getline SP3_HEADER_CHARS).1 = l3 at h3 ⊢
  simp only
  split
  · exact ⟨_, rfl⟩
  obtain ⟨b4, s4, e4⟩ := h3.expect '%' 'i' s3
  have h4 := h3.getline' s3
  rw [e4, Res.bind_ok]
  generalize fillLine l3 (s3.getline SP3_HEADER_CHARS).1 = l4 at h4 ⊢
  simp only
  split
  · exact ⟨_, rfl⟩
  obtain ⟨r, hr⟩ := sp3Comments_any (left + 1) s4.peek.1 l4 s4.peek.2 h4
  rw [hr, Res.bind_ok]
  cases r <;> exact ⟨_, rfl⟩

theorem sp3HeadMid_any (e0 : Bool) {line : List Char} (h : HeadArr line) (s : Stream) : ∃ r, sp3HeadMid e0 line s = .ok r := by
  unfold sp3HeadMid
  obtain ⟨b1, s1, e1⟩ := h.expect '+' ' ' s
  have h1 := h.getline' s
  rw [e1, Res.bind_ok]
  generalize fillLine line (s.getline SP3_HEADER_CHARS).1 = l1 at h1 ⊢
  simp only
  split
  · exact ⟨_, rfl⟩
  obtain ⟨n, hn⟩ := h1.nonzero e0 (k := 3) (by omega)
  rw [hn, Res.bind_ok]
  cases n with
  | none => exact ⟨_, rfl⟩
  | some n =>
  simp only
  obtain ⟨r2, e2, h2⟩ := sp3SatLines_any 999 l1 s1 h1
  rw [e2, Res.bind_ok]
  cases r2 with
  | none => exact ⟨_, rfl⟩
  | some a =>
  have h2 := h2 a rfl
  obtain ⟨b3, e3⟩ := h2.starts '+' '+'
  simp only
  rw [e3, Res.bind_ok]
  split
  · exact ⟨_, rfl⟩
  obtain ⟨r4, e4, h4⟩ := sp3AccLines_any a.1 a.2.1 a.2.2 h2
  rw [e4, Res.bind_ok]
  cases r4 with
  | none => exact ⟨_, rfl⟩
  | some c =>
  have h4 := h4 c rfl
  simp only
  obtain ⟨b5, s5, e5⟩ := h4.expect '%' 'c' c.2.2
  have h5 := h4.getline' c.2.2
  rw [e5, Res.bind_ok]
  generalize fillLine c.2.1 (c.2.2.getline SP3_HEADER_CHARS).1 = l5 at h5 ⊢
  simp only
  split
  · exact ⟨_, rfl⟩
  obtain ⟨ts, hts⟩ := h5.bytes (k := 9) (n := 3) (by omega)
  rw [hts, Res.bind_ok]
  obtain ⟨b6, s6, e6⟩ := h5.expect '%' 'c' s5
  have h6 := h5.getline' s5
  rw [e6, Res.bind_ok]
  generalize fillLine l5 (s5.getline SP3_HEADER_CHARS).1 = l6 at h6 ⊢
  simp only
  split
  · exact ⟨_, rfl⟩
  obtain ⟨r7, e7⟩ := sp3HeadTail_any c.1 h6 s6
  rw [e7, Res.bind_ok]
  cases r7 <;> exact ⟨_, rfl⟩

theorem sp3First_any {L : Sp3Lib} (hL : ∀ t, Sane (L.date t)) (e0 : Bool) {line : List Char} (h : HeadArr line) :
    UbOnly (castLong (numberAt line 20 * 1000000) = .ub) (sp3First L e0 line) := by
  unfold sp3First
  rw [getAt_lt (by have := h.1; omega : 0 < line.length), Res.bind_ok]
  split
  · exact UbOnly.ok _
  rw [getAt_lt (by have := h.1; omega : 1 < line.length), Res.bind_ok]
  split
  · exact UbOnly.ok _
  obtain ⟨a1, e1⟩ := h.nonzero e0 (k := 3) (by omega)
  obtain ⟨a2, e2⟩ := h.nonzero e0 (k := 8) (by omega)
  obtain ⟨a3, e3⟩ := h.nonzero e0 (k := 11) (by omega)
  obtain ⟨a4, e4⟩ := h.conv e0 (k := 14) (by omega)
  obtain ⟨a5, e5⟩ := h.conv e0 (k := 17) (by omega)
  obtain ⟨er, e7⟩ := h.double (k := 20) (by omega)
  obtain ⟨a6, e6⟩ := h.nonzero (e0 || er) (k := 32) (by omega)
  rw [e1, Res.bind_ok]
  cases a1 with
  | none => exact UbOnly.ok _
  | some a1 =>
  simp only
  rw [e2, Res.bind_ok]
  cases a2 with
  | none => exact UbOnly.ok _
  | some a2 =>
  simp only
  rw [e3, Res.bind_ok]
  cases a3 with
  | none => exact UbOnly.ok _
  | some a3 =>
  simp only
  rw [e4, Res.bind_ok]
  cases a4 with
  | none => exact UbOnly.ok _
  | some a4 =>
  simp only
  rw [e5, Res.bind_ok]
  cases a5 with
  | none => exact UbOnly.ok _
  | some a5 =>
  simp only
  unfold sp3FirstEnd
  rw [e7, Res.bind_ok]
  simp only
  rw [e6, Res.bind_ok]
  cases a6 with
  | none => exact UbOnly.ok _
  | some a6 =>
  obtain ⟨t1, w1⟩ := h.bytes (k := 46) (n := 5) (by omega)
  obtain ⟨t2, w2⟩ := h.bytes (k := 52) (n := 3) (by omega)
  obtain ⟨t3, w3⟩ := h.bytes (k := 56) (n := 3) (by omega)
  simp only [w1, w2, w3, Res.bind_ok]
  apply UbOnly.bind
  · refine ⟨?_, id⟩
    unfold castLong; split <;> simp
  · intro us _
    exact (UbOnly.sane (hL _)).bind fun _ _ => UbOnly.ok _

theorem sp3Second_any {L : Sp3Lib} (e0 : Bool) {line : List Char} (h : HeadArr line) (d : MicroTime) :
    UbOnly (castLong (numberAt line 24 * 1000000) = .ub) (sp3Second L e0 line d) := by
  unfold sp3Second
  obtain ⟨b, e⟩ := h.starts '#' '#'
  rw [e, Res.bind_ok]
  split
  · exact UbOnly.ok _
  obtain ⟨a1, e1⟩ := h.nonzero e0 (k := 3) (by omega)
  obtain ⟨er1, d1⟩ := h.double (k := 8) (by omega)
  obtain ⟨er2, d2⟩ := h.double (k := 24) (by omega)
  obtain ⟨er3, d3⟩ := h.double (k := 45) (by omega)
  rw [e1, Res.bind_ok]
  cases a1 with
  | none => exact UbOnly.ok _
  | some a1 =>
  simp only
  rw [d1, Res.bind_ok]
  split
  · exact UbOnly.ok _
  rw [d2, Res.bind_ok]
  apply UbOnly.bind
  · refine ⟨?_, id⟩
    unfold castLong; split <;> simp
  · intro us _
    obtain ⟨a2, e2⟩ := h.nonzero (e0 || er1 || er2) (k := 39) (by omega)
    rw [e2, Res.bind_ok]
    cases a2 with
    | none => exact UbOnly.ok _
    | some a2 =>
      simp only
      rw [d3, Res.bind_ok]
      split <;> exact UbOnly.ok _

/-- **C61** (any content).  A file whose first line is at least 60 chars long, with whatever else in it: the
constructor returns an object, throws `std::runtime_error` or ends the program (an exception of the
date library); nothing is undefined unless the seconds on the first line or the interval on the
second one, in microseconds, do not fit a `long`.  Missing for the full property: first lines shorter than 60 chars
(then bytes never written are read), and the two numbers. -/
theorem C61_open_any_partial {L : Sp3Lib} (hL : ∀ t, Sane (L.date t)) (e0 : Bool) {junk : List Char} (hj : junk.length = 85)
    {first : List Char} (h1 : LineFits 84 first ∧ 60 ≤ first.length) (content : List Char) :
    (∃ f, sp3Open L e0 junk (first ++ '\n' :: content) = .ok f) ∨
      sp3Open L e0 junk (first ++ '\n' :: content) = .throw .runtime_error ∨
      sp3Open L e0 junk (first ++ '\n' :: content) = .terminate ∨
      (sp3Open L e0 junk (first ++ '\n' :: content) = .ub ∧
        (castLong (numberAt (fillLine junk first) 20 * 1000000) = .ub ∨
          ∃ second, second = ((⟨first ++ '\n' :: content, first.length + 1, false, false⟩ : Stream).getline 85).1 ∧
            castLong (numberAt (fillLine (fillLine junk first) second) 24 * 1000000) = .ub)) := by
  have harr : HeadArr (fillLine junk first) := by
    refine ⟨fill_length hj h1.1.2.2, ?_⟩
    unfold fillLine; rw [drop_line h1.2]; simp
  have hs0 : (⟨first ++ '\n' :: content, 0, false, false⟩ : Stream).seekg 0 = ⟨first ++ '\n' :: content, 0, false, false⟩ := rfl
  have hr : (⟨first ++ '\n' :: content, 0, false, false⟩ : Stream).rest = linesText [first] ++ content := by
    rw [linesText_one]; simp [Stream.rest]
  have hg := getline_past (n := SP3_HEADER_CHARS) (s := ⟨first ++ '\n' :: content, 0, false, false⟩) rfl hr h1.1.1 h1.1.2.2
  have hpast : (⟨first ++ '\n' :: content, 0, false, false⟩ : Stream).past [first] = ⟨first ++ '\n' :: content, first.length + 1, false, false⟩ := by
    simp [Stream.past, Stream.adv, linesText]
  have key : UbOnly (castLong (numberAt (fillLine junk first) 20 * 1000000) = .ub ∨
          ∃ second, second = ((⟨first ++ '\n' :: content, first.length + 1, false, false⟩ : Stream).getline 85).1 ∧
            castLong (numberAt (fillLine (fillLine junk first) second) 24 * 1000000) = .ub)
      (sp3ReadHeader L e0 junk ⟨first ++ '\n' :: content, 0, false, false⟩) := by
    unfold sp3ReadHeader
    apply UbOnly.noexcept
    rw [hs0]
    simp only [hg, hpast]
    have k1 := sp3First_any hL e0 harr
    refine UbOnly.bind ⟨k1.1, fun e => Or.inl (k1.2 e)⟩ ?_
    intro r _
    cases r with
    | inl e => exact UbOnly.ok _
    | inr h =>
    simp only
    have harr2 := harr.getline' ⟨first ++ '\n' :: content, first.length + 1, false, false⟩
    have k2 := sp3Second_any (L := L) e0 harr2 h.start
    refine UbOnly.bind ⟨k2.1, fun e => Or.inr ⟨_, rfl, k2.2 e⟩⟩ ?_
    intro r _
    cases r with
    | inl e => exact UbOnly.ok _
    | inr itv =>
    simp only
    obtain ⟨r, hr⟩ := sp3HeadMid_any itv.2 harr2
      ((⟨first ++ '\n' :: content, first.length + 1, false, false⟩ : Stream).getline SP3_HEADER_CHARS).2
    rw [hr, Res.bind_ok]
    cases r <;> exact UbOnly.ok _
  unfold sp3Open
  have hnt : ∀ e, sp3ReadHeader L e0 junk ⟨first ++ '\n' :: content, 0, false, false⟩ ≠ .throw e := fun e => noexcept_ne_throw _ e
  cases hres : sp3ReadHeader L e0 junk ⟨first ++ '\n' :: content, 0, false, false⟩ with
  | ok r =>
    rw [Res.bind_ok]
    cases r with
    | inl e => right; left; rfl
    | inr f => left; exact ⟨_, rfl⟩
  | throw e => exact absurd hres (hnt e)
  | terminate => right; right; left; rfl
  | ub => right; right; right; exact ⟨rfl, key.2 hres⟩
  | diverge => exact absurd hres key.1

/-! ## A single line of accuracies -/

theorem sp3SatLines_length : ∀ (left : Nat) (buf : List Char) (s : Stream) (r : Nat × List Char × Stream), buf.length = 85 →
    sp3SatLines left buf s = .ok (some r) → r.2.1.length = 85 := by
  intro left
  induction left with
  | zero => intro buf s r _ h; simp [sp3SatLines] at h
  | succ left ih =>
    intro buf s r hb h
    unfold sp3SatLines at h
    obtain ⟨b, _, h⟩ := bind_ok_inv h
    split at h
    · exact ih _ _ _ (fill_length hb (getline_lenN s SP3_HEADER_CHARS)) h
    · simp only [Res.pure_eq, Res.ok.injEq, Option.some.injEq] at h
      rw [← h]; exact hb

/-- **C61** (refusal).  A header with only one line of accuracies is refused: the first "%c" line is
taken for the second one of them. -/
theorem C61_single_accuracy_line_refused {L : Sp3Lib} {junk : List Char} (hj : junk.length = 85) {h : Sp3Header} (hw : h.Frame)
    (he : h.accs = []) {d : MicroTime} (hd : ∀ t, h.StartIs t → L.date t = .ok d) (tail : List Char) :
    sp3Open L false junk (linesText h.lines ++ tail) = .throw .runtime_error := by
  generalize hct : linesText h.lines ++ tail = content
  have hg : (⟨content, 0, false, false⟩ : Stream).good = true := rfl
  have hr : (⟨content, 0, false, false⟩ : Stream).rest = linesText h.lines ++ tail := by rw [hct]; simp [Stream.rest]
  have hs0 : (⟨content, 0, false, false⟩ : Stream).seekg 0 = ⟨content, 0, false, false⟩ := rfl
  generalize hs : (⟨content, 0, false, false⟩ : Stream) = s at hg hr hs0
  unfold Sp3Header.lines at hr
  rw [he, List.nil_append] at hr
  have r1 := rest_cons hr
  have r2 := rest_cons r1
  have g1 := getline_past (n := SP3_HEADER_CHARS) hg hr hw.first_fits.1 hw.first_fits.2.2
  have g2 := getline_past (n := SP3_HEADER_CHARS) (s := s.past [h.first]) hg r1 hw.second_fits.1 hw.second_fits.2.2
  have hmid : ∃ e, sp3HeadMid false (fillLine (fillLine junk h.first) h.second) ((s.past [h.first]).past [h.second]) = .ok (.inl e) := by
    have hbuf : (fillLine (fillLine junk h.first) h.second).length = 85 := fill_length (fill_length hj hw.first_fits.2.2) hw.second_fits.2.2
    generalize fillLine (fillLine junk h.first) h.second = buf at hbuf
    have hg2 : ((s.past [h.first]).past [h.second]).good = true := hg
    generalize ((s.past [h.first]).past [h.second]) = s2 at r2 hg2
    have g : ∀ ls, (s2.past ls).good = true := fun ls => hg2
    unfold sp3HeadMid
    rw [sp3Expect_line hg2 r2 hw.sat_ok.1 hw.sat_ok.2, Res.bind_ok]
    simp only [Bool.not_true, Bool.false_eq_true, if_false]
    rw [sp3Nonzero_nat hw.satellites.1 hw.satellites.2, Res.bind_ok]
    have r3 := rest_cons r2
    simp only
    obtain ⟨left0, hleft⟩ : ∃ left, 999 = h.sats.length + 2 + left :=
      ⟨999 - h.sats.length - 2, by have := hw.few; omega⟩
    obtain ⟨b2, e2⟩ := sp3SatLines_wf (t := tail) (more := h.c1 :: h.c2 :: h.f1 :: h.f2 :: h.i1 :: h.i2 :: h.comments)
      hw.acc_ok.1 hw.acc_ok.2 left0 h.sats hw.sats buf h.sat (s2.past [h.sat]) hw.sat_ok.1 hw.sat_ok.2 (g _) r3
    rw [← hleft] at e2
    have hl2 := sp3SatLines_length _ _ _ _ (fill_length hbuf hw.sat_ok.1.2.2) e2
    rw [e2, Res.bind_ok]
    simp only [starts_begins hw.acc_ok.2, Res.bind_ok, decide_true, Bool.and_self, Bool.not_true, Bool.false_eq_true, if_false]
    have r4 : ((s2.past [h.sat]).past (h.sats ++ [h.acc])).rest = linesText (h.c1 :: h.c2 :: h.f1 :: h.f2 :: h.i1 :: h.i2 :: h.comments) ++ tail := by
      apply Stream.past_rest
      rw [r3, ← List.append_assoc, ← linesText_append]
      simp
    have hg4 : ((s2.past [h.sat]).past (h.sats ++ [h.acc])).good = true := hg2
    generalize ((s2.past [h.sat]).past (h.sats ++ [h.acc])) = s4 at r4 hg4
    cases left0 with
    | zero => exact ⟨41, rfl⟩
    | succ left =>
    unfold sp3AccLines
    rw [strncmp2_begins hw.acc_ok.1 hw.acc_ok.2 _ _ (by decide) (by decide), Res.bind_ok]
    simp only [and_self, decide_true, if_true, getline_past (n := SP3_HEADER_CHARS) hg4 r4 hw.c1_ok.1.1 hw.c1_ok.1.2.2]
    have r5 := rest_cons r4
    rw [peek_line (s := s4.past [h.c1]) hg4 r5 hw.c2_ok.2, if_pos (by simp)]
    simp only [Res.pure_eq, Res.bind_ok]
    rw [sp3Expect_line (s := s4.past [h.c1]) hg4 r5 hw.c2_ok.1 hw.c2_ok.2, Res.bind_ok]
    simp only [Bool.not_true, Bool.false_eq_true, if_false]
    have hl5 : (fillLine (fillLine (fillLine b2 h.acc) h.c1) h.c2).length = 85 :=
      fill_length (fill_length hl2 hw.c1_ok.1.2.2) hw.c2_ok.1.2.2
    have hts : ∃ ts, bytesAt (fillLine (fillLine (fillLine b2 h.acc) h.c1) h.c2) 9 3 = .ok ts := by
      unfold bytesAt; rw [if_pos (by omega)]; exact ⟨_, rfl⟩
    obtain ⟨ts, hts⟩ := hts
    rw [hts, Res.bind_ok]
    have r6 := rest_cons r5
    have hf : sp3Expect '%' 'c' (fillLine (fillLine (fillLine b2 h.acc) h.c1) h.c2) ((s4.past [h.c1]).past [h.c2]) =
        .ok (false, fillLine (fillLine (fillLine (fillLine b2 h.acc) h.c1) h.c2) h.f1, ((s4.past [h.c1]).past [h.c2]).past [h.f1]) := by
      unfold sp3Expect
      simp only [getline_past (n := SP3_HEADER_CHARS) (s := (s4.past [h.c1]).past [h.c2]) hg4 r6 hw.f1_ok.1.1 hw.f1_ok.1.2.2,
        starts_begins hw.f1_ok.2, Res.bind_ok]
      rfl
    rw [hf, Res.bind_ok]
    exact ⟨51, rfl⟩
  obtain ⟨e, he⟩ := hmid
  have hsecond : (∃ e, sp3Second L false (fillLine (fillLine junk h.first) h.second) d = .ok (.inl e)) ∨
      ∃ itv, sp3Second L false (fillLine (fillLine junk h.first) h.second) d = .ok (.inr (itv, false)) := by
    rw [sp3Second_wf hw.toDated]
    repeat' split
    · exact Or.inr ⟨_, rfl⟩
    · exact Or.inl ⟨_, rfl⟩
    · exact Or.inl ⟨_, rfl⟩
  unfold sp3Open
  rw [hs]
  unfold sp3ReadHeader
  rcases hsecond with ⟨e', hr2⟩ | ⟨itv, hr2⟩
  · simp only [hs0, g1, Res.bind_ok, sp3First_wf hw.toDated junk hd, g2, hr2, Res.pure_eq, Res.noexcept_ok]
  · simp only [hs0, g1, Res.bind_ok, sp3First_wf hw.toDated junk hd, g2, hr2, he, Res.pure_eq, Res.noexcept_ok]

/-! ## Whole files -/

/-- **C61** (whole file).  A file of a well formed header and any number of epochs with no more
satellites than the header announces, closed by "EOF": the file is opened, a vector of the
announced size is allocated, and reading from the opened file into that vector delivers every epoch of the file, in
order, each once (`Delivers`, see C31). -/
theorem C61_file {L : Sp3Lib} (junk0 : List Char) {h : Sp3Header} (hw : h.WF) {d : MicroTime}
    (hd : ∀ t, h.StartIs t → L.date t = .ok d) (hwk : L.sameWeek d h.week h.sow.value = true)
    (hmj : L.sameMjd d h.mjd h.dayFraction.value = true) (junk : Nat → List Char) (hj : ∀ k, (junk k).length = 128) (fuel : Nat)
    (e tail : List Char) (hok : LineOK e) (heof : e.take 3 = c!"EOF") (htail : tail = [] ∨ ∃ r, tail = '\n' :: r)
    (bs : List EpochBlock) (hne : bs ≠ []) (hbs : ∀ b ∈ bs, b.WF h.satellites fuel) (t0 : Sp3Epoch) (sr : Int) (calls : Nat)
    (hcalls : bs.length ≤ calls) :
    ∃ f vec outs, sp3Open L false junk0 (linesText h.lines ++ ((bs.map EpochBlock.text).flatten ++ (e ++ tail))) = .ok f ∧
      h.SaysIn d f ∧ sp3Allocate f.numSats = .ok vec ∧
      readEpochs junk fuel calls t0 vec sr f.strm 0 = .ok outs ∧ List.Forall₂ Delivers bs outs ∧
      outs.map Sp3Out.status = List.replicate (bs.length - 1) 0 ++ [-1] := by
  obtain ⟨b, bs', rfl⟩ : ∃ b bs', bs = b :: bs' := by
    cases bs with
    | nil => exact absurd rfl hne
    | cons b bs => exact ⟨b, bs, rfl⟩
  obtain ⟨x, hx⟩ : ∃ x, b.header.line = '*' :: x := by
    have := (hbs b (by simp)).header.star
    cases hl : b.header.line with
    | nil => rw [hl] at this; simp at this
    | cons a x => rw [hl] at this; simp at this; exact ⟨x, by rw [this]⟩
  have hct : ((b :: bs').map EpochBlock.text).flatten ++ (e ++ tail) =
      '*' :: (x ++ '\n' :: linesText b.lines ++ ((bs'.map EpochBlock.text).flatten ++ (e ++ tail))) := by
    simp [EpochBlock.text, hx]
  obtain ⟨f, h1, h2, _, _, hg, hr, _⟩ := C61_open_partial junk0 hw hd hwk hmj (c := '*') (by decide)
    (x ++ '\n' :: linesText b.lines ++ ((bs'.map EpochBlock.text).flatten ++ (e ++ tail)))
  have hal : sp3Allocate f.numSats = .ok (List.replicate h.satellites {}) := by
    unfold sp3Allocate
    rw [h2.satellites, if_neg (by omega)]
    simp
  obtain ⟨outs, o1, o2, o3⟩ := C31_file junk hj fuel (errno := 0) (by decide) e tail hok heof htail (b :: bs') calls t0
    (List.replicate h.satellites {}) sr f.strm (by simp) hcalls (by simpa using hbs) hg (by rw [hr, hct])
  exact ⟨f, _, outs, by rw [hct]; exact h1, h2, hal, o1, o2, o3⟩

end Ggnss
