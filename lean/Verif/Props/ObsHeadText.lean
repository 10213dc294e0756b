import Verif.Spec.ObsHeadText
import Verif.Props.ObsSound
import Verif.Props.ObsLines
import Verif.Props.Sp3Sound
import Verif.Props.ObsRange
/-!
# C108: the epoch header of an observation file on arbitrary lines
-/
namespace Ggnss

/-- `strtol` on a text and its terminator. -/
theorem strtol_textThen (a tail : List Char) :
    (strtol (a ++ NUL :: tail) = none ∧ ∀ v, ¬ IntBegins a v) ∨
    (∃ v r, strtol (a ++ NUL :: tail) = some (v, r ++ NUL :: tail, false) ∧ IntThen a v r ∧ v ≤ 9223372036854775807 ∧ -9223372036854775808 ≤ v) ∨
    (∃ w r, strtol (a ++ NUL :: tail) = some (w, r, true) ∧ BeyondLong a) := by
  rcases strtol_text a tail with h | ⟨v, r, h, hb, h1, h2⟩ | h
  · exact Or.inl h
  · obtain ⟨r', rfl, ht⟩ := (strtol_then h).of_nul
    exact Or.inr (Or.inl ⟨v, r', h, ht, h1, h2⟩)
  · exact Or.inr (Or.inr h)

theorem IntThen.begins {t : List Char} {v : Int} {r : List Char} (h : IntThen t v r) : IntBegins t v := by
  obtain ⟨ws, sg, ds, h⟩ := h
  exact ⟨ws, sg, ds, r, h⟩

theorem IntThen.unique {t : List Char} {v w : Int} {r q : List Char} (hv : IntThen t v r) (hw : IntThen t w q) (h1 : v ≤ 9223372036854775807) (h2 : -9223372036854775808 ≤ v) :
    v = w ∧ r = q := by
  have e := hv.begins.unique hw.begins
  subst e
  refine ⟨rfl, ?_⟩
  have a := strtol_of_then hv
  have b := strtol_of_then hw
  have c1 : ¬ v > LONG_MAX := by unfold LONG_MAX; omega
  have c2 : ¬ v < LONG_MIN := by unfold LONG_MIN; omega
  rw [if_neg c1, if_neg c2] at a b
  rw [a] at b
  simpa using b

/-- The five numbers of the date, on any text. -/
theorem epochInts_text (tail : List Char) : ∀ (n : Nat) (a : List Char),
    (∀ vs rest, vs.length ≤ n → IntRun a vs rest → (∀ v ∈ vs, v ≤ 9223372036854775807 ∧ -9223372036854775808 ≤ v) → rest ≠ []) →
    (epochInts n (a ++ NUL :: tail) 0 = .ok none ∧ ∃ vs rest, vs.length < n ∧ IntRun a vs rest ∧ (∀ v ∈ vs, v ≤ 9223372036854775807 ∧ -9223372036854775808 ≤ v) ∧ NoLong rest) ∨
    ∃ vs rest, epochInts n (a ++ NUL :: tail) 0 = .ok (some (vs.map toInt32, rest ++ NUL :: tail)) ∧ vs.length = n ∧ IntRun a vs rest ∧
      ∀ v ∈ vs, v ≤ 9223372036854775807 ∧ -9223372036854775808 ≤ v := by
  intro n
  induction n with
  | zero => intro a _; exact Or.inr ⟨[], a, rfl, rfl, .nil _, by simp⟩
  | succ n ih =>
    intro a hin
    have hA : strtolA (a ++ NUL :: tail) = .ok (strtol (a ++ NUL :: tail)) := by unfold strtolA; rw [if_pos (by simp)]
    rcases strtol_textThen a tail with ⟨h, hno⟩ | ⟨v, r, h, hv, h1, h2⟩ | ⟨w, r, h, hb⟩
    · refine Or.inl ⟨?_, [], a, by simp, .nil _, by simp, Or.inl hno⟩
      rw [epochInts, hA, Res.bind_ok, h]; rfl
    · have hr : r ≠ [] := by
        have := hin [v] (r.drop 1) (by simp) (.cons _ _ _ _ _ hv (.nil _)) (by simpa using ⟨h1, h2⟩)
        intro hr; subst hr; exact this rfl
      have hd : (r ++ NUL :: tail).drop 1 = r.drop 1 ++ NUL :: tail :=
        List.drop_append_of_le_length (by cases r with | nil => exact absurd rfl hr | cons => simp)
      have hin' : ∀ vs rest, vs.length ≤ n → IntRun (r.drop 1) vs rest → (∀ v ∈ vs, v ≤ 9223372036854775807 ∧ -9223372036854775808 ≤ v) → rest ≠ [] := by
        intro vs rest hl hrun hb
        refine hin (v :: vs) rest (by simp; omega) (.cons _ _ _ _ _ hv hrun) ?_
        intro x hx
        rcases List.mem_cons.1 hx with rfl | hx
        · exact ⟨h1, h2⟩
        · exact hb x hx
      have hall : ∀ {vs : List Int}, (∀ v ∈ vs, v ≤ 9223372036854775807 ∧ -9223372036854775808 ≤ v) →
          ∀ x ∈ v :: vs, x ≤ 9223372036854775807 ∧ -9223372036854775808 ≤ x := by
        intro vs hb x hx
        rcases List.mem_cons.1 hx with rfl | hx
        · exact ⟨h1, h2⟩
        · exact hb x hx
      rcases ih (r.drop 1) hin' with ⟨he, vs, rest, hl, hrun, hb, hno⟩ | ⟨vs, rest, he, hl, hrun, hb⟩
      · refine Or.inl ⟨?_, v :: vs, rest, by simp; omega, .cons _ _ _ _ _ hv hrun, hall hb, hno⟩
        rw [epochInts, hA, Res.bind_ok, h]
        simp only [hd, he]
        rfl
      · refine Or.inr ⟨v :: vs, rest, ?_, by simp; omega, .cons _ _ _ _ _ hv hrun, hall hb⟩
        rw [epochInts, hA, Res.bind_ok, h]
        simp only [hd, he]
        rfl
    · refine Or.inl ⟨?_, [], a, by simp, .nil _, by simp, Or.inr hb⟩
      rw [epochInts, hA, Res.bind_ok, h]; rfl

/-- The numbers of the date leave no choice. -/
theorem IntRun.unique {a : List Char} {vs ws : List Int} {r q : List Char} (h : IntRun a vs r) (hb : ∀ v ∈ vs, v ≤ 9223372036854775807 ∧ -9223372036854775808 ≤ v)
    (h' : IntRun a ws q) (hl : vs.length = ws.length) : vs = ws ∧ r = q := by
  induction h generalizing ws with
  | nil t =>
    cases h' with
    | nil => exact ⟨rfl, rfl⟩
    | cons => simp at hl
  | cons t v r' vs rest hv _ ih =>
    cases h' with
    | nil => simp at hl
    | cons _ w q' ws _ hw hrun =>
      obtain ⟨rfl, rfl⟩ := hv.unique hw (hb v (by simp)).1 (hb v (by simp)).2
      obtain ⟨rfl, rfl⟩ := ih (fun x hx => hb x (by simp [hx])) hrun (by simpa using hl)
      exact ⟨rfl, rfl⟩

/-- Where no number stands the run of numbers ends. -/
theorem IntRun.stops {a : List Char} {vs ws : List Int} {r q : List Char} (h : IntRun a vs r) (hb : ∀ v ∈ vs, v ≤ 9223372036854775807 ∧ -9223372036854775808 ≤ v)
    (hno : NoLong r) (h' : IntRun a ws q) (hb' : ∀ v ∈ ws, v ≤ 9223372036854775807 ∧ -9223372036854775808 ≤ v) : ws.length ≤ vs.length := by
  induction h generalizing ws with
  | nil t =>
    cases h' with
    | nil => exact Nat.le_refl _
    | cons _ w q' ws _ hw hrun =>
      rcases hno with hno | ⟨x, hx, hx'⟩
      · exact absurd hw.begins (hno w)
      · have e := hx.unique hw.begins
        have := hb' w (by simp)
        omega
  | cons t v r' vs rest hv _ ih =>
    cases h' with
    | nil => simp
    | cons _ w q' ws _ hw hrun =>
      obtain ⟨rfl, rfl⟩ := hv.unique hw (hb v (by simp)).1 (hb v (by simp)).2
      have := ih (fun x hx => hb x (by simp [hx])) hno hrun (fun x hx => hb' x (by simp [hx]))
      simpa using this

/-- `strtod` on a text without a hexadecimal number, infinity or NaN and its terminator. -/
theorem strtod_plain {a : List Char} (tail : List Char) (hn : ¬ OddNumber a) : (strtod (a ++ NUL :: tail) = none ∧ ∀ v, ¬ DecBegins a v) ∨
    ∃ v r, DecBegins a v ∧ ((strtod (a ++ NUL :: tail) = some (v, r, false) ∧ FitsDouble v) ∨ (strtod (a ++ NUL :: tail) = some (v, r, true) ∧ ¬ FitsDouble v)) := by
  rcases strtod_text (a ++ NUL :: tail) with h | ⟨h, hno⟩ | ⟨v, r, h, hd⟩
  · exact absurd h.of_nul hn
  · exact Or.inl ⟨h, fun v hv => hno v (hv.nul _)⟩
  · have hda : DecBegins a v := (RealBegins.of_nul (Or.inl hd)).resolve_right hn
    refine Or.inr ⟨v, r, hda, ?_⟩
    by_cases hf : FitsDouble v
    · rw [dblErange_fits hf] at h; exact Or.inl ⟨h, hf⟩
    · rw [(dblErange_iff v).2 hf] at h; exact Or.inr ⟨h, hf⟩

theorem strtol_rest_le {t : List Char} {v : Int} {r : List Char} {er : Bool} (h : strtol t = some (v, r, er)) : r.length ≤ t.length := by
  unfold strtol at h
  simp only at h
  have e1 : ((takeSign (t.dropWhile isSpace)).2.dropWhile Char.isDigit).length ≤ t.length := by
    have h1 := List.length_dropWhile_le Char.isDigit (takeSign (t.dropWhile isSpace)).2
    obtain ⟨sg, h2, _⟩ := takeSign_split (t.dropWhile isSpace)
    have h3 := congrArg List.length h2
    have h4 := List.length_dropWhile_le isSpace t
    simp only [List.length_append] at h3
    omega
  generalize (takeSign (t.dropWhile isSpace)).2.dropWhile Char.isDigit = R at h e1
  generalize (if (takeSign (t.dropWhile isSpace)).1 = true then -(digitsVal ((takeSign (t.dropWhile isSpace)).2.takeWhile Char.isDigit) : Int)
    else (digitsVal ((takeSign (t.dropWhile isSpace)).2.takeWhile Char.isDigit) : Int)) = V at h
  split at h
  · cases h
  · split at h
    · cases h; exact e1
    · split at h <;> (cases h; exact e1)

/-- What becomes of a header line, whatever it looks like. -/
theorem resolveEpoch_text {mjdOf : Int → Int → Int → Res Int} {l : List Char} (hl : NUL ∉ l) (hin : DateInPlace l) (hpl : PlainReals l) (tail : List Char) :
    (∃ k e, resolveEpoch mjdOf (l ++ NUL :: tail) 0 = .ok (.inl (k, e)) ∧ HeaderFails mjdOf l k) ∨
    (∃ h, resolveEpoch mjdOf (l ++ NUL :: tail) 0 = .ok (.inr h) ∧ HeaderGives mjdOf l h) ∨
    (∃ y mo d hh mi rest, l.head? = some '>' ∧ 35 ≤ l.length ∧ DateIn l [y, mo, d, hh, mi] rest ∧
      (∀ day, mjdOf (toInt32 y) (toInt32 mo) (toInt32 d) ≠ .ok day) ∧ (∀ x, resolveEpoch mjdOf (l ++ NUL :: tail) 0 ≠ .ok x) ∧
      ∀ e, mjdOf (toInt32 y) (toInt32 mo) (toInt32 d) = .throw e → resolveEpoch mjdOf (l ++ NUL :: tail) 0 = .terminate) := by
  have h0 : ∃ c0, getAt (l ++ NUL :: tail) 0 = .ok c0 ∧ (l.head? = some '>' ↔ c0 = '>') := by
    cases l with
    | nil => exact ⟨NUL, rfl, by decide⟩
    | cons a as => exact ⟨a, rfl, by simp⟩
  obtain ⟨c0, hc0, hmark⟩ := h0
  by_cases hbad : l.head? ≠ some '>' ∨ l.length < 35
  · refine Or.inl ⟨1, 0, ?_, .mark hbad⟩
    unfold resolveEpoch
    rw [cstrOf_append hl, Res.bind_ok, hc0, Res.bind_ok, if_pos (by rcases hbad with h | h; exact Or.inl (fun e => h (hmark.2 e)); exact Or.inr h)]
    rfl
  push Not at hbad
  obtain ⟨hm, h35⟩ := hbad
  have hstart : resolveEpoch mjdOf (l ++ NUL :: tail) 0 = resolveEpoch mjdOf (l ++ NUL :: tail) 0 := rfl
  conv at hstart => rhs; unfold resolveEpoch
  rw [cstrOf_append hl, Res.bind_ok, hc0, Res.bind_ok, if_neg (by push Not; exact ⟨hmark.1 hm, h35⟩), List.drop_append_of_le_length (by omega)] at hstart
  have hne : ∀ vs rest, vs.length ≤ 5 → IntRun (l.drop 2) vs rest → (∀ v ∈ vs, v ≤ 9223372036854775807 ∧ -9223372036854775808 ≤ v) → rest ≠ [] := by
    intro vs rest h1 h2 h3 h4
    have := hin vs rest h1 ⟨h2, h3⟩
    subst h4
    simp at this
    omega
  rcases epochInts_text tail 5 (l.drop 2) hne with ⟨he, vs, rest, hlt, hrun, hb, hno⟩ | ⟨vs, rest, he, hlen, hrun, hb⟩
  · refine Or.inl ⟨2, 0, ?_, .date vs rest hm h35 hlt ⟨hrun, hb⟩ hno⟩
    rw [hstart, he]
    rfl
  obtain ⟨y, mo, d, hh, mi, rfl⟩ : ∃ a1 a2 a3 a4 a5, vs = [a1, a2, a3, a4, a5] := by
    rcases vs with _ | ⟨a1, _ | ⟨a2, _ | ⟨a3, _ | ⟨a4, _ | ⟨a5, _ | ⟨a6, vs⟩⟩⟩⟩⟩⟩ <;> simp at hlen
    exact ⟨a1, a2, a3, a4, a5, rfl⟩
  have hdate : DateIn l [y, mo, d, hh, mi] rest := ⟨hrun, hb⟩
  rw [he] at hstart
  simp only [Res.bind_ok, List.map_cons, List.map_nil] at hstart
  by_cases hday : ∃ day, mjdOf (toInt32 y) (toInt32 mo) (toInt32 d) = .ok day
  swap
  · push Not at hday
    refine Or.inr (Or.inr ⟨y, mo, d, hh, mi, rest, hm, h35, hdate, hday, ?_, ?_⟩)
    · intro x hx
      rw [hstart] at hx
      obtain ⟨day, hd, _⟩ := Res.bind_eq_ok.1 (Res.noexcept_eq_ok.1 hx)
      exact hday day hd
    · intro e hthrow
      rw [hstart, hthrow]
      rfl
  obtain ⟨day, hday⟩ := hday
  rw [hday, Res.bind_ok] at hstart
  have hA : strtodA (rest ++ NUL :: tail) = .ok (strtod (rest ++ NUL :: tail)) := by unfold strtodA; rw [if_pos (by simp)]
  rw [hA, Res.bind_ok] at hstart
  have hplace := hin _ _ (Nat.le_refl _) hdate
  rcases strtod_plain tail (hpl.1 _ _ rfl hdate) with ⟨hs, hnos⟩ | ⟨s, r, hs1, ⟨hs, hfit⟩ | ⟨hs, hfit⟩⟩
  · refine Or.inl ⟨3, 0, ?_, .seconds y mo d hh mi rest day hm h35 hdate hday (fun v hv => absurd hv (hnos v))⟩
    rw [hstart, hs, if_pos (by simp)]
    rfl
  swap
  · refine Or.inl ⟨3, 0, ?_, .seconds y mo d hh mi rest day hm h35 hdate hday (fun v hv => by rw [hv.unique hs1]; exact hfit)⟩
    rw [hstart, hs, if_pos (by simp [strtodErr])]
    rfl
  rw [hs, if_neg (by simp [strtodErr])] at hstart
  have hc31 : getAt (l ++ NUL :: tail) 31 = .ok l[31] := by
    rw [getAt_lt (by simp; omega), List.getElem_append_left (by omega)]
  have hB : strtolA ((l ++ NUL :: tail).drop 32) = .ok (strtol (l.drop 32 ++ NUL :: tail)) := by
    rw [List.drop_append_of_le_length (by omega)]; unfold strtolA; rw [if_pos (by simp)]
  rw [hc31, Res.bind_ok, hB, Res.bind_ok] at hstart
  rw [List.drop_append_of_le_length (show 32 ≤ l.length by omega)] at hstart
  -- where the number of satellites ends
  have hendn : ∀ p, strtol (l.drop 32 ++ NUL :: tail) = p → (rest ++ NUL :: tail).length ≠ (strtolEnd (l.drop 32 ++ NUL :: tail) p).length := by
    intro p hp
    have hle : (strtolEnd (l.drop 32 ++ NUL :: tail) p).length ≤ (l.drop 32 ++ NUL :: tail).length := by
      subst hp
      cases hq : strtol (l.drop 32 ++ NUL :: tail) with
      | none => exact Nat.le_refl _
      | some x =>
        obtain ⟨w, q, er⟩ := x
        exact strtol_rest_le hq
    simp only [List.length_append, List.length_drop, List.length_cons] at hle ⊢
    omega
  have hcases : (strtolErr (strtol (l.drop 32 ++ NUL :: tail)) = true ∧ BeyondLong (l.drop 32)) ∨
      (strtolErr (strtol (l.drop 32 ++ NUL :: tail)) = false ∧ ¬ BeyondLong (l.drop 32) ∧
        ((∃ n, LongBegins (l.drop 32) n ∧ strtolVal (strtol (l.drop 32 ++ NUL :: tail)) = n) ∨
          ((∀ n, ¬ IntBegins (l.drop 32) n) ∧ strtolVal (strtol (l.drop 32 ++ NUL :: tail)) = 0))) := by
    rcases strtol_text (l.drop 32) tail with ⟨h, hno⟩ | ⟨v, q, h, hv, h1, h2⟩ | ⟨w, q, h, hb⟩
    · refine Or.inr ⟨by rw [h]; rfl, fun ⟨v, hv, _⟩ => hno v hv, Or.inr ⟨hno, by rw [h]; rfl⟩⟩
    · refine Or.inr ⟨by rw [h]; rfl, fun ⟨w, hw, hb⟩ => ?_, Or.inl ⟨v, ⟨hv, h1, h2⟩, by rw [h]; rfl⟩⟩
      have := hw.unique hv
      omega
    · exact Or.inl ⟨by rw [h]; rfl, hb⟩
  rcases hcases with ⟨herr, hbey⟩ | ⟨herr, hbey, hval⟩
  · refine Or.inl ⟨4, 0, ?_, .count y mo d hh mi s rest day hm h35 hdate hday hs1 hfit hbey⟩
    rw [hstart, herr, if_pos (by simp [ERANGE])]
    rfl
  rw [herr, if_neg (by
    push Not
    exact ⟨by simp, hendn _ rfl⟩)] at hstart
  have hcount : (∃ n, LongBegins (l.drop 32) n ∧ toInt32 (strtolVal (strtol (l.drop 32 ++ NUL :: tail))) = toInt32 n) ∨
      ((∀ n, ¬ IntBegins (l.drop 32) n) ∧ toInt32 (strtolVal (strtol (l.drop 32 ++ NUL :: tail))) = 0) := by
    rcases hval with ⟨n, h1, h2⟩ | ⟨h1, h2⟩
    · exact Or.inl ⟨n, h1, by rw [h2]⟩
    · exact Or.inr ⟨h1, by rw [h2]; rfl⟩
  have hsec : ((toInt32 hh : Rat) * 60 + toInt32 mi) * 60 + s = toInt32 hh * 3600 + toInt32 mi * 60 + s := by ring
  have gives : ∀ ck, ((l.length ≤ 41 ∧ ck = none) ∨ (41 < l.length ∧ (∀ c ∈ l.drop 41, c = ' ') ∧ ck = some 0) ∨
      (ClockThere l ∧ ∃ v, DecBegins (l.drop 41) v ∧ FitsDouble v ∧ ck = some v) ∨ (ClockThere l ∧ (∀ v, ¬ DecBegins (l.drop 41) v) ∧ ck = some 0)) →
      HeaderGives mjdOf l ⟨day, ((toInt32 hh : Rat) * 60 + toInt32 mi) * 60 + s, scharVal l[31] - 48,
        toInt32 (strtolVal (strtol (l.drop 32 ++ NUL :: tail))), ck⟩ := by
    intro ck hck
    exact ⟨hm, h35, ⟨y, mo, d, hh, mi, s, rest, hdate, hs1, hfit, hday, hsec⟩, ⟨l[31], List.getElem?_eq_getElem (by omega), rfl⟩, hcount, hck⟩
  by_cases h41 : l.length > 41
  swap
  · rw [if_neg h41] at hstart
    exact Or.inr (Or.inl ⟨_, hstart, gives none (Or.inl ⟨by omega, rfl⟩)⟩)
  rw [if_pos h41, List.drop_append_of_le_length (show 41 ≤ l.length by omega)] at hstart
  have hbl := C07_is_empty (l.drop 41) tail (fun hn => hl (List.mem_of_mem_drop hn)) none
  have hC : strtodA (l.drop 41 ++ NUL :: tail) = .ok (strtod (l.drop 41 ++ NUL :: tail)) := by unfold strtodA; rw [if_pos (by simp)]
  rw [hbl, Res.bind_ok, hC, Res.bind_ok] at hstart
  have hcons : considered (l.drop 41) none = l.drop 41 := rfl
  rw [hcons] at hstart
  have hendc : (rest ++ NUL :: tail).length ≠ (strtodEnd (l.drop 41 ++ NUL :: tail) (strtod (l.drop 41 ++ NUL :: tail))).length := by
    have := strtodEnd_le (l := l.drop 41 ++ NUL :: tail) _ rfl
    simp only [List.length_append, List.length_drop, List.length_cons] at this ⊢
    omega
  by_cases hall : ∀ c ∈ l.drop 41, c = ' '
  · rw [decide_eq_true hall] at hstart
    simp only [if_true] at hstart
    rw [if_neg (by
      push Not
      exact ⟨by simp, hendn _ rfl⟩)] at hstart
    exact Or.inr (Or.inl ⟨_, hstart, gives _ (Or.inr (Or.inl ⟨h41, hall, rfl⟩))⟩)
  · rw [decide_eq_false hall] at hstart
    simp only [Bool.false_eq_true, if_false, true_and] at hstart
    have hct : ClockThere l := ⟨h41, by push Not at hall; exact hall⟩
    rcases strtod_plain tail hpl.2 with ⟨hq, hnoq⟩ | ⟨v, q, hv, ⟨hq, hf⟩ | ⟨hq, hf⟩⟩
    · rw [if_neg (by push Not; exact ⟨by rw [hq]; simp [strtodErr], hendc⟩)] at hstart
      refine Or.inr (Or.inl ⟨_, hstart, gives _ (Or.inr (Or.inr (Or.inr ⟨hct, hnoq, ?_⟩)))⟩)
      rw [hq]; rfl
    · rw [if_neg (by push Not; exact ⟨by rw [hq]; simp [strtodErr], hendc⟩)] at hstart
      refine Or.inr (Or.inl ⟨_, hstart, gives _ (Or.inr (Or.inr (Or.inl ⟨hct, v, hv, hf, ?_⟩)))⟩)
      rw [hq]; rfl
    · rw [if_pos (Or.inl (by rw [hq]; rfl))] at hstart
      exact Or.inl ⟨5, 0, hstart, .clock y mo d hh mi s rest day v hm h35 hdate hday hs1 hfit hbey hct hv hf⟩

theorem DateIn.unique {l : List Char} {vs ws : List Int} {r q : List Char} (h : DateIn l vs r) (h' : DateIn l ws q) (hl : vs.length = ws.length) : vs = ws ∧ r = q :=
  h.1.unique h.2 h'.1 hl

/-- The line gives one thing only. -/
theorem HeaderGives.unique {mjdOf : Int → Int → Int → Res Int} {l : List Char} {g h : EpochHead} (hg : HeaderGives mjdOf l g) (hh : HeaderGives mjdOf l h) : g = h := by
  obtain ⟨_, _, ⟨y, mo, d, hr, mi, s, rest, a1, a2, a3, a4, a5⟩, ⟨c, a6, a7⟩, a8, a9⟩ := hg
  obtain ⟨_, _, ⟨y', mo', d', hr', mi', s', rest', b1, b2, b3, b4, b5⟩, ⟨c', b6, b7⟩, b8, b9⟩ := hh
  obtain ⟨e1, rfl⟩ := a1.unique b1 rfl
  simp only [List.cons.injEq, and_true] at e1
  obtain ⟨rfl, rfl, rfl, rfl, rfl⟩ := e1
  have es := a2.unique b2
  subst es
  rw [a6] at b6; cases b6
  have m : g.mjd = h.mjd := by rw [a4] at b4; simpa using b4
  have n : g.numSats = h.numSats := by
    rcases a8 with ⟨x, x1, x2⟩ | ⟨x1, x2⟩ <;> rcases b8 with ⟨z, z1, z2⟩ | ⟨z1, z2⟩
    · rw [x2, z2, x1.1.unique z1.1]
    · exact absurd x1.1 (z1 x)
    · exact absurd z1.1 (x1 z)
    · rw [x2, z2]
  have k : g.clock = h.clock := by
    have nb : ClockThere l → ¬ ∀ c ∈ l.drop 41, c = ' ' := fun ⟨_, c, hc, hn⟩ hall => hn (hall c hc)
    rcases a9 with ⟨x1, x2⟩ | ⟨x1, x2, x3⟩ | ⟨x1, v, x2, x3, x4⟩ | ⟨x1, x2, x3⟩ <;>
      rcases b9 with ⟨z1, z2⟩ | ⟨z1, z2, z3⟩ | ⟨z1, w, z2, z3, z4⟩ | ⟨z1, z2, z3⟩
    · rw [x2, z2]
    · omega
    · exact absurd z1.1 (by omega)
    · exact absurd z1.1 (by omega)
    · omega
    · rw [x3, z3]
    · exact absurd x2 (nb z1)
    · exact absurd x2 (nb z1)
    · exact absurd x1.1 (by omega)
    · exact absurd z2 (nb x1)
    · rw [x4, z4, x2.unique z2]
    · exact absurd x2 (z2 v)
    · exact absurd x1.1 (by omega)
    · exact absurd z2 (nb x1)
    · exact absurd z2 (x2 w)
    · rw [x3, z3]
  obtain ⟨g1, g2, g3, g4, g5⟩ := g
  obtain ⟨h1, h2, h3, h4, h5⟩ := h
  simp only at m n k a5 b5 a7 b7
  subst m n k a5 b5 a7 b7
  rfl

/-- A complete date excludes an unreadable one. -/
theorem DateIn.not_short {l : List Char} {y mo d hh mi : Int} {r q : List Char} {vs : List Int} (h : DateIn l [y, mo, d, hh, mi] r) (hv : vs.length < 5) (h' : DateIn l vs q)
    (hno : NoLong q) : False := by
  have := h'.1.stops h'.2 hno h.1 h.2
  simp at this
  omega

/-- What gives a header is not refused. -/
theorem HeaderGives.not_fails {mjdOf : Int → Int → Int → Res Int} {l : List Char} {g : EpochHead} (hg : HeaderGives mjdOf l g) {k : Int} (hf : HeaderFails mjdOf l k) : False := by
  obtain ⟨m1, m2, ⟨y, mo, d, hr, mi, s, rest, a1, a2, a3, a4, a5⟩, ⟨c, a6, a7⟩, a8, a9⟩ := hg
  cases hf with
  | mark h => rcases h with h | h; exact h m1; omega
  | date vs q _ _ h1 h2 h3 => exact a1.not_short h1 h2 h3
  | seconds y' mo' d' hh' mi' q day _ _ h1 h2 h3 =>
    obtain ⟨_, rfl⟩ := a1.unique h1 rfl
    exact h3 s a2 a3
  | count y' mo' d' hh' mi' s' q day _ _ h1 h2 h3 h4 h5 =>
    obtain ⟨v, hv, hb⟩ := h5
    rcases a8 with ⟨x, ⟨x1, x2, x3⟩, _⟩ | ⟨x1, _⟩
    · have := hv.unique x1; omega
    · exact x1 v hv
  | clock y' mo' d' hh' mi' s' q day v _ _ h1 h2 h3 h4 h5 h6 h7 h8 =>
    rcases a9 with ⟨x1, x2⟩ | ⟨x1, x2, x3⟩ | ⟨x1, w, x2, x3, x4⟩ | ⟨x1, x2, x3⟩
    · exact absurd h6.1 (by omega)
    · obtain ⟨_, c, hc, hn⟩ := h6; exact hn (x2 c hc)
    · exact h8 (by rw [h7.unique x2]; exact x3)
    · exact x2 v h7

/-- The line shows one first defect only. -/
theorem HeaderFails.unique {mjdOf : Int → Int → Int → Res Int} {l : List Char} {j k : Int} (hj : HeaderFails mjdOf l j) (hk : HeaderFails mjdOf l k) : j = k := by
  have nm : l.head? = some '>' → 35 ≤ l.length → (l.head? ≠ some '>' ∨ l.length < 35) → False := by
    intro h1 h2 h3; rcases h3 with h | h; exact h h1; omega
  cases hj with
  | mark h =>
    cases hk with
    | mark => rfl
    | date _ _ a b => exact (nm a b h).elim
    | seconds _ _ _ _ _ _ _ a b => exact (nm a b h).elim
    | count _ _ _ _ _ _ _ _ a b => exact (nm a b h).elim
    | clock _ _ _ _ _ _ _ _ _ a b => exact (nm a b h).elim
  | date vs q a b h1 h2 h3 =>
    cases hk with
    | mark h => exact (nm a b h).elim
    | date => rfl
    | seconds _ _ _ _ _ _ _ _ _ g1 => exact (g1.not_short h1 h2 h3).elim
    | count _ _ _ _ _ _ _ _ _ _ g1 => exact (g1.not_short h1 h2 h3).elim
    | clock _ _ _ _ _ _ _ _ _ _ _ g1 => exact (g1.not_short h1 h2 h3).elim
  | seconds _ _ _ _ _ _ _ a b h1 h2 h3 =>
    cases hk with
    | mark h => exact (nm a b h).elim
    | date vs q _ _ g1 g2 g3 => exact (h1.not_short g1 g2 g3).elim
    | seconds => rfl
    | count _ _ _ _ _ s' _ _ _ _ g1 g2 g3 g4 =>
      obtain ⟨_, rfl⟩ := h1.unique g1 rfl
      exact (h3 _ g3 g4).elim
    | clock _ _ _ _ _ s' _ _ _ _ _ g1 g2 g3 g4 =>
      obtain ⟨_, rfl⟩ := h1.unique g1 rfl
      exact (h3 _ g3 g4).elim
  | count _ _ _ _ _ s' _ _ a b h1 h2 h3 h4 h5 =>
    cases hk with
    | mark h => exact (nm a b h).elim
    | date vs q _ _ g1 g2 g3 => exact (h1.not_short g1 g2 g3).elim
    | seconds _ _ _ _ _ _ _ _ _ g1 g2 g3 =>
      obtain ⟨_, rfl⟩ := h1.unique g1 rfl
      exact (g3 _ h3 h4).elim
    | count => rfl
    | clock _ _ _ _ _ _ _ _ _ _ _ _ _ _ _ g5 => exact (g5 h5).elim
  | clock _ _ _ _ _ s' _ _ _ a b h1 h2 h3 h4 h5 h6 =>
    cases hk with
    | mark h => exact (nm a b h).elim
    | date vs q _ _ g1 g2 g3 => exact (h1.not_short g1 g2 g3).elim
    | seconds _ _ _ _ _ _ _ _ _ g1 g2 g3 =>
      obtain ⟨_, rfl⟩ := h1.unique g1 rfl
      exact (g3 _ h3 h4).elim
    | count _ _ _ _ _ _ _ _ _ _ _ _ _ _ g5 => exact (h5 g5).elim
    | clock => rfl

/-- A date the calendar does not know excludes everything else. -/
theorem no_day {mjdOf : Int → Int → Int → Res Int} {l : List Char} {y mo d hh mi : Int} {rest : List Char} (hm : l.head? = some '>') (h35 : 35 ≤ l.length)
    (hd : DateIn l [y, mo, d, hh, mi] rest) (hno : ∀ day, mjdOf (toInt32 y) (toInt32 mo) (toInt32 d) ≠ .ok day) :
    (∀ h, ¬ HeaderGives mjdOf l h) ∧ ∀ k, ¬ HeaderFails mjdOf l k := by
  have key : ∀ {y' mo' d' hh' mi' : Int} {q : List Char} {day : Int}, DateIn l [y', mo', d', hh', mi'] q → mjdOf (toInt32 y') (toInt32 mo') (toInt32 d') = .ok day → False := by
    intro y' mo' d' hh' mi' q day h1 h2
    obtain ⟨e1, rfl⟩ := hd.unique h1 rfl
    simp only [List.cons.injEq, and_true] at e1
    obtain ⟨rfl, rfl, rfl, rfl, rfl⟩ := e1
    exact hno day h2
  constructor
  · intro h hg
    obtain ⟨y', mo', d', hh', mi', s, q, h1, _, _, h2, _⟩ := hg.time
    exact key h1 h2
  · intro k hf
    cases hf with
    | mark h => rcases h with h | h; exact h hm; omega
    | date vs q _ _ h1 h2 h3 => exact hd.not_short h1 h2 h3
    | seconds _ _ _ _ _ _ _ _ _ h1 h2 => exact key h1 h2
    | count _ _ _ _ _ _ _ _ _ _ h1 h2 => exact key h1 h2
    | clock _ _ _ _ _ _ _ _ _ _ _ h1 h2 => exact key h1 h2

/-- The header is accepted exactly when the line gives one, and refused with a status exactly when the line shows that defect. -/
theorem resolveEpoch_iff {mjdOf : Int → Int → Int → Res Int} {l : List Char} (hl : NUL ∉ l) (hin : DateInPlace l) (hpl : PlainReals l) (tail : List Char) :
    (∀ h, resolveEpoch mjdOf (l ++ NUL :: tail) 0 = .ok (.inr h) ↔ HeaderGives mjdOf l h) ∧
    (∀ k, (∃ e, resolveEpoch mjdOf (l ++ NUL :: tail) 0 = .ok (.inl (k, e))) ↔ HeaderFails mjdOf l k) := by
  rcases resolveEpoch_text (mjdOf := mjdOf) hl hin hpl tail with ⟨k, e, hr, hf⟩ | ⟨h, hr, hg⟩ | ⟨y, mo, d, hh, mi, rest, hm, h35, hd, hno, hr, _⟩
  · refine ⟨fun h => ⟨fun hx => ?_, fun hx => (hx.not_fails hf).elim⟩, fun j => ⟨?_, ?_⟩⟩
    · rw [hr] at hx; cases hx
    · rintro ⟨e', hx⟩; rw [hr] at hx; cases hx; exact hf
    · intro hx; rw [hx.unique hf]; exact ⟨e, hr⟩
  · refine ⟨fun g => ⟨fun hx => ?_, fun hx => ?_⟩, fun j => ⟨?_, fun hx => (hg.not_fails hx).elim⟩⟩
    · rw [hr] at hx; cases hx; exact hg
    · rw [hx.unique hg]; exact hr
    · rintro ⟨e', hx⟩; rw [hr] at hx; cases hx
  · obtain ⟨n1, n2⟩ := no_day hm h35 hd hno
    exact ⟨fun h => ⟨fun hx => (hr _ hx).elim, fun hx => (n1 h hx).elim⟩, fun j => ⟨fun ⟨e, hx⟩ => (hr _ hx).elim, fun hx => (n2 j hx).elim⟩⟩

/-- The first step of reading an epoch: the header line. -/
theorem readNextEpoch_step (mjdOf : Int → Int → Int → Res Int) (raw0 : RawRnxObs) (mmap : ReadMap) (ov : List SatVals) {buf l0 t : List Char}
    (hfit : LineFits (buf.length - 1) l0) {s : Stream} (hg : s.good = true) (hr : s.rest = linesText [l0] ++ t) :
    readNextEpoch mjdOf raw0 mmap ov buf s 0 = (resolveEpoch mjdOf (fillLine buf l0) 0 >>= fun x =>
      match x with
      | .inl e => pure ⟨20 + e.1, 0, none, ov, fillLine buf l0, s.past [l0], e.2⟩
      | .inr h => do
        let r ← collectEpoch raw0 mmap h.numSats ov (fillLine buf l0) (s.past [l0]) 0
        if r.status ≠ 0 then pure ⟨30 + r.status, r.sats, some h, r.satobs, r.buf, r.strm, r.errno⟩
        else pure (epochEnd r.sats (some h) r.satobs r.buf r.strm r.errno)) := by
  obtain ⟨f1, f2, f3⟩ := hfit
  have hgl := getline_past (n := buf.length) hg (ls := []) (by simpa using hr) f1 f3
  obtain ⟨c, hpk⟩ : ∃ c, s.peek = (some c, s) := by
    cases hc : s.rest with
    | nil => rw [hr, linesText_cons] at hc; simp at hc
    | cons c q => exact ⟨c, Stream.peek_cons hg hc⟩
  unfold readNextEpoch
  rw [hpk]
  simp only [hgl]
  rfl

/-- **C108** (refused).  Reading an epoch whose header line `l0` is arbitrary reports 21, .., 25, nothing having been touched and exactly that line
consumed, exactly when the line shows the defect with that number. -/
theorem C108_refused {mjdOf : Int → Int → Int → Res Int} {raw0 : RawRnxObs} {mmap : ReadMap} {ov : List SatVals} {buf l0 t : List Char}
    (hfit : LineFits (buf.length - 1) l0) (hin : DateInPlace l0) (hpl : PlainReals l0) {s : Stream} (hg : s.good = true) (hr : s.rest = linesText [l0] ++ t) (k : Int) :
    HeaderFails mjdOf l0 k ↔ ∃ o, readNextEpoch mjdOf raw0 mmap ov buf s 0 = .ok o ∧ o.status = 20 + k ∧ o.head = none ∧ o.sats = 0 ∧ o.satobs = ov ∧ o.strm = s.past [l0] := by
  rw [readNextEpoch_step mjdOf raw0 mmap ov hfit hg hr]
  have hiff := resolveEpoch_iff (mjdOf := mjdOf) hfit.2.1 hin hpl (buf.drop (l0.length + 1))
  rw [← hiff.2 k]
  constructor
  · rintro ⟨e, he⟩
    refine ⟨⟨20 + k, 0, none, ov, fillLine buf l0, s.past [l0], e⟩, ?_, rfl, rfl, rfl, rfl, rfl⟩
    have he' : resolveEpoch mjdOf (fillLine buf l0) 0 = .ok (.inl (k, e)) := he
    rw [he']; rfl
  · rintro ⟨o, ho, h1, h2, _⟩
    obtain ⟨x, hx, ho⟩ := Res.bind_eq_ok.1 ho
    cases x with
    | inl e =>
      cases ho
      obtain ⟨a, b⟩ := e
      simp only at h1
      have : a = k := by omega
      subst this
      exact ⟨b, hx⟩
    | inr h =>
      simp only at ho
      obtain ⟨r, _, ho⟩ := Res.bind_eq_ok.1 ho
      split at ho
      · cases ho; cases h2
      · cases ho; unfold epochEnd at h2; split at h2 <;> cases h2

/-- **C108** (accepted).  The date, flag, number of satellites and clock offset reported are those the header line gives, and only then is an epoch reported. -/
theorem C108_accepted {mjdOf : Int → Int → Int → Res Int} {raw0 : RawRnxObs} {mmap : ReadMap} {ov : List SatVals} {buf l0 t : List Char}
    (hfit : LineFits (buf.length - 1) l0) (hin : DateInPlace l0) (hpl : PlainReals l0) {s : Stream} (hg : s.good = true) (hr : s.rest = linesText [l0] ++ t)
    {o : EpochOut} (ho : readNextEpoch mjdOf raw0 mmap ov buf s 0 = .ok o) (h : EpochHead) :
    o.head = some h ↔ HeaderGives mjdOf l0 h := by
  rw [readNextEpoch_step mjdOf raw0 mmap ov hfit hg hr] at ho
  have hiff := resolveEpoch_iff (mjdOf := mjdOf) hfit.2.1 hin hpl (buf.drop (l0.length + 1))
  obtain ⟨x, hx, ho⟩ := Res.bind_eq_ok.1 ho
  rw [← hiff.1 h]
  have hx' : resolveEpoch mjdOf (l0 ++ NUL :: buf.drop (l0.length + 1)) 0 = .ok x := hx
  rw [hx']
  cases x with
  | inl e => cases ho; constructor <;> intro hc <;> cases hc
  | inr g =>
    simp only at ho
    obtain ⟨r, _, ho⟩ := Res.bind_eq_ok.1 ho
    have hh : o.head = some g := by
      split at ho
      · cases ho; rfl
      · cases ho; unfold epochEnd; split <;> rfl
    rw [hh]
    constructor <;> (intro hc; cases hc; rfl)

/-- **C108** (one of the three).  A header line is refused for a defect, gives a header, or has a date at which the calendar function does not return; an
exception of the calendar function ends the process (the function that reads the line is `noexcept`). -/
theorem C108_complete {mjdOf : Int → Int → Int → Res Int} {raw0 : RawRnxObs} {mmap : ReadMap} {ov : List SatVals} {buf l0 t : List Char}
    (hfit : LineFits (buf.length - 1) l0) (hin : DateInPlace l0) (hpl : PlainReals l0) {s : Stream} (hg : s.good = true) (hr : s.rest = linesText [l0] ++ t) :
    (∃ k, HeaderFails mjdOf l0 k) ∨ (∃ h, HeaderGives mjdOf l0 h) ∨
    ∃ y mo d hh mi rest, l0.head? = some '>' ∧ 35 ≤ l0.length ∧ DateIn l0 [y, mo, d, hh, mi] rest ∧ (∀ day, mjdOf (toInt32 y) (toInt32 mo) (toInt32 d) ≠ .ok day) ∧
      ∀ e, mjdOf (toInt32 y) (toInt32 mo) (toInt32 d) = .throw e → readNextEpoch mjdOf raw0 mmap ov buf s 0 = .terminate := by
  rw [readNextEpoch_step mjdOf raw0 mmap ov hfit hg hr]
  rcases resolveEpoch_text (mjdOf := mjdOf) hfit.2.1 hin hpl (buf.drop (l0.length + 1)) with ⟨k, e, _, hf⟩ | ⟨h, _, hgv⟩ | ⟨y, mo, d, hh, mi, rest, hm, h35, hd, hno, _, hterm⟩
  · exact Or.inl ⟨k, hf⟩
  · exact Or.inr (Or.inl ⟨h, hgv⟩)
  · refine Or.inr (Or.inr ⟨y, mo, d, hh, mi, rest, hm, h35, hd, hno, fun e he => ?_⟩)
    have ht : resolveEpoch mjdOf (fillLine buf l0) 0 = .terminate := hterm e he
    rw [ht]; rfl

end Ggnss
