import Verif.Model.Antenna
import Verif.Lemmas.Base
import Mathlib.Tactic.Tauto
/-!
# C10 – C14: receiver and satellite antennas
-/
namespace Ggnss

/-! ## Specification -/

/-- Blank padding (and cutting) to a fixed width. -/
def padTo (n : Nat) (s : List Char) : List Char := (s ++ List.replicate n ' ').take n

/-- The 20 chars "model + radome" the API promises to store: texts of 20 chars or more are cut to
20; shorter ones get 16 model columns and the radome NONE; the default is blank. -/
def specModel : AntCtor → List Char
  | .default => List.replicate 20 ' '
  | .fromCStr c => if 20 ≤ c.length then c.take 20 else padTo 16 c ++ c!"NONE"

/-- The text of the whole record: model, then the last serial set (padded to 20), if any. -/
def specText (k : AntCtor) (serials : List (List Char)) : List Char :=
  specModel k ++ (match serials.getLast? with | none => [] | some s => padTo 20 s)

/-- A serial string that contains something (among the 20 chars that count). -/
def serialNonBlank (s : List Char) : Prop := ∃ c ∈ s.take 20, c ≠ ' '

instance (s : List Char) : Decidable (serialNonBlank s) :=
  inferInstanceAs (Decidable (∃ c ∈ s.take 20, c ≠ ' '))

/-- The record has a serial: one was set and the last one set is not blank. -/
def specHasSerial (serials : List (List Char)) : Prop :=
  ∃ s, serials.getLast? = some s ∧ serialNonBlank s

/-- Arguments the API can be given: C strings. -/
def ctorOk : AntCtor → Prop
  | .default => True
  | .fromCStr c => IsCStr c

/-! ## Helper lemmas -/

theorem padTo_length (n : Nat) (s : List Char) : (padTo n s).length = n := by
  simp [padTo]

theorem padTo_of_ge {n : Nat} {s : List Char} (h : n ≤ s.length) : padTo n s = s.take n := by
  simp [padTo, List.take_append_of_le_length h]

theorem padTo_of_le {n : Nat} {s : List Char} (h : s.length ≤ n) :
    padTo n s = s ++ List.replicate (n - s.length) ' ' := by
  unfold padTo
  rw [List.take_append, List.take_of_length_le h, List.take_replicate]
  congr 2; omega

theorem padTo_cstr {n : Nat} {s : List Char} (h : IsCStr s) : IsCStr (padTo n s) :=
  (IsCStr.append h (IsCStr.replicate _ _ (by decide))).take n

theorem specModel_length (k : AntCtor) : (specModel k).length = 20 := by
  cases k with
  | default => simp [specModel]
  | fromCStr c =>
    simp only [specModel]
    split
    · simp; omega
    · simp [padTo_length]

theorem specModel_cstr (k : AntCtor) (h : ctorOk k) : IsCStr (specModel k) := by
  cases k with
  | default => exact IsCStr.replicate _ _ (by decide)
  | fromCStr c =>
    simp only [specModel]
    split
    · exact IsCStr.take h _
    · exact IsCStr.append (padTo_cstr h) (by decide)

theorem antInit_eq (g : List Char) (hg : g.length = 41) :
    antInit g = .ok (List.replicate 20 ' ' ++ NUL :: g.drop 21) := by
  unfold antInit memsetAt setAt antMpr
  rw [memcpyAt_ok (by simp [hg])]
  simp only [List.take_zero, List.nil_append, List.length_replicate, Res.bind_ok]
  rw [memcpyAt_ok (by simp [hg])]
  simp

theorem antCopy_eq (g c : List Char) (hg : g.length = 41) :
    antCopy g c = .ok (specModel (.fromCStr c) ++ g.drop 20) := by
  unfold antCopy antSetNone memsetAt antMpr
  simp only []
  by_cases h : 20 ≤ c.length
  · rw [memcpyAt_ok (by simp [hg]; omega)]
    simp only [Res.bind_ok, if_neg (by omega : ¬ c.length < 20), Res.pure_eq, specModel, if_pos h]
    rw [Nat.min_eq_right h]
    simp [Nat.min_eq_left h]
  · have hlt : c.length < 20 := by omega
    rw [Nat.min_eq_left (by omega : c.length ≤ 20), List.take_length,
      memcpyAt_ok (by simp [hg]; omega)]
    simp only [Res.bind_ok, if_pos hlt, specModel, if_neg h]
    rw [memcpyAt_ok (by simp [hg]; omega)]
    simp only [Res.bind_ok]
    have e : (List.take c.length (List.take 0 g ++ c ++ List.drop (0 + c.length) g) ++
        List.replicate (20 - c.length) ' ' ++
        List.drop (c.length + (List.replicate (20 - c.length) ' ').length)
          (List.take 0 g ++ c ++ List.drop (0 + c.length) g))
        = (c ++ List.replicate (20 - c.length) ' ') ++ g.drop 20 := by
      simp only [List.take_zero, List.nil_append, Nat.zero_add, List.take_left, List.length_replicate]
      rw [List.drop_append, List.drop_of_length_le (by omega), List.drop_drop]
      simp only [List.nil_append]
      congr 2; omega
    rw [e]
    have hl : (c ++ List.replicate (20 - c.length) ' ').length = 20 := by simp; omega
    rw [memcpyAt_ok (by simp [hg]; omega)]
    congr 1
    have h16 : (16 : Nat) ≤ (c ++ List.replicate (20 - c.length) ' ').length := by omega
    rw [List.take_append_of_le_length h16, List.drop_append,
      List.drop_of_length_le (by rw [hl]; decide), hl]
    have : List.take 16 (c ++ List.replicate (20 - c.length) ' ') = padTo 16 c := by
      unfold padTo
      rw [List.take_append, List.take_append, List.take_replicate, List.take_replicate]
      congr 2; omega
    rw [this]
    simp

theorem antNew_eq (g : List Char) (hg : g.length = 41) (k : AntCtor) :
    antNew g k = .ok (specModel k ++ NUL :: g.drop 21) := by
  cases k with
  | default => exact antInit_eq g hg
  | fromCStr c =>
    simp only [antNew, antOfCStr, antCopy_eq g c hg, Res.bind_ok, setAt, antMpr]
    have hl := specModel_length (.fromCStr c)
    rw [memcpyAt_ok (by simp [hl, hg])]
    rw [List.take_append_of_le_length (by omega), List.take_of_length_le (by omega),
      List.drop_append, List.drop_of_length_le (by rw [hl]; decide), hl]
    simp

theorem antSetSerial_eq (m t s : List Char) (hm : m.length = 20) (ht : t.length = 21) :
    antSetSerial (m ++ t) s = .ok (m ++ (padTo 20 s ++ [NUL])) := by
  unfold antSetSerial memsetAt setAt antMpr antSerialMax
  rw [memcpyAt_ok (by simp [hm, ht])]
  simp only [Res.bind_ok, List.length_replicate]
  rw [List.take_append_of_le_length (by omega), List.take_of_length_le (by omega),
    List.drop_of_length_le (by simp [hm, ht])]
  simp only [List.append_nil]
  have hk : (s.take (min s.length 20)).length = min s.length 20 := by simp
  rw [memcpyAt_ok (by simp [hm]; omega), hk]
  simp only [Res.bind_ok]
  rw [List.take_append_of_le_length (by omega), List.take_of_length_le (by omega),
    List.drop_append, List.drop_of_length_le (by omega), hm]
  have e : m ++ s.take (min s.length 20) ++ ([] ++ List.drop (20 + min s.length 20 - 20) (List.replicate (20 + 1) ' '))
      = (m ++ padTo 20 s) ++ [' '] := by
    rw [List.append_assoc, List.append_assoc]
    congr 1
    rw [List.nil_append, List.drop_replicate]
    by_cases h : 20 ≤ s.length
    · rw [padTo_of_ge h, Nat.min_eq_right h]; rfl
    · rw [padTo_of_le (by omega), Nat.min_eq_left (by omega), List.take_length, List.append_assoc]
      congr 1
      rw [← List.replicate_succ']
      congr 1; omega
  rw [e]
  have hl : (m ++ padTo 20 s).length = 40 := by simp [hm, padTo_length]
  rw [memcpyAt_ok (by rw [List.length_append, hl]; simp)]
  rw [List.take_append_of_le_length (by omega), List.take_of_length_le (by omega),
    List.drop_of_length_le (by rw [List.length_append, hl]; simp)]
  simp

/-- The state of the object after any history, exactly. -/
theorem antRun_eq (g : List Char) (hg : g.length = 41) (k : AntCtor) (ss : List (List Char)) :
    antRun g k ss = .ok (match ss.getLast? with
      | none => specModel k ++ NUL :: g.drop 21
      | some s => specModel k ++ (padTo 20 s ++ [NUL])) := by
  have key : ∀ (ss : List (List Char)) (t : List Char), t.length = 21 →
      antSetSerials (specModel k ++ t) ss = .ok (match ss.getLast? with
        | none => specModel k ++ t
        | some s => specModel k ++ (padTo 20 s ++ [NUL])) := by
    intro ss
    induction ss with
    | nil => intro t _; rfl
    | cons s ss ih =>
      intro t ht
      simp only [antSetSerials, antSetSerial_eq _ t s (specModel_length k) ht, Res.bind_ok]
      rw [ih _ (by simp [padTo_length])]
      cases ss with
      | nil => rfl
      | cons s' ss' =>
        rw [List.getLast?_cons_cons]
        have : (s' :: ss').getLast? ≠ none := by simp
        cases h : (s' :: ss').getLast? with
        | none => exact absurd h this
        | some _ => rfl
  unfold antRun
  rw [antNew_eq g hg k]
  simp only [Res.bind_ok]
  exact key ss _ (by simp [hg])

/-- In every reachable state the array is the specified text, a terminator and leftovers. -/
theorem antRun_shape (g : List Char) (hg : g.length = 41) (k : AntCtor) (ss : List (List Char)) :
    ∃ rest, antRun g k ss = .ok (specText k ss ++ NUL :: rest) ∧
      (specText k ss ++ NUL :: rest).length = 41 := by
  rw [antRun_eq g hg k ss]
  unfold specText
  cases h : ss.getLast? with
  | none => exact ⟨g.drop 21, by simp, by simp [specModel_length, hg]⟩
  | some s => exact ⟨[], by simp, by simp [specModel_length, padTo_length]⟩

theorem specText_cstr (k : AntCtor) (ss : List (List Char)) (hk : ctorOk k)
    (hs : ∀ s ∈ ss, IsCStr s) : IsCStr (specText k ss) := by
  unfold specText
  refine IsCStr.append (specModel_cstr k hk) ?_
  cases h : ss.getLast? with
  | none => simp [IsCStr]
  | some s => exact padTo_cstr (hs s (List.mem_of_getLast? h))

/-! ## C10 -/

/-- C10: in any memory, after any construction and any history of serial updates, the object is
41 bytes long, its text is terminated inside it, its text is exactly the specified one (so the
first 20 chars never change after construction) — and no operation is undefined. -/
theorem C10_wellformed (g : List Char) (hg : g.length = 41) (k : AntCtor) (ss : List (List Char))
    (hk : ctorOk k) (hs : ∀ s ∈ ss, IsCStr s) :
    ∃ b, antRun g k ss = .ok b ∧ b.length = 41 ∧ NUL ∈ b ∧ b.take 20 = specModel k ∧
      antText b = .ok (specText k ss) := by
  obtain ⟨rest, h1, h2⟩ := antRun_shape g hg k ss
  refine ⟨_, h1, h2, by simp, ?_, cstrOf_append (specText_cstr k ss hk hs) rest⟩
  unfold specText
  rw [List.append_assoc, List.take_append_of_le_length (by simp [specModel_length]),
    List.take_of_length_le (by simp [specModel_length])]

example : antRun (List.replicate 41 'g') (.fromCStr c!"TRM59800.00") [c!"1", c!"A2"] =
    .ok (c!"TRM59800.00     NONEA2                  " ++ [NUL]) := by decide

/-! ## C11 -/

/-- C11 (partial): a text of at most 16 chars (no radome columns) is stored padded with radome NONE;
a text with all 20 columns is stored as it is, radome included. Missing: texts of 17–19 chars and
texts of 20 chars with blank radome columns, for which the statement is false (next theorems). -/
theorem C11_radome_partial (g : List Char) (hg : g.length = 41) (c : List Char) :
    (c.length ≤ 16 → ∃ b, antNew g (.fromCStr c) = .ok b ∧
        b.take 16 = c ++ List.replicate (16 - c.length) ' ' ∧ (b.drop 16).take 4 = c!"NONE") ∧
    (20 ≤ c.length → ∃ b, antNew g (.fromCStr c) = .ok b ∧
        b.take 16 = c.take 16 ∧ (b.drop 16).take 4 = (c.drop 16).take 4) := by
  constructor
  · intro h
    refine ⟨_, antNew_eq g hg _, ?_, ?_⟩
    · simp only [specModel, if_neg (by omega : ¬ 20 ≤ c.length), List.append_assoc]
      rw [List.take_append_of_le_length (by simp [padTo_length]),
        List.take_of_length_le (by simp [padTo_length]), padTo_of_le h]
    · simp only [specModel, if_neg (by omega : ¬ 20 ≤ c.length), List.append_assoc]
      rw [List.drop_append, List.drop_of_length_le (by simp [padTo_length]), padTo_length]
      simp
  · intro h
    have e : specModel (.fromCStr c) = c.take 20 := by simp [specModel, h]
    refine ⟨_, antNew_eq g hg _, ?_, ?_⟩
    · rw [e, List.take_append_of_le_length (by simp; omega), List.take_take]; rfl
    · rw [e, List.drop_append_of_le_length (by simp; omega), List.take_append_of_le_length (by simp; omega),
        List.drop_take, List.take_take]
      congr 1

/-- C11 is false: with blank radome columns in a 20 char text the radome stays blank. -/
theorem C11_blank_radome_kept (g : List Char) (hg : g.length = 41) :
    ∃ b, antNew g (.fromCStr c!"TRM59800.00         ") = .ok b ∧ (b.drop 16).take 4 = c!"    " :=
  ⟨_, antNew_eq g hg _, by simp [specModel]⟩

/-- C11 is false: a radome given with fewer than four chars is replaced by NONE. -/
theorem C11_short_radome_lost (g : List Char) (hg : g.length = 41) :
    ∃ b, antNew g (.fromCStr c!"TRM59800.00     SCI") = .ok b ∧ (b.drop 16).take 4 = c!"NONE" :=
  ⟨_, antNew_eq g hg _, by simp [specModel, padTo]⟩

/-! ## C12 -/

theorem antRun_last (g : List Char) (hg : g.length = 41) (k : AntCtor) (ss : List (List Char)) (s : List Char) :
    antRun g k (ss ++ [s]) = .ok (specModel k ++ (padTo 20 s ++ [NUL])) := by
  rw [antRun_eq g hg]; simp

/-- C12, exact meaning of `compare_serial` after `set_serial_nr(s)` (last update of any history):
it is true exactly when the blank padded `s` equals the first 20 chars of the argument. -/
theorem C12_compare_exact (g : List Char) (hg : g.length = 41) (k : AntCtor) (ss : List (List Char))
    (s s' : List Char) (hs : IsCStr s) (hs' : IsCStr s') :
    ∃ b, antRun g k (ss ++ [s]) = .ok b ∧
      antCompareSerial b s' = .ok (decide (padTo 20 s = s'.take 20)) := by
  refine ⟨_, antRun_last g hg k ss s, ?_⟩
  unfold antCompareSerial antMpr antSerialMax cArr
  have : (specModel k ++ (padTo 20 s ++ [NUL])).drop 20 = padTo 20 s ++ NUL :: [] := by
    rw [List.drop_append, List.drop_of_length_le (by simp [specModel_length]), specModel_length]; rfl
  rw [this, strncmpEq_cstr 20 _ _ [] [] (padTo_cstr hs) hs']
  congr 2
  rw [List.take_of_length_le (by simp [padTo_length])]

/-- C12 (partial: serials that fill all 20 columns): comparing with the serial just set succeeds and
succeeds only for texts with the same first 20 chars. -/
theorem C12_compare_partial (g : List Char) (hg : g.length = 41) (k : AntCtor)
    (ss : List (List Char)) (s s' : List Char) (hs : IsCStr s) (hs' : IsCStr s') (hl : 20 ≤ s.length) :
    ∃ b, antRun g k (ss ++ [s]) = .ok b ∧ antCompareSerial b s = .ok true ∧
      (antCompareSerial b s' = .ok true ↔ s'.take 20 = s.take 20) := by
  obtain ⟨b, h1, h2⟩ := C12_compare_exact g hg k ss s s hs hs
  obtain ⟨b', h1', h2'⟩ := C12_compare_exact g hg k ss s s' hs hs'
  rw [h1] at h1'; injection h1' with h1'; subst h1'
  refine ⟨b, h1, ?_, ?_⟩
  · rw [h2, padTo_of_ge hl]; simp
  · rw [h2', padTo_of_ge hl]
    simp [eq_comm]

/-- C12 is false for every serial shorter than 20 chars: comparing with the serial just set fails. -/
theorem C12_short_serial_never_matches (g : List Char) (hg : g.length = 41) (k : AntCtor)
    (ss : List (List Char)) (s : List Char) (hs : IsCStr s) (hl : s.length < 20) :
    ∃ b, antRun g k (ss ++ [s]) = .ok b ∧ antCompareSerial b s = .ok false := by
  obtain ⟨b, h1, h2⟩ := C12_compare_exact g hg k ss s s hs hs
  refine ⟨b, h1, ?_⟩
  rw [h2]
  have : padTo 20 s ≠ s.take 20 := by
    intro h
    have := congrArg List.length h
    rw [padTo_length] at this
    simp at this; omega
  simp [this]

theorem hasSerialLoop_eq (s rest : List Char) (hs : IsCStr s) :
    hasSerialLoop (s ++ NUL :: rest) = .ok (decide (∃ c ∈ s, c ≠ ' ')) := by
  induction s with
  | nil => simp [hasSerialLoop]
  | cons c s ih =>
    obtain ⟨h1, h2⟩ := hs.cons
    simp only [List.cons_append, hasSerialLoop, h1, if_false]
    by_cases hc : c = ' '
    · simp [hc, ih h2]
    · simp [hc]

theorem nonBlank_padTo (s : List Char) : (∃ c ∈ padTo 20 s, c ≠ ' ') ↔ serialNonBlank s := by
  unfold serialNonBlank
  by_cases h : 20 ≤ s.length
  · rw [padTo_of_ge h]
  · rw [padTo_of_le (by omega), List.take_of_length_le (by omega)]
    constructor
    · rintro ⟨c, hc, hn⟩
      rcases List.mem_append.1 hc with hc | hc
      · exact ⟨c, hc, hn⟩
      · exact absurd (List.eq_of_mem_replicate hc) hn
    · rintro ⟨c, hc, hn⟩; exact ⟨c, by simp [hc], hn⟩

/-- C12: `has_serial()` is true exactly when a serial was set and the last one set has a non-blank
char among its first 20, for every history. -/
theorem C12_has_serial (g : List Char) (hg : g.length = 41) (k : AntCtor) (ss : List (List Char))
    (hs : ∀ s ∈ ss, IsCStr s) :
    ∃ b r, antRun g k ss = .ok b ∧ antHasSerial b = .ok r ∧ (r = true ↔ specHasSerial ss) := by
  rw [antRun_eq g hg]
  unfold antHasSerial antMpr specHasSerial
  have hd : ∀ t : List Char, (specModel k ++ t).drop 20 = t := by
    intro t
    rw [List.drop_append, List.drop_of_length_le (by simp [specModel_length]), specModel_length]; rfl
  cases h : ss.getLast? with
  | none =>
    refine ⟨_, false, rfl, ?_, by simp⟩
    rw [hd]; exact hasSerialLoop_eq [] _ (by simp [IsCStr])
  | some s =>
    refine ⟨_, _, rfl, by rw [hd]; exact hasSerialLoop_eq _ _ (padTo_cstr (hs s (List.mem_of_getLast? h))), ?_⟩
    rw [decide_eq_true_eq, nonBlank_padTo]
    simp

example : (20 : Nat) ≤ (c!"12345678901234567890").length ∧ IsCStr c!"12345678901234567890" := by decide
example : IsCStr c!"0221A31517" ∧ (c!"0221A31517").length < 20 ∧ specHasSerial [c!"0221A31517"] :=
  ⟨by decide, by decide, _, rfl, by decide⟩

/-! ## C13 -/

/-- An antenna object reachable through the API, in some memory. -/
def AntReach (b : List Char) (k : AntCtor) (ss : List (List Char)) : Prop :=
  ∃ g : List Char, g.length = 41 ∧ ctorOk k ∧ (∀ s ∈ ss, IsCStr s) ∧ antRun g k ss = .ok b

theorem AntReach.shape {b : List Char} {k : AntCtor} {ss : List (List Char)} (h : AntReach b k ss) :
    ∃ rest, b = specText k ss ++ NUL :: rest ∧ IsCStr (specText k ss) ∧
      ∃ r, antHasSerial b = .ok r ∧ (r = true ↔ specHasSerial ss) := by
  obtain ⟨g, hg, hk, hs, hr⟩ := h
  obtain ⟨rest, h1, _⟩ := antRun_shape g hg k ss
  obtain ⟨b', r, h2, h3, h4⟩ := C12_has_serial g hg k ss hs
  rw [hr] at h1 h2; injection h1 with h1; injection h2 with h2
  subst h2
  exact ⟨rest, h1, specText_cstr k ss hk hs, r, h3, h4⟩

theorem specText_length_le (k : AntCtor) (ss : List (List Char)) : (specText k ss).length ≤ 40 := by
  unfold specText
  cases ss.getLast? <;> simp [specModel_length, padTo_length]

theorem specText_inj {k k' : AntCtor} {ss ss' : List (List Char)} {s s' : List Char}
    (h : ss.getLast? = some s) (h' : ss'.getLast? = some s') :
    specText k ss = specText k' ss' ↔ specModel k = specModel k' ∧ padTo 20 s = padTo 20 s' := by
  unfold specText
  rw [h, h']
  simp only
  constructor
  · intro e
    exact List.append_inj e (by rw [specModel_length, specModel_length])
  · rintro ⟨e1, e2⟩; rw [e1, e2]

/-- C13: `is_same` is defined on all reachable antennas and true exactly when both have a serial and
model, radome and (padded) serial agree; uninitialised memory plays no role. -/
theorem C13_is_same_iff {a b : List Char} {k k' : AntCtor} {ss ss' : List (List Char)}
    (ha : AntReach a k ss) (hb : AntReach b k' ss') :
    ∃ r, antIsSame a b = .ok r ∧
      (r = true ↔ specHasSerial ss ∧ specHasSerial ss' ∧ specModel k = specModel k' ∧
        ∀ s s', ss.getLast? = some s → ss'.getLast? = some s' → padTo 20 s = padTo 20 s') := by
  obtain ⟨ra, rfl, hca, sa, hsa, hsa'⟩ := ha.shape
  obtain ⟨rb, rfl, hcb, sb, hsb, hsb'⟩ := hb.shape
  unfold antIsSame
  rw [hsa, hsb]
  simp only [Res.bind_ok, Res.pure_eq]
  cases sa with
  | false =>
    refine ⟨false, rfl, ?_⟩
    have : ¬ specHasSerial ss := fun h => by simpa using hsa'.2 h
    simp [this]
  | true =>
    cases sb with
    | false =>
      refine ⟨false, rfl, ?_⟩
      have : ¬ specHasSerial ss' := fun h => by simpa using hsb'.2 h
      simp [this]
    | true =>
      simp only [Bool.not_true, Bool.false_eq_true, if_false, antFullMax]
      rw [strncmpEq_cstr 41 _ _ _ _ hca hcb]
      refine ⟨_, rfl, ?_⟩
      have h1 := hsa'.1 rfl
      have h2 := hsb'.1 rfl
      obtain ⟨s, hs, _⟩ := h1
      obtain ⟨s', hs', _⟩ := h2
      rw [decide_eq_true_eq, List.take_of_length_le (Nat.le_succ_of_le (specText_length_le _ _)),
        List.take_of_length_le (Nat.le_succ_of_le (specText_length_le _ _)), specText_inj hs hs']
      constructor
      · rintro ⟨e1, e2⟩
        refine ⟨hsa'.1 rfl, hsb'.1 rfl, e1, ?_⟩
        intro u u' hu hu'
        rw [hs] at hu; rw [hs'] at hu'
        injection hu with hu; injection hu' with hu'
        subst hu hu'; exact e2
      · rintro ⟨_, _, e1, e2⟩; exact ⟨e1, e2 s s' hs hs'⟩

/-- C13: symmetric. -/
theorem C13_is_same_symm {a b : List Char} {k k' : AntCtor} {ss ss' : List (List Char)}
    (ha : AntReach a k ss) (hb : AntReach b k' ss') (h : antIsSame a b = .ok true) :
    antIsSame b a = .ok true := by
  obtain ⟨r, h1, h2⟩ := C13_is_same_iff ha hb
  obtain ⟨r', h1', h2'⟩ := C13_is_same_iff hb ha
  rw [h] at h1; injection h1 with h1; subst h1
  rw [h1']
  obtain ⟨e1, e2, e3, e4⟩ := h2.1 rfl
  rw [h2'.2 ⟨e2, e1, e3.symm, fun s s' hs hs' => (e4 s' s hs' hs).symm⟩]

/-- C13: transitive. -/
theorem C13_is_same_trans {a b c : List Char} {k k' k'' : AntCtor} {ss ss' ss'' : List (List Char)}
    (ha : AntReach a k ss) (hb : AntReach b k' ss') (hc : AntReach c k'' ss'')
    (h1 : antIsSame a b = .ok true) (h2 : antIsSame b c = .ok true) : antIsSame a c = .ok true := by
  obtain ⟨r1, e1, f1⟩ := C13_is_same_iff ha hb
  obtain ⟨r2, e2, f2⟩ := C13_is_same_iff hb hc
  obtain ⟨r3, e3, f3⟩ := C13_is_same_iff ha hc
  rw [h1] at e1; injection e1 with e1; subst e1
  rw [h2] at e2; injection e2 with e2; subst e2
  obtain ⟨a1, a2, a3, a4⟩ := f1.1 rfl
  obtain ⟨b1, b2, b3, b4⟩ := f2.1 rfl
  rw [e3, f3.2 ⟨a1, b2, a3.trans b3, ?_⟩]
  intro s s'' hs hs''
  obtain ⟨s', hs', _⟩ := a2
  exact (a4 s s' hs hs').trans (b4 s' s'' hs' hs'')

/-- C13: `compare_model` says whether the 20 model/radome chars agree, whatever the serials
(hence it is an equivalence relation). -/
theorem C13_compare_model {a b : List Char} {k k' : AntCtor} {ss ss' : List (List Char)}
    (ha : AntReach a k ss) (hb : AntReach b k' ss') :
    antCompareModel a b = .ok (decide (specModel k = specModel k')) := by
  obtain ⟨ra, rfl, hca, _⟩ := ha.shape
  obtain ⟨rb, rfl, hcb, _⟩ := hb.shape
  unfold antCompareModel antMpr
  rw [strncmpEq_cstr 20 _ _ _ _ hca hcb]
  have ht : ∀ k ss, (specText k ss).take 20 = specModel k := by
    intro k ss
    unfold specText
    rw [List.take_append_of_le_length (by simp [specModel_length]), List.take_of_length_le (by simp [specModel_length])]
  rw [ht, ht]

example : ∃ a b, AntReach a (.fromCStr c!"TRM59800.00") [c!"77"] ∧
    AntReach b (.fromCStr c!"TRM59800.00     NONE") [c!"1", c!"77 "] ∧ antIsSame a b = .ok true :=
  ⟨_, _, ⟨List.replicate 41 'x', rfl, (by decide : IsCStr _), by decide, rfl⟩,
    ⟨List.replicate 41 'y', rfl, (by decide : IsCStr _), by decide, rfl⟩, by decide⟩

/-! ## C14 -/

theorem satAntCopy_eq (g c : List Char) (hg : g.length = 21) :
    ∃ rest, satAntCopy g c = .ok (c.take 20 ++ NUL :: rest) := by
  unfold satAntCopy setAt
  have hk : c.take (min c.length 20) = c.take 20 := by
    by_cases h : 20 ≤ c.length
    · rw [Nat.min_eq_right h]
    · rw [Nat.min_eq_left (by omega), List.take_length, List.take_of_length_le (by omega)]
  simp only []
  rw [memcpyAt_ok (by simp [hg]; omega)]
  simp only [Res.bind_ok, List.take_zero, List.nil_append, Nat.zero_add]
  have hl : (c.take (min c.length 20)).length = min c.length 20 := by simp
  rw [hl, memcpyAt_ok (by simp [hg]; omega)]
  refine ⟨List.drop (min c.length 20 + 1) (c.take (min c.length 20) ++ g.drop (min c.length 20)), ?_⟩
  rw [List.take_append_of_le_length (by omega), List.take_of_length_le (by omega)]
  simp [hk]

/-- The type stored and reported (`to_string`) is the given text cut to 20 chars. -/
theorem C14_stored_type (g c : List Char) (hg : g.length = 21) (hc : IsCStr c) :
    ∃ b, satAntCopy g c = .ok b ∧ satAntText b = .ok (c.take 20) := by
  obtain ⟨rest, h⟩ := satAntCopy_eq g c hg
  exact ⟨_, h, cstrOf_append (hc.take 20) rest⟩

/-- C14 is false: `is_same` is inverted. For every antenna type `c` and every text `c'` it returns
true exactly when the types (20 chars) are different. -/
theorem C14_is_same_inverted (g c c' : List Char) (hg : g.length = 21) (hc : IsCStr c) (hc' : IsCStr c') :
    ∃ b, satAntCopy g c = .ok b ∧ satAntIsSame b c' = .ok (decide (c.take 20 ≠ c'.take 20)) := by
  obtain ⟨rest, h⟩ := satAntCopy_eq g c hg
  refine ⟨_, h, ?_⟩
  unfold satAntIsSame cArr
  rw [strncmpEq_cstr 20 _ _ _ _ (hc.take 20) hc']
  simp [List.take_take]

/-- In particular an antenna is reported different from its own type. -/
theorem C14_not_reflexive (g c : List Char) (hg : g.length = 21) (hc : IsCStr c) :
    ∃ b, satAntCopy g c = .ok b ∧ satAntIsSame b c = .ok false := by
  obtain ⟨b, h1, h2⟩ := C14_is_same_inverted g c c hg hc hc
  exact ⟨b, h1, by simpa using h2⟩

example : IsCStr c!"BLOCK IIR-M" ∧ (List.replicate 21 'z').length = 21 := by decide

end Ggnss
