import Verif.Model.Obs
import Verif.Props.SatSys
import Mathlib.Data.List.Perm.Subperm
import Mathlib.Algebra.BigOperators.Group.List.Basic
import Mathlib.Algebra.Order.Ring.Rat
/-!
# C03 – C06: observation codes, observables, satellite names
-/
namespace Ggnss

/-! ## Specification -/

/-- The RINEX letters of the observation types (`any` has none). -/
def specTypeLetters : List (ObsType × Char) :=
  [(.pseudorange, 'C'), (.carrier_phase, 'L'), (.doppler, 'D'), (.signal_strength, 'S'),
   (.ionosphere_phase_delay, 'I'), (.receiver_channel_number, 'X')]

/-- `s` starts with a complete RINEX 3 code: type letter, digit, attribute. -/
def IsRinexCode (s : List Char) : Prop :=
  ∃ t d a rest, s = t :: d :: a :: rest ∧ (∃ ty, (ty, t) ∈ specTypeLetters) ∧ d.isDigit = true ∧ a ≠ ' '

/-- Meaning of a digit char. -/
def digitVal (c : Char) : Int := (c.toNat : Int) - 48

/-- What one part of a linear combination contributes: nothing for GLONASS and mixed, otherwise
the nominal carrier times the coefficient. -/
def IsTerm (p : ObsPart) (f : Rat) : Prop :=
  ((p.type.sys = .glonass ∨ p.type.sys = .mixed) ∧ f = 0) ∨
  ((p.type.sys ≠ .glonass ∧ p.type.sys ≠ .mixed) ∧
    ∃ c, (p.type.sys, p.type.code.band, c) ∈ specCarrier ∧ f = c * p.coef)

/-! ## C03 -/

theorem charToObsType_ok_iff (c : Char) (t : ObsType) :
    charToObsType c = .ok t ↔ (t, c) ∈ specTypeLetters := by
  unfold charToObsType
  repeat' split
  all_goals first
    | (subst_vars; cases t <;> simp [specTypeLetters]; done)
    | (cases t <;> simp [specTypeLetters] <;> assumption)

theorem charToObsType_total (c : Char) :
    (∃ t, charToObsType c = .ok t) ∨ charToObsType c = .throw .runtime_error := by
  unfold charToObsType
  repeat' split
  all_goals first | exact Or.inl ⟨_, rfl⟩ | exact Or.inr rfl

theorem obsTypeToChar_spec (t : ObsType) (c : Char) (h : (t, c) ∈ specTypeLetters) :
    obsTypeToChar t = c := by
  cases t <;> simp_all [specTypeLetters, obsTypeToChar]

theorem obsTypeToChar_mem (t : ObsType) (h : t ≠ .any) :
    (t, obsTypeToChar t) ∈ specTypeLetters := by
  cases t <;> simp_all [specTypeLetters, obsTypeToChar]

/-- C03: complete description of the text constructor.  It succeeds with `o` exactly when the text
has at least two chars, the first being the letter of `o.type`; the band is what the second char
says (its distance from '0'); the attribute is the third char, or '?' when that is absent or a
blank; everything after it is ignored. -/
theorem C03_parse_iff (s : List Char) (o : ObsCode) :
    ObsCode.parse s = .ok o ↔
      ∃ t b rest, s = t :: b :: rest ∧ (o.type, t) ∈ specTypeLetters ∧ o.band = scharVal b - 48 ∧
        o.attr = (match rest with | [] => '?' | ' ' :: _ => '?' | a :: _ => a) := by
  unfold ObsCode.parse
  match s with
  | [] => simp
  | [_] => simp
  | t :: b :: rest =>
    simp only [Res.bind_eq_ok, Res.pure_eq]
    constructor
    · rintro ⟨ty, h1, h2⟩
      injection h2 with h2
      subst h2
      refine ⟨t, b, rest, rfl, (charToObsType_ok_iff _ _).1 h1, rfl, ?_⟩
      match rest with
      | [] => rfl
      | a :: _ => by_cases h : a = ' ' <;> simp [h]
    · rintro ⟨t', b', rest', he, h1, h2, h3⟩
      injection he with e1 e2; injection e2 with e2 e3
      subst e1 e2 e3
      refine ⟨o.type, (charToObsType_ok_iff _ _).2 h1, ?_⟩
      congr 1
      cases o with | mk ty bn a =>
      simp only [ObsCode.mk.injEq, true_and] at *
      refine ⟨h2.symm, ?_⟩
      rw [h3]
      match rest with
      | [] => rfl
      | a :: _ => by_cases h : a = ' ' <;> simp [h]

/-- C03: the constructor throws exactly on texts that are too short or have no type letter. -/
theorem C03_parse_throws_iff (s : List Char) :
    ObsCode.parse s = .throw .runtime_error ↔
      s.length < 2 ∨ ∃ t rest, s = t :: rest ∧ ∀ ty, (ty, t) ∉ specTypeLetters := by
  match s with
  | [] => simp [ObsCode.parse]
  | [_] => simp [ObsCode.parse]
  | t :: b :: rest =>
    simp only [ObsCode.parse, List.length_cons]
    rcases charToObsType_total t with ⟨ty, h⟩ | h
    · rw [h]
      simp only [Res.bind_ok, Res.pure_eq, reduceCtorEq, false_iff, not_or]
      refine ⟨by omega, ?_⟩
      rintro ⟨t', r, he, hn⟩
      injection he with e1 _; subst e1
      exact hn ty ((charToObsType_ok_iff _ _).1 h)
    · rw [h]
      simp only [Res.bind_throw, true_iff]
      right
      refine ⟨t, _, rfl, fun ty hm => ?_⟩
      rw [(charToObsType_ok_iff _ _).2 hm] at h; cases h

/-- There is no third outcome. -/
theorem C03_parse_total (s : List Char) :
    (∃ o, ObsCode.parse s = .ok o) ∨ ObsCode.parse s = .throw .runtime_error := by
  match s with
  | [] => right; rfl
  | [_] => right; rfl
  | t :: b :: rest =>
    rcases charToObsType_total t with ⟨ty, h⟩ | h
    · left; exact ⟨_, by simp only [ObsCode.parse, h, Res.bind_ok, Res.pure_eq]; rfl⟩
    · right; simp only [ObsCode.parse, h, Res.bind_throw]

theorem isDigit_bounds (d : Char) (h : d.isDigit = true) : 48 ≤ d.toNat ∧ d.toNat ≤ 57 := by
  simp only [Char.isDigit, Bool.and_eq_true, decide_eq_true_eq] at h
  obtain ⟨h1, h2⟩ := h
  rw [ge_iff_le, UInt32.le_iff_toNat_le] at h1
  rw [UInt32.le_iff_toNat_le] at h2
  exact ⟨h1, h2⟩

theorem intToString_digit (d : Char) (h : d.isDigit = true) :
    intToString (scharVal d - 48) = [d] := by
  obtain ⟨h1, h2⟩ := isDigit_bounds d h
  have e : scharVal d - 48 = ((d.toNat - 48 : Nat) : Int) := by
    unfold scharVal; split <;> omega
  rw [e]
  unfold intToString
  rw [if_neg (by omega), Int.natAbs_natCast, Nat.toDigits_of_lt_base (by omega)]
  have : d = Char.ofNat d.toNat := by simp
  generalize hn : d.toNat = n at *
  subst this
  have hcases : n = 48 ∨ n = 49 ∨ n = 50 ∨ n = 51 ∨ n = 52 ∨ n = 53 ∨ n = 54 ∨ n = 55 ∨ n = 56 ∨ n = 57 := by
    omega
  rcases hcases with h | h | h | h | h | h | h | h | h | h <;> subst h <;> rfl

/-- C03, text → code → text: a RINEX code is reproduced (first three chars). -/
theorem C03_text_roundtrip (s : List Char) (h : IsRinexCode s) :
    ∃ o, ObsCode.parse s = .ok o ∧ o.toStr = s.take 3 := by
  obtain ⟨t, d, a, rest, rfl, ⟨ty, hty⟩, hd, ha⟩ := h
  refine ⟨⟨ty, scharVal d - 48, a⟩, ?_, ?_⟩
  · rw [C03_parse_iff]
    refine ⟨t, d, a :: rest, rfl, hty, rfl, ?_⟩
    simp only
  · simp [ObsCode.toStr, intToString_digit d hd, obsTypeToChar_spec ty t hty]

/-- C03, code → text → code: any code with a real type, a one digit band and a non-blank attribute
is recovered exactly. -/
theorem C03_code_roundtrip (o : ObsCode) (ht : o.type ≠ .any) (hb : 0 ≤ o.band ∧ o.band ≤ 9)
    (ha : o.attr ≠ ' ') : ObsCode.parse o.toStr = .ok o := by
  rw [C03_parse_iff]
  obtain ⟨ty, b, a⟩ := o
  simp only at *
  obtain ⟨n, rfl⟩ := Int.eq_ofNat_of_zero_le hb.1
  have hn : n < 10 := by omega
  have e : intToString (n : Int) = [n.digitChar] := by
    unfold intToString
    rw [if_neg (by omega), Int.natAbs_natCast, Nat.toDigits_of_lt_base hn]
  refine ⟨obsTypeToChar ty, n.digitChar, [a], ?_, obsTypeToChar_mem ty ht, ?_, ?_⟩
  · simp [ObsCode.toStr, e]
  · have hcases : n = 0 ∨ n = 1 ∨ n = 2 ∨ n = 3 ∨ n = 4 ∨ n = 5 ∨ n = 6 ∨ n = 7 ∨ n = 8 ∨ n = 9 := by omega
    rcases hcases with h | h | h | h | h | h | h | h | h | h <;> subst h <;> rfl
  · split
    · rename_i h; cases h
    · rename_i h; injection h with h1 _; exact absurd h1 ha
    · rename_i h; injection h

/-- The formatted text has always three chars, and outside the one-digit range bands collide
(10..19 all print as 1), which is why the previous theorem needs its band hypothesis. -/
theorem C03_two_digit_bands_collide (t : ObsType) (a : Char) :
    (ObsCode.mk t 12 a).toStr = (ObsCode.mk t 1 a).toStr := by
  simp [ObsCode.toStr, intToString]
  rfl

example : IsRinexCode c!"C1W junk" :=
  ⟨'C', '1', 'W', c!" junk", rfl, ⟨.pseudorange, by decide⟩, by decide, by decide⟩
example : ObsCode.parse c!"L2" = .ok ⟨.carrier_phase, 2, '?'⟩ := by decide
example : ObsCode.parse c!"Q2X" = .throw .runtime_error := by decide

/-! ## C04 -/

theorem eq_iff (a b : Observable) :
    a.eq b = true ↔ b.vec.length = a.vec.length ∧ ∀ p ∈ a.vec, p ∈ b.vec := by
  unfold Observable.eq
  split
  · rename_i h; simp [h]
  · rename_i h
    have h : b.vec.length = a.vec.length := by simpa using h
    simp [h]

theorem C04_refl (a : Observable) : a.eq a = true := by
  rw [eq_iff]; exact ⟨rfl, fun _ h => h⟩

theorem C04_trans (a b c : Observable) (h1 : a.eq b = true) (h2 : b.eq c = true) :
    a.eq c = true := by
  rw [eq_iff] at *
  exact ⟨h2.1.trans h1.1, fun p hp => h2.2 p (h1.2 p hp)⟩

/-- Equal collections always compare equal. -/
theorem C04_perm_eq (a b : Observable) (h : a.vec.Perm b.vec) : a.eq b = true := by
  rw [eq_iff]; exact ⟨h.length_eq.symm, fun p hp => h.subset hp⟩

/-- The full statement (symmetry for all observables) is false of the code: there are observables
(with a repeated part) with `a == b` but not `b == a`. -/
theorem C04_not_symmetric : ∃ a b : Observable, a.eq b = true ∧ b.eq a = false := by
  let x : ObsPart := ⟨⟨.gps, ⟨.pseudorange, 1, 'C'⟩⟩, 1⟩
  let y : ObsPart := ⟨⟨.gps, ⟨.pseudorange, 2, 'W'⟩⟩, 1⟩
  refine ⟨⟨[x, x]⟩, ⟨[x, y]⟩, ?_, ?_⟩
  · rw [eq_iff]; exact ⟨rfl, by simp⟩
  · cases h : Observable.eq ⟨[x, y]⟩ ⟨[x, x]⟩
    · rfl
    · rw [eq_iff] at h
      have := h.2 y (by simp)
      simp [x, y] at this

/-- C04 (partial: the left observable has no repeated part): equality is equality of collections
up to order. Missing: observables with repeated parts, for which it is false. -/
theorem C04_eq_iff_perm_partial (a b : Observable) (ha : a.vec.Nodup) :
    a.eq b = true ↔ a.vec.Perm b.vec := by
  refine ⟨fun h => ?_, C04_perm_eq a b⟩
  rw [eq_iff] at h
  exact (ha.subperm h.2).perm_of_length_le (by omega)

/-- C04 (partial: no repeated parts in the left observable): symmetry. -/
theorem C04_symm_partial (a b : Observable) (ha : a.vec.Nodup) (h : a.eq b = true) :
    b.eq a = true :=
  C04_perm_eq b a ((C04_eq_iff_perm_partial a b ha).1 h).symm

example : ∃ a b : Observable, a.vec.Nodup ∧ a.eq b = true ∧ a ≠ b := by
  let x : ObsPart := ⟨⟨.gps, ⟨.pseudorange, 1, 'C'⟩⟩, 1⟩
  let y : ObsPart := ⟨⟨.gps, ⟨.pseudorange, 2, 'W'⟩⟩, 1⟩
  refine ⟨⟨[x, y]⟩, ⟨[y, x]⟩, by simp [x, y], C04_perm_eq _ _ (List.Perm.swap _ _ _), by simp [x, y]⟩

/-! ## C05 -/

theorem partFreq_ok_iff (p : ObsPart) (f : Rat) : p.frequency = .ok f ↔ IsTerm p f := by
  unfold ObsPart.frequency IsTerm
  cases h : p.type.sys <;>
    simp only [Res.bind_eq_ok, C02_lookup_iff, Res.pure_eq, Res.ok.injEq, reduceCtorEq, ne_eq,
      not_false_eq_true, not_true_eq_false, or_false, false_or, or_true, and_true, true_and,
      false_and, and_false, or_self, and_self]
  all_goals first | exact eq_comm | (constructor <;> rintro ⟨c, h1, h2⟩ <;> exact ⟨c, h1, h2.symm⟩)

theorem partFreq_total (p : ObsPart) :
    (∃ f, p.frequency = .ok f) ∨ p.frequency = .throw .out_of_range := by
  unfold ObsPart.frequency
  have key : ∀ s, (∃ f, band2frequency s p.type.code.band = .ok f) ∨
      band2frequency s p.type.code.band = .throw .out_of_range := by
    intro s
    rcases C02_lookup s p.type.code.band with ⟨f, h, _⟩ | ⟨h, _⟩
    · exact Or.inl ⟨f, h⟩
    · exact Or.inr h
  cases p.type.sys
  case glonass => exact Or.inl ⟨_, rfl⟩
  case mixed => exact Or.inl ⟨_, rfl⟩
  all_goals
    simp only
    first
    | (rcases key .gps with ⟨f, h⟩ | h <;> first | (left; exact ⟨_, by rw [h]; rfl⟩) | (right; rw [h]; rfl))
    | (rcases key .sbas with ⟨f, h⟩ | h <;> first | (left; exact ⟨_, by rw [h]; rfl⟩) | (right; rw [h]; rfl))
    | (rcases key .galileo with ⟨f, h⟩ | h <;> first | (left; exact ⟨_, by rw [h]; rfl⟩) | (right; rw [h]; rfl))
    | (rcases key .beidou with ⟨f, h⟩ | h <;> first | (left; exact ⟨_, by rw [h]; rfl⟩) | (right; rw [h]; rfl))
    | (rcases key .qzss with ⟨f, h⟩ | h <;> first | (left; exact ⟨_, by rw [h]; rfl⟩) | (right; rw [h]; rfl))
    | (rcases key .irnss with ⟨f, h⟩ | h <;> first | (left; exact ⟨_, by rw [h]; rfl⟩) | (right; rw [h]; rfl))

theorem freqFold_ok_iff (l : List ObsPart) (a v : Rat) :
    l.foldlM (fun acc p => do return acc + (← p.frequency)) a = Res.ok v ↔
      ∃ fs, List.Forall₂ IsTerm l fs ∧ v = a + fs.sum := by
  induction l generalizing a with
  | nil => simp [eq_comm]
  | cons p l ih =>
    simp only [List.foldlM_cons, Res.bind_eq_ok, Res.pure_eq, partFreq_ok_iff]
    constructor
    · rintro ⟨b, ⟨f, hf, hb⟩, h⟩
      injection hb with hb; subst hb
      obtain ⟨fs, h1, h2⟩ := (ih _).1 h
      exact ⟨f :: fs, .cons hf h1, by rw [h2, List.sum_cons, add_assoc]⟩
    · rintro ⟨fs, h1, h2⟩
      cases h1 with
      | cons hf h1 =>
        rename_i f fs
        refine ⟨a + f, ⟨f, hf, rfl⟩, (ih _).2 ⟨fs, h1, by rw [h2, List.sum_cons, add_assoc]⟩⟩

theorem freqFold_total (l : List ObsPart) (a : Rat) :
    (∃ v, l.foldlM (fun acc p => do return acc + (← p.frequency)) a = Res.ok v) ∨
    l.foldlM (fun acc p => do return acc + (← p.frequency)) a = Res.throw .out_of_range := by
  induction l generalizing a with
  | nil => exact Or.inl ⟨a, rfl⟩
  | cons p l ih =>
    simp only [List.foldlM_cons]
    rcases partFreq_total p with ⟨f, h⟩ | h
    · rw [h]; simp only [Res.bind_ok, Res.pure_eq]; exact ih _
    · rw [h]; right; rfl

/-- C05: `frequency()` returns `v` exactly when `v` is the sum of the parts' contributions. -/
theorem C05_frequency_iff (o : Observable) (v : Rat) :
    o.frequency = .ok v ↔ ∃ fs, List.Forall₂ IsTerm o.vec fs ∧ v = fs.sum := by
  unfold Observable.frequency
  rw [Res.noexcept_eq_ok, freqFold_ok_iff]
  simp

theorem exists_terms_iff (l : List ObsPart) :
    (∃ fs, List.Forall₂ IsTerm l fs) ↔ ∀ p ∈ l, ∃ f, IsTerm p f := by
  induction l with
  | nil => simp
  | cons p l ih =>
    constructor
    · rintro ⟨fs, h⟩
      cases h with
      | cons h1 h2 =>
        intro q hq
        rcases List.mem_cons.1 hq with rfl | hq
        · exact ⟨_, h1⟩
        · exact ih.1 ⟨_, h2⟩ q hq
    · intro h
      obtain ⟨f, hf⟩ := h p (by simp)
      obtain ⟨fs, hfs⟩ := ih.2 (fun q hq => h q (List.mem_cons_of_mem _ hq))
      exact ⟨f :: fs, .cons hf hfs⟩

/-- C05: the program is terminated exactly when some part (not GLONASS/mixed) has a band that is
not tabulated; there is no other abnormal outcome. -/
theorem C05_terminate_iff (o : Observable) :
    (o.frequency = .terminate ↔
      ∃ p ∈ o.vec, p.type.sys ≠ .glonass ∧ p.type.sys ≠ .mixed ∧
        ∀ c, (p.type.sys, p.type.code.band, c) ∉ specCarrier) ∧
    ((∃ v, o.frequency = .ok v) ∨ o.frequency = .terminate) := by
  have tot : (∃ v, o.frequency = .ok v) ∨ o.frequency = .terminate := by
    unfold Observable.frequency
    rcases freqFold_total o.vec 0 with ⟨v, h⟩ | h
    · left; exact ⟨v, by rw [h]; rfl⟩
    · right; rw [h]; rfl
  refine ⟨?_, tot⟩
  have hok : (∃ v, o.frequency = .ok v) ↔ ∀ p ∈ o.vec, ∃ f, IsTerm p f := by
    rw [← exists_terms_iff]
    constructor
    · rintro ⟨v, h⟩; obtain ⟨fs, h, _⟩ := (C05_frequency_iff o v).1 h; exact ⟨fs, h⟩
    · rintro ⟨fs, h⟩; exact ⟨_, (C05_frequency_iff o _).2 ⟨fs, h, rfl⟩⟩
  constructor
  · intro ht
    have : ¬ ∃ v, o.frequency = .ok v := by rintro ⟨v, h⟩; rw [ht] at h; cases h
    rw [hok] at this
    push Not at this
    obtain ⟨p, hp, hn⟩ := this
    refine ⟨p, hp, fun h => hn 0 (Or.inl ⟨Or.inl h, rfl⟩), fun h => hn 0 (Or.inl ⟨Or.inr h, rfl⟩), ?_⟩
    intro c hc
    by_cases h1 : p.type.sys = .glonass
    · exact hn 0 (Or.inl ⟨Or.inl h1, rfl⟩)
    · by_cases h2 : p.type.sys = .mixed
      · exact hn 0 (Or.inl ⟨Or.inr h2, rfl⟩)
      · exact hn _ (Or.inr ⟨⟨h1, h2⟩, c, hc, rfl⟩)
  · rintro ⟨p, hp, h1, h2, h3⟩
    rcases tot with h | h
    · obtain ⟨f, hf⟩ := hok.1 h p hp
      rcases hf with ⟨h | h, _⟩ | ⟨_, c, hc, _⟩
      · exact absurd h h1
      · exact absurd h h2
      · exact absurd hc (h3 c)
    · exact h

/-- C05: the order of the parts does not matter. -/
theorem C05_perm (a b : Observable) (h : a.vec.Perm b.vec) : a.frequency = b.frequency := by
  have key : ∀ (a b : Observable), a.vec.Perm b.vec → ∀ v, a.frequency = .ok v → b.frequency = .ok v := by
    intro a b h v hv
    obtain ⟨fs, h1, h2⟩ := (C05_frequency_iff a v).1 hv
    obtain ⟨gs, hg, hp⟩ := List.perm_comp_forall₂ h.symm h1
    refine (C05_frequency_iff b v).2 ⟨gs, hg, ?_⟩
    rw [h2, hp.sum_eq]
  rcases (C05_terminate_iff a).2 with ⟨v, hv⟩ | ha
  · rw [hv, key a b h v hv]
  · rcases (C05_terminate_iff b).2 with ⟨v, hv⟩ | hb
    · rw [key b a h.symm v hv, hv]
    · rw [ha, hb]

/-- C05: adding a part adds its contribution. -/
theorem C05_add (o : Observable) (r : RawObs) (c f v : Rat) (hv : o.frequency = .ok v)
    (hf : IsTerm ⟨r, c⟩ f) : (o.add r c).frequency = .ok (v + f) := by
  obtain ⟨fs, h1, h2⟩ := (C05_frequency_iff o v).1 hv
  refine (C05_frequency_iff _ _).2 ⟨fs ++ [f], ?_, ?_⟩
  · exact List.rel_append h1 (.cons hf .nil)
  · simp [h2]

example : IsTerm ⟨⟨.gps, ⟨.pseudorange, 1, 'C'⟩⟩, 2⟩ (154 * 10.23 * 2) :=
  Or.inr ⟨by simp, 154 * 10.23, by simp [specCarrier], rfl⟩
example : (Observable.mk1 ⟨.gps, ⟨.pseudorange, 3, 'C'⟩⟩ 1).frequency = .terminate :=
  (C05_terminate_iff _).1.2 ⟨_, List.mem_singleton_self _, by simp, by simp, by simp [specCarrier]⟩

/-! ## C06 -/

/-- A number as decimal digits, zero-padded to (at least) `w` of them. -/
def Padded (w : Nat) (n : Nat) (ds : List Char) : Prop :=
  (∀ c ∈ ds, c.isDigit = true) ∧ Nat.ofDigitChars 10 ds 0 = n ∧ w ≤ ds.length ∧ (n < 10 ^ w → ds.length = w)

theorem toDigits_padded {w n : Nat} (hw : 0 < w) (h : 10 ^ (w - 1) ≤ n ∨ w = 1) : Padded w n (Nat.toDigits 10 n) := by
  refine ⟨fun c hc => Nat.isDigit_of_mem_toDigits (by omega) (by omega) hc, Nat.ofDigitChars_ten_toDigits, ?_, ?_⟩
  · by_contra hc
    have hpos := @Nat.length_toDigits_pos 10 n
    rcases h with h | h
    · have := (Nat.length_toDigits_le_iff (b := 10) (n := n) (k := w - 1) (by omega) (by omega)).1 (by omega)
      omega
    · omega
  · intro hlt
    have h1 := (Nat.length_toDigits_le_iff (b := 10) (n := n) (k := w) (by omega) hw).2 hlt
    have hpos := @Nat.length_toDigits_pos 10 n
    by_contra hc
    rcases h with h | h
    · have := (Nat.length_toDigits_le_iff (b := 10) (n := n) (k := w - 1) (by omega) (by omega)).1 (by omega)
      omega
    · omega

theorem Padded.zero {w n : Nat} {ds : List Char} (h : Padded w n ds) (hn : n < 10 ^ w) : Padded (w + 1) n ('0' :: ds) := by
  obtain ⟨h1, h2, h3, h4⟩ := h
  refine ⟨?_, ?_, by simp; omega, fun _ => by simp [h4 hn]⟩
  · intro c hc
    rcases List.mem_cons.1 hc with rfl | hc
    · rfl
    · exact h1 c hc
  · rw [Nat.ofDigitChars_cons]; exact h2

/-- C06: letter, then the PRN as decimal number padded with zeros to two digits. -/
theorem C06_format (s : SatSys) (n : Nat) : ∃ ds, satToStr s n = satsysToChar s :: ds ∧ Padded 2 n ds := by
  unfold satToStr
  refine ⟨_, rfl, ?_⟩
  have e : intToString (n : Int) = Nat.toDigits 10 n := by
    unfold intToString; rw [if_neg (by omega), Int.natAbs_natCast]
  rw [e]
  split
  · rename_i h
    exact (toDigits_padded (by omega) (Or.inr rfl)).zero (by omega)
  · rename_i h
    exact toDigits_padded (by omega) (Or.inl (by omega))

/-- C06 (long form): the short form, `-`, the SVN padded to three digits, `/`, and eight bytes of the
COSPAR field. -/
theorem C06_full (s : SatSys) (n m : Nat) (cospar : List Char) :
    ∃ ds, satToStrFull s n m cospar = satToStr s n ++ '-' :: (ds ++ '/' :: cospar.take 8) ∧ Padded 3 m ds := by
  have e : intToString (m : Int) = Nat.toDigits 10 m := by
    unfold intToString; rw [if_neg (by omega), Int.natAbs_natCast]
  unfold satToStrFull
  simp only [e]
  split
  · rename_i h
    refine ⟨'0' :: '0' :: Nat.toDigits 10 m, by simp, ?_⟩
    exact ((toDigits_padded (by omega) (Or.inr rfl)).zero (by omega)).zero (by omega)
  · split
    · rename_i h1 h2
      refine ⟨'0' :: Nat.toDigits 10 m, by simp, ?_⟩
      exact (toDigits_padded (by omega) (Or.inl (by omega))).zero (by omega)
    · rename_i h1 h2
      exact ⟨Nat.toDigits 10 m, by simp, toDigits_padded (by omega) (Or.inl (by omega))⟩

/-- C06: two satellites with non-negative PRN have the same text only if system and PRN agree. -/
theorem C06_injective (s t : SatSys) (p q : Int) (hp : 0 ≤ p) (hq : 0 ≤ q)
    (h : satToStr s p = satToStr t q) : s = t ∧ p = q := by
  obtain ⟨n, rfl⟩ := Int.eq_ofNat_of_zero_le hp
  obtain ⟨m, rfl⟩ := Int.eq_ofNat_of_zero_le hq
  obtain ⟨ds, h1, _, h2, _⟩ := C06_format s n
  obtain ⟨es, h3, _, h4, _⟩ := C06_format t m
  rw [h1, h3] at h
  injection h with h5 h6
  subst h6
  exact ⟨C01_injective s t h5, by rw [← h2, ← h4]⟩

/-- Without the hypothesis: the unset PRN -1 prints as a three-char tail "0-1". -/
example : satToStr .gps (-1) = c!"G0-1" := by decide
example : satToStr .galileo 7 = c!"E07" ∧ satToStr .beidou 103 = c!"C103" := by decide

/-! ## C54 -/

/-- C54: an observable is of mixed systems exactly when two of its parts belong to different systems. -/
theorem C54_mixed_iff (o : Observable) :
    o.isMixed = true ↔ ∃ p ∈ o.vec, ∃ q ∈ o.vec, p.type.sys ≠ q.type.sys := by
  obtain ⟨v⟩ := o
  cases v with
  | nil => simp [Observable.isMixed]
  | cons p0 ps =>
    simp only [Observable.isMixed, List.any_eq_true, bne_iff_ne, ne_eq]
    constructor
    · rintro ⟨p, hp, h⟩
      exact ⟨p, hp, p0, by simp, h⟩
    · rintro ⟨p, hp, q, hq, h⟩
      by_cases hp0 : p.type.sys = p0.type.sys
      · exact ⟨q, hq, fun h' => h (by rw [hp0, h'])⟩
      · exact ⟨p, hp, hp0⟩

/-- C54: so the answer does not depend on the order in which the parts were added, and adding a part
makes an observable mixed exactly when it was mixed or the new part differs from one of the others. -/
theorem C54_add (o : Observable) (r : RawObs) (c : Rat) :
    (o.add r c).isMixed = true ↔ o.isMixed = true ∨ ∃ p ∈ o.vec, p.type.sys ≠ r.sys := by
  rw [C54_mixed_iff, C54_mixed_iff]
  simp only [Observable.add, List.mem_append, List.mem_singleton]
  constructor
  · rintro ⟨p, hp | rfl, q, hq | rfl, h⟩
    · exact Or.inl ⟨p, hp, q, hq, h⟩
    · exact Or.inr ⟨p, hp, h⟩
    · exact Or.inr ⟨q, hq, fun h' => h h'.symm⟩
    · exact absurd rfl h
  · rintro (⟨p, hp, q, hq, h⟩ | ⟨p, hp, h⟩)
    · exact ⟨p, Or.inl hp, q, Or.inl hq, h⟩
    · exact ⟨p, Or.inl hp, _, Or.inr rfl, h⟩

theorem C54_order (o o' : Observable) (h : o.vec.Perm o'.vec) : o.isMixed = o'.isMixed := by
  rw [Bool.eq_iff_iff, C54_mixed_iff, C54_mixed_iff]
  simp only [h.mem_iff]

example : ((Observable.mk1 ⟨.gps, ⟨.pseudorange, 1, 'C'⟩⟩ 1).add ⟨.galileo, ⟨.pseudorange, 1, 'C'⟩⟩ (-1)).isMixed = true := by decide
example : ((Observable.mk1 ⟨.gps, ⟨.pseudorange, 1, 'C'⟩⟩ 1).add ⟨.gps, ⟨.pseudorange, 2, 'W'⟩⟩ (-1)).isMixed = false := by decide

end Ggnss
