import Verif.Model.ObsText
import Verif.Spec.ObsText
import Verif.Lemmas.Num
import Verif.Props.Obs
import Mathlib.Tactic.Linarith
import Mathlib.Tactic.NormNum
import Mathlib.Tactic.FieldSimp
/-!
# C64: the text of an observable
-/
namespace Ggnss

theorem roundHalfEven_close {x : Rat} (hx : 0 ≤ x) : |(roundHalfEven x : Rat) - x| ≤ 1 / 2 := by
  have h0 : 0 ≤ x.floor := by
    have : ((0 : Int) : Rat) ≤ x := by simpa using hx
    exact Rat.le_floor_iff.2 this
  have hn : ((x.floor.toNat : Nat) : Rat) = (x.floor : Rat) := by
    have : ((x.floor.toNat : Nat) : Int) = x.floor := Int.toNat_of_nonneg h0
    exact_mod_cast congrArg (fun z : Int => (z : Rat)) this
  have h1 : (x.floor : Rat) ≤ x := Rat.floor_le x
  have h2 : x < (x.floor : Rat) + 1 := by simpa using Rat.lt_floor_add_one x
  unfold roundHalfEven
  simp only [hn]
  rw [abs_le]
  split
  · rw [hn]; constructor <;> linarith
  · split
    · push_cast; rw [hn]; constructor <;> linarith
    · split
      · rw [hn]; constructor <;> linarith
      · push_cast; rw [hn]; constructor <;> linarith

theorem roundHalfEven_int (k : Nat) : roundHalfEven (k : Rat) = k := by
  unfold roundHalfEven
  have : ((k : Rat)).floor = (k : Int) := by exact_mod_cast Rat.floor_intCast (k : Int)
  simp [this]

/-- The nearest integer when there is only one. -/
theorem roundHalfEven_of {x : Rat} (hx : 0 ≤ x) {n : Nat} (h : |(n : Rat) - x| < 1 / 2) : roundHalfEven x = n := by
  have h1 := roundHalfEven_close hx
  rw [abs_le] at h1
  rw [abs_lt] at h
  have h2 : ((roundHalfEven x : Int) : Rat) - (n : Int) < 1 := by push_cast; linarith
  have h3 : (-1 : Rat) < ((roundHalfEven x : Int) : Rat) - (n : Int) := by push_cast; linarith
  have h4 : (roundHalfEven x : Int) - (n : Int) < 1 := by exact_mod_cast h2
  have h5 : -1 < (roundHalfEven x : Int) - (n : Int) := by exact_mod_cast h3
  omega

theorem sixDigits_spec {n : Nat} (h : n < 1000000) :
    allDigits (sixDigits n) ∧ (sixDigits n).length = 6 ∧ Nat.ofDigitChars 10 (sixDigits n) 0 = n := by
  have hl : (Nat.toDigits 10 n).length ≤ 6 :=
    (Nat.length_toDigits_le_iff (b := 10) (n := n) (k := 6) (by omega) (by omega)).2 (by omega)
  unfold sixDigits
  refine ⟨?_, by simp; omega, ?_⟩
  · intro c hc
    rcases List.mem_append.1 hc with hc | hc
    · rw [(List.mem_replicate.1 hc).2]; rfl
    · exact Nat.isDigit_of_mem_toDigits (by omega) (by omega) hc
  · rw [Nat.ofDigitChars_append]
    have : ∀ k, Nat.ofDigitChars 10 (List.replicate k '0') 0 = 0 := by
      intro k
      induction k with
      | zero => rfl
      | succ k ih => rw [List.replicate_succ, Nat.ofDigitChars_cons]; exact ih
    rw [this]
    exact Nat.ofDigitChars_ten_toDigits

/-- The numeral printed for a coefficient. -/
def coefNumeral (q : Rat) : Numeral :=
  let n := roundHalfEven ((if q < 0 then -q else q) * 1000000)
  ⟨0, (if q < 0 then some true else none), Nat.toDigits 10 (n / 1000000), some (sixDigits (n % 1000000)), none⟩

theorem fixed6_text (q : Rat) : fixed6 q = (coefNumeral q).text := by
  unfold fixed6 coefNumeral Numeral.text Numeral.fracText Numeral.expText
  by_cases h : q < 0 <;> simp [h, signText]

theorem coefNumeral_value (q : Rat) : (coefNumeral q).value =
    (if q < 0 then -1 else 1) * (roundHalfEven ((if q < 0 then -q else q) * 1000000) : Rat) / 1000000 := by
  generalize hN : roundHalfEven ((if q < 0 then -q else q) * 1000000) = N
  have hip : allDigits (Nat.toDigits 10 (N / 1000000)) := fun c hc =>
    Nat.isDigit_of_mem_toDigits (by omega) (by omega) hc
  obtain ⟨h1, h2, h3⟩ := sixDigits_spec (n := N % 1000000) (Nat.mod_lt _ (by omega))
  have e : (N : Rat) = 1000000 * ((N / 1000000 : Nat) : Rat) + ((N % 1000000 : Nat) : Rat) := by
    exact_mod_cast (Nat.div_add_mod N 1000000).symm
  unfold coefNumeral Numeral.value Numeral.expVal Numeral.fracDigits
  simp only [hN, Option.getD_some, h2, digVal_eq _ hip, digVal_eq _ h1, h3, Nat.ofDigitChars_ten_toDigits]
  rw [e]
  by_cases h : q < 0
  · simp [h, signVal]; ring
  · simp [h, signVal]; ring

/-- C64: the coefficient is written rounded to the sixth decimal. -/
theorem coefNumeral_rounded (q : Rat) : Rounded6 q (coefNumeral q) := by
  have hd : ∀ n, allDigits (Nat.toDigits 10 n) := fun n c hc => Nat.isDigit_of_mem_toDigits (by omega) (by omega) hc
  have hne : ∀ n, Nat.toDigits 10 n ≠ [] := fun n h => by
    have := @Nat.length_toDigits_pos 10 n
    rw [h] at this; simp at this
  have h6 : ∀ n : Nat, n % 1000000 < 1000000 := fun n => Nat.mod_lt _ (by omega)
  refine ⟨⟨hd _, (sixDigits_spec (h6 _)).1, Or.inl (hne _), by intro s ds h; simp [coefNumeral] at h⟩, rfl, rfl, hne _,
    ⟨_, rfl, (sixDigits_spec (h6 _)).2.1⟩, rfl, ?_⟩
  rw [coefNumeral_value]
  have hx : 0 ≤ (if q < 0 then -q else q) * 1000000 := by
    split <;> linarith
  have := roundHalfEven_close hx
  generalize (roundHalfEven ((if q < 0 then -q else q) * 1000000) : Rat) = N at this ⊢
  rw [abs_le] at this ⊢
  by_cases h : q < 0
  · simp only [h, if_true] at this ⊢
    constructor <;> linarith [this.1, this.2]
  · simp only [h, if_false] at this ⊢
    constructor <;> linarith [this.1, this.2]

/-- A coefficient with six decimals is written exactly. -/
theorem coefNumeral_exact {q : Rat} {k : Int} (h : q * 1000000 = k) : (coefNumeral q).value = q := by
  rw [coefNumeral_value]
  have hk : (if q < 0 then -q else q) * 1000000 = ((k.natAbs : Nat) : Rat) := by
    by_cases h0 : q < 0
    · have hk0 : k < 0 := by
        have : (k : Rat) < 0 := by rw [← h]; linarith
        exact_mod_cast this
      have h5 : ((k.natAbs : Nat) : Int) = -k := by omega
      have : ((k.natAbs : Nat) : Rat) = -k := by rw [← Int.cast_natCast, h5]; push_cast; rfl
      rw [this, ← h]; simp [h0]
    · have hk0 : 0 ≤ k := by
        have : (0 : Rat) ≤ k := by rw [← h]; linarith [not_lt.1 h0]
        exact_mod_cast this
      have h5 : ((k.natAbs : Nat) : Int) = k := by omega
      have : ((k.natAbs : Nat) : Rat) = k := by rw [← Int.cast_natCast, h5]
      rw [this, ← h]; simp [h0]
  rw [hk, roundHalfEven_int, ← hk]
  by_cases h0 : q < 0 <;> simp [h0]

theorem fixed6_strtod (q : Rat) : strtod (fixed6 q) = some ((coefNumeral q).value, [], dblErange (coefNumeral q).value) := by
  have := strtod_shape (coefNumeral q) (coefNumeral_rounded q).wf [] (by intro c hc; simp at hc)
  rw [fixed6_text]
  simpa using this

theorem fixed6_inj {q q' : Rat} (h : fixed6 q = fixed6 q') : (coefNumeral q).value = (coefNumeral q').value := by
  have h1 := fixed6_strtod q
  rw [h, fixed6_strtod q'] at h1
  simp only [Option.some.injEq, Prod.mk.injEq] at h1
  exact h1.1.symm

theorem fixed6_no_plus (q : Rat) : '+' ∉ fixed6 q := by
  have hd : ∀ n, '+' ∉ Nat.toDigits 10 n := fun n hc => by
    have := Nat.isDigit_of_mem_toDigits (by omega) (by omega) hc
    exact absurd this (by decide)
  unfold fixed6
  simp only [List.mem_append, List.mem_cons, not_or]
  refine ⟨by split <;> simp, hd _, by decide, ?_⟩
  unfold sixDigits
  simp only [List.mem_append, not_or]
  exact ⟨fun hc => by have := (List.mem_replicate.1 hc).2; exact absurd this (by decide), hd _⟩

/-- The text the program makes of several terms. -/
theorem foldl_sum (t : List Char) (ps : List ObsPart) :
    ps.foldl (fun str q => str ++ ('+' :: q.toStr)) t = SumText (t :: ps.map ObsPart.toStr) := by
  have key : ∀ (ps : List ObsPart) (a t : List Char), ps.foldl (fun str q => str ++ ('+' :: q.toStr)) (a ++ t) =
      a ++ SumText (t :: ps.map ObsPart.toStr) := by
    intro ps
    induction ps with
    | nil => intro a t; simp [SumText]
    | cons p ps ih =>
      intro a t
      simp only [List.foldl_cons, List.map_cons, SumText]
      have : a ++ t ++ '+' :: p.toStr = (a ++ t ++ ['+']) ++ p.toStr := by simp
      rw [this, ih]
      simp
  simpa using key ps [] t

theorem bandDigit {b : Int} (h0 : 0 ≤ b) (h9 : b ≤ 9) :
    ∃ d : Char, (intToString b).headD '?' = d ∧ d.isDigit = true ∧ (d.toNat : Int) - 48 = b := by
  obtain ⟨n, rfl⟩ := Int.eq_ofNat_of_zero_le h0
  have hn : n ≤ 9 := by omega
  have : ∀ n : Nat, n ≤ 9 → ((intToString (n : Int)).headD '?').isDigit = true ∧
      (((intToString (n : Int)).headD '?').toNat : Int) - 48 = n := by decide
  exact ⟨_, rfl, this n hn⟩

theorem termText {p : ObsPart} (h : p.Plain) : TermText p p.toStr := by
  obtain ⟨d, h1, h2, h3⟩ := bandDigit h.2.1 h.2.2
  refine ⟨_, _, d, coefNumeral p.coef, (C01_letters _ _).1 rfl, obsTypeToChar_mem _ h.1, h2, h3, coefNumeral_rounded _, ?_⟩
  unfold ObsPart.toStr RawObs.toStr ObsCode.toStr
  rw [h1, fixed6_text]
  rfl

/-- C64: an observable is written as its terms in order, each with system, code and the coefficient rounded to six
decimals, joined by plus signs. -/
theorem C64_format (o : Observable) (hne : o.vec ≠ []) (hp : ∀ p ∈ o.vec, p.Plain) :
    ∃ ts, o.toStr = .ok (SumText ts) ∧ List.Forall₂ TermText o.vec ts := by
  match hv : o.vec with
  | [] => exact absurd hv hne
  | p :: ps =>
    refine ⟨(p :: ps).map ObsPart.toStr, ?_, ?_⟩
    · unfold Observable.toStr
      rw [hv]
      simp only [foldl_sum, List.map_cons]
    · rw [List.forall₂_map_right_iff, List.forall₂_same]
      intro q hq
      exact termText (hp q (hv ▸ hq))

/-- Observables from the constructors and `add` have a text. -/
theorem C64_built (r : RawObs) (c : Rat) (l : List (RawObs × Rat)) :
    ∃ txt, (l.foldl (fun o x => o.add x.1 x.2) (Observable.mk1 r c)).toStr = .ok txt := by
  have key : ∀ (l : List (RawObs × Rat)) (o : Observable), o.vec ≠ [] →
      (l.foldl (fun o x => o.add x.1 x.2) o).vec ≠ [] := by
    intro l
    induction l with
    | nil => intro o h; simpa using h
    | cons x l ih => intro o h; exact ih _ (by simp [Observable.add])
  have := key l (Observable.mk1 r c) (by simp [Observable.mk1])
  unfold Observable.toStr
  match hv : (l.foldl (fun o x => o.add x.1 x.2) (Observable.mk1 r c)).vec with
  | [] => exact absurd hv this
  | p :: ps => exact ⟨_, by simp only [hv]; rfl⟩

/-- An observable whose vector was emptied through `underlying_vector()` must not be printed. -/
theorem C64_empty_ub : (⟨[]⟩ : Observable).toStr = .ub := rfl

theorem obsTypeToChar_inj {a b : ObsType} (h : obsTypeToChar a = obsTypeToChar b) : a = b := by
  cases a <;> cases b <;> first | rfl | (revert h; decide)

theorem split_plus {a b x y : List Char} (ha : '+' ∉ a) (hb : '+' ∉ b) (hx : ∀ c, x.head? = some c → c = '+')
    (hy : ∀ c, y.head? = some c → c = '+') (h : a ++ x = b ++ y) : a = b ∧ x = y := by
  induction a generalizing b with
  | nil =>
    cases b with
    | nil => exact ⟨rfl, by simpa using h⟩
    | cons c b =>
      simp at h
      have := hx c (by simp [h])
      subst this; simp at hb
  | cons c a ih =>
    cases b with
    | nil =>
      simp at h
      have := hy c (by simp [← h])
      subst this; simp at ha
    | cons d b =>
      simp at h ha hb
      obtain ⟨h1, h2⟩ := ih ha.2 hb.2 h.2
      exact ⟨by rw [h.1, h1], h2⟩

theorem part_inj {p p' : ObsPart} {x y : List Char} (hp : p.Plain) (hp' : p'.Plain) (hx : ∀ c, x.head? = some c → c = '+')
    (hy : ∀ c, y.head? = some c → c = '+') (h : p.toStr ++ x = p'.toStr ++ y) :
    p.type = p'.type ∧ fixed6 p.coef = fixed6 p'.coef ∧ x = y := by
  obtain ⟨d, h1, h2, h3⟩ := bandDigit hp.2.1 hp.2.2
  obtain ⟨d', h1', h2', h3'⟩ := bandDigit hp'.2.1 hp'.2.2
  unfold ObsPart.toStr RawObs.toStr ObsCode.toStr at h
  rw [h1, h1'] at h
  simp at h
  obtain ⟨e1, e2, e3, e4, e5⟩ := h
  obtain ⟨e6, e7⟩ := split_plus (fixed6_no_plus _) (fixed6_no_plus _) hx hy e5
  refine ⟨?_, e6, e7⟩
  have i1 := C01_injective _ _ e1
  have i2 := obsTypeToChar_inj e2
  have i3 : p.type.code.band = p'.type.code.band := by rw [← h3, ← h3', e3]
  match p, p' with
  | ⟨⟨a, ⟨b, c, d⟩⟩, e⟩, ⟨⟨a', ⟨b', c', d'⟩⟩, e'⟩ => simp_all

theorem sum_inj : ∀ (ps ps' : List ObsPart), ps ≠ [] → ps' ≠ [] → (∀ p ∈ ps, p.Plain) → (∀ p ∈ ps', p.Plain) →
    SumText (ps.map ObsPart.toStr) = SumText (ps'.map ObsPart.toStr) →
    List.Forall₂ (fun p p' => p.type = p'.type ∧ fixed6 p.coef = fixed6 p'.coef) ps ps'
  | [], _, h, _, _, _, _ => absurd rfl h
  | _, [], _, h, _, _, _ => absurd rfl h
  | [p], [p'], _, _, hp, hp', h => by
    simp [SumText] at h
    obtain ⟨h1, h2, _⟩ := part_inj (x := []) (y := []) (hp p (by simp)) (hp' p' (by simp)) (by simp) (by simp) (by simpa using h)
    exact .cons ⟨h1, h2⟩ .nil
  | [p], p' :: q' :: ps', _, _, hp, hp', h => by
    simp [SumText] at h
    obtain ⟨_, _, h3⟩ := part_inj (x := []) (y := '+' :: SumText (q'.toStr :: List.map ObsPart.toStr ps')) (hp p (by simp)) (hp' p' (by simp)) (by simp) (by intro c hc; simpa using hc.symm) (by simpa using h)
    simp at h3
  | p :: q :: ps, [p'], _, _, hp, hp', h => by
    simp [SumText] at h
    obtain ⟨_, _, h3⟩ := part_inj (x := '+' :: SumText (q.toStr :: List.map ObsPart.toStr ps)) (y := []) (hp p (by simp)) (hp' p' (by simp)) (by intro c hc; simpa using hc.symm) (by simp) (by simpa using h)
    simp at h3
  | p :: q :: ps, p' :: q' :: ps', _, _, hp, hp', h => by
    simp only [List.map_cons, SumText] at h
    obtain ⟨h1, h2, h3⟩ := part_inj (hp p (by simp)) (hp' p' (by simp)) (by intro c hc; simpa using hc.symm)
      (by intro c hc; simpa using hc.symm) h
    have h4 : SumText ((q :: ps).map ObsPart.toStr) = SumText ((q' :: ps').map ObsPart.toStr) := by simpa using h3
    exact .cons ⟨h1, h2⟩ (sum_inj (q :: ps) (q' :: ps') (by simp) (by simp) (fun x hx => hp x (by simp [hx]))
      (fun x hx => hp' x (by simp [hx])) h4)

theorem toStr_inj {a b : Observable} {txt : List Char} (ha : ∀ p ∈ a.vec, p.Plain) (hb : ∀ p ∈ b.vec, p.Plain)
    (h1 : a.toStr = .ok txt) (h2 : b.toStr = .ok txt) :
    List.Forall₂ (fun p p' => p.type = p'.type ∧ fixed6 p.coef = fixed6 p'.coef) a.vec b.vec := by
  unfold Observable.toStr at h1 h2
  match hva : a.vec, hvb : b.vec with
  | [], _ => rw [hva] at h1; cases h1
  | _ :: _, [] => rw [hvb] at h2; cases h2
  | p :: ps, q :: qs =>
    rw [hva] at h1 ha; rw [hvb] at h2 hb
    simp only [foldl_sum, Res.ok.injEq] at h1 h2
    exact sum_inj _ _ (by simp) (by simp) ha hb (by simpa using h1.trans h2.symm)

/-- C64: two observables with the same text have the same terms, except that coefficients may differ by at most one
unit of the sixth decimal. -/
theorem C64_same_text (a b : Observable) (txt : List Char) (ha : ∀ p ∈ a.vec, p.Plain) (hb : ∀ p ∈ b.vec, p.Plain)
    (h1 : a.toStr = .ok txt) (h2 : b.toStr = .ok txt) :
    List.Forall₂ (fun p p' => p.type = p'.type ∧ |p.coef - p'.coef| ≤ 1 / 1000000) a.vec b.vec := by
  refine (toStr_inj ha hb h1 h2).imp ?_
  rintro p p' ⟨h3, h4⟩
  refine ⟨h3, ?_⟩
  have h5 := (coefNumeral_rounded p.coef).close
  have h6 := (coefNumeral_rounded p'.coef).close
  rw [fixed6_inj h4] at h5
  rw [abs_le] at h5 h6 ⊢
  constructor <;> linarith [h5.1, h5.2, h6.1, h6.2]

/-- C64: with coefficients of at most six decimals the text determines the observable. -/
theorem C64_injective (a b : Observable) (txt : List Char) (ha : ∀ p ∈ a.vec, p.Plain ∧ p.SixDecimals)
    (hb : ∀ p ∈ b.vec, p.Plain ∧ p.SixDecimals) (h1 : a.toStr = .ok txt) (h2 : b.toStr = .ok txt) : a = b := by
  have h := toStr_inj (fun p hp => (ha p hp).1) (fun p hp => (hb p hp).1) h1 h2
  have key : ∀ (l l' : List ObsPart), (∀ p ∈ l, p.SixDecimals) → (∀ p ∈ l', p.SixDecimals) →
      List.Forall₂ (fun p p' => p.type = p'.type ∧ fixed6 p.coef = fixed6 p'.coef) l l' → l = l' := by
    intro l l' hl hl' h
    induction h with
    | nil => rfl
    | @cons p p' l l' hp _ ih =>
      obtain ⟨k, hk⟩ := hl p (by simp)
      obtain ⟨k', hk'⟩ := hl' p' (by simp)
      have e : p.coef = p'.coef := by
        rw [← coefNumeral_exact hk, ← coefNumeral_exact hk', fixed6_inj hp.2]
      have : p = p' := by
        cases p; cases p'; simp_all
      rw [this, ih (fun x hx => hl x (by simp [hx])) (fun x hx => hl' x (by simp [hx]))]
  cases a; cases b
  simp only [Observable.mk.injEq]
  exact key _ _ (fun p hp => (ha p hp).2) (fun p hp => (hb p hp).2) h

/-- The ionosphere-free combination of `test/pp_rnx.cpp` and the one rounded to six decimals differ but have the
same text. -/
theorem C64_collision : ∃ a b : Observable, a.eq b = false ∧ a.toStr = b.toStr ∧ ∃ txt, a.toStr = .ok txt := by
  refine ⟨Observable.mk1 ⟨.gps, ⟨.pseudorange, 1, 'C'⟩⟩ 2.5457277801631593, Observable.mk1 ⟨.gps, ⟨.pseudorange, 1, 'C'⟩⟩ 2.545728,
    ?_, ?_, ?_⟩
  · norm_num [Observable.eq, Observable.mk1]
  · have : fixed6 2.5457277801631593 = fixed6 2.545728 := by
      unfold fixed6
      rw [roundHalfEven_of (n := 2545728) (by norm_num) (by norm_num [abs_lt]), roundHalfEven_of (n := 2545728) (by norm_num) (by norm_num [abs_lt])]
      norm_num
    simp only [Observable.toStr, Observable.mk1, ObsPart.toStr, this]
  · exact ⟨_, rfl⟩

/-- Texts of a two-term combination. -/
example : (⟨[⟨⟨.gps, ⟨.pseudorange, 1, 'C'⟩⟩, 2.545727⟩, ⟨⟨.gps, ⟨.pseudorange, 2, 'W'⟩⟩, -1.5⟩]⟩ : Observable).toStr =
    .ok c!"G::C1C*2.545727+G::C2W*-1.500000" := by
  have h1 : fixed6 2.545727 = c!"2.545727" := by
    unfold fixed6
    rw [roundHalfEven_of (n := 2545727) (by norm_num) (by norm_num [abs_lt]), if_neg (by norm_num)]
    decide
  have h2 : fixed6 (-1.5) = c!"-1.500000" := by
    unfold fixed6
    rw [roundHalfEven_of (n := 1500000) (by norm_num) (by norm_num [abs_lt]), if_pos (by norm_num)]
    decide
  simp only [Observable.toStr, ObsPart.toStr, List.foldl_cons, List.foldl_nil, h1, h2]
  decide

end Ggnss
