import Verif.Model.ReadFp
import Verif.Props.Sp3
import Verif.Spec.ReadFp
import Verif.Lemmas.FpErr
import Verif.Props.ObsExample
/-!
# C78: values delivered by the observation and SP3 readers, in double precision
-/
namespace Ggnss

/-- As `codeSum`, in double precision. -/
noncomputable def codeSumF (F : Fp) : List (Option Rat × Rat) → (v : ℝ) → ℝ
  | [], v => v
  | (none, _) :: ps, _ => codeSumF F ps (F.rnd (missingMark : ℝ))
  | (some x, c) :: ps, v => codeSumF F ps (F.rnd (v + F.rnd (F.rnd (x : ℝ) * (c : ℝ))))

theorem rnd_marker {F : Fp} {x : Rat} (h : AwayFromMarker x) : F.rnd (x : ℝ) ≠ F.rnd (missingMark : ℝ) := by
  intro he
  have hm : |(missingMark : ℝ)| ≤ 1000 := by unfold missingMark; norm_num
  have h1 : |F.rnd (missingMark : ℝ) - missingMark| ≤ 2 ^ (-44 : ℤ) :=
    F.rndX 10 hm (by norm_num) (by norm_num) (by norm_num)
  have hb : |F.rnd (missingMark : ℝ)| ≤ 1000.5 := by
    have := abs_sub_abs_le_abs_sub (F.rnd (missingMark : ℝ)) missingMark
    have h2 : (2 : ℝ) ^ (-44 : ℤ) ≤ 0.5 := by norm_num
    norm_num at *
    linarith
  -- x itself is not large
  have hx : |(x : ℝ)| ≤ 1024 := by
    by_contra hlt
    push Not at hlt
    have hd : IsDouble (1024 : ℝ) := isDouble_of (n := 1024) (e := 0) (by norm_num) (by norm_num) (by norm_num)
    rcases le_total 0 (x : ℝ) with h0 | h0
    · rw [abs_of_nonneg h0] at hlt
      have := F.le_rnd hd hlt.le
      rw [he] at this
      have := (abs_le.1 hb).2
      norm_num at *; linarith
    · rw [abs_of_nonpos h0] at hlt
      have := F.rnd_le (x := (x : ℝ)) hd.neg (by linarith)
      rw [he] at this
      have := (abs_le.1 hb).1
      norm_num at *; linarith
  have h2 : |F.rnd (x : ℝ) - x| ≤ 2 ^ (-44 : ℤ) := F.rndX 10 hx (by norm_num) (by norm_num) (by norm_num)
  have h3 : (1 : ℝ) / 1000000 ≤ |(x : ℝ) - missingMark| := by
    have : ((1 / 1000000 : Rat) : ℝ) ≤ ((|x - missingMark| : Rat) : ℝ) := by exact_mod_cast h
    push_cast at this
    exact this
  have h4 : |(x : ℝ) - missingMark| ≤ 2 ^ (-44 : ℤ) + 2 ^ (-44 : ℤ) := by
    have := abs_sub_le (x : ℝ) (F.rnd x) missingMark
    rw [abs_sub_comm (x : ℝ) (F.rnd x)] at this
    rw [he] at this h2
    linarith
  norm_num at *
  linarith

/-- The values are away from the marker. -/
def PartsAway (xs : List (Option Rat × Rat)) : Prop := ∀ p ∈ xs, ∀ x, p.1 = some x → AwayFromMarker x

theorem collectPartsF_got (F : Fp) {l buf : List Char} (hl : NUL ∉ l) : ∀ (prs : IdPairs) (xs : List (Option Rat × Rat)) (ds : List Int),
    List.Forall₂ (fun (pr : Nat × Rat) (x : (Option Rat × Rat) × Int) => Got l pr.1 x.1.1 x.2 ∧ x.1.2 = pr.2) prs (xs.zip ds) → xs.length = ds.length →
    PartsAway xs →
    ∀ (v : ℝ) (st : Int) (t : List Char) (o : RawRnxObs), IsTbuf t →
    ∃ t' o', collectPartsF F (fillLine buf l) l.length prs v st t o 0 = .ok (.inr (codeSumF F xs v, st - ds.sum, t', o', 0)) ∧ IsTbuf t' := by
  intro prs
  induction prs with
  | nil =>
    intro xs ds h hlen _ v st t o ht
    cases xs with
    | nil =>
      cases ds with
      | nil => exact ⟨t, o, by simp [collectPartsF, codeSumF], ht⟩
      | cons => simp at hlen
    | cons => cases ds with
      | nil => simp at hlen
      | cons => cases h
  | cons pr prs ih =>
    intro xs ds h hlen haw v st t o ht
    cases xs with
    | nil => simp at h
    | cons x xs =>
    cases ds with
    | nil => simp at h
    | cons d ds =>
    rw [List.zip_cons_cons] at h
    obtain ⟨⟨hg, hc⟩, hrest⟩ := List.forall₂_cons.1 h
    obtain ⟨x, c⟩ := x
    simp only at hg hc
    subst hc
    have ih' := fun v st t o (ht : IsTbuf t) => ih xs ds hrest (by simpa using hlen) (fun p hp => haw p (List.mem_cons_of_mem _ hp)) v st t o ht
    unfold collectPartsF
    simp only
    cases hg with
    | short hs =>
      rw [if_neg (by omega)]
      obtain ⟨t', o', e, ht'⟩ := ih' (F.rnd (MISSING : ℝ)) st t { o with val := MISSING } ht
      refine ⟨t', o', ?_, ht'⟩
      rw [e]; simp [codeSumF, MISSING_eq]
    | blank hf hb =>
      rw [if_pos (by omega)]
      have hx : ((fillLine buf l).drop (pr.1 * 16 + 3)).take 16 = fieldCols l pr.1 := by
        unfold fieldCols
        rw [drop_take_fill (by omega)]
        congr 2; omega
      have hlen16 : (fieldCols l pr.1).length = 16 := by unfold fieldCols; simp; omega
      have hcs : NUL ∉ fieldCols l pr.1 := fun hm => hl (List.mem_of_mem_drop (List.mem_of_mem_take hm))
      rw [hx, ht.copy hlen16, Res.bind_ok, rawResolve_blank hcs hb, Res.bind_ok]
      rw [if_neg (by simp), if_neg (by simp)]
      obtain ⟨t', o', e, ht'⟩ := ih' (F.rnd (MISSING : ℝ)) (st - 1) _ { o with val := MISSING } (IsTbuf.new hlen16)
      refine ⟨t', o', ?_, ht'⟩
      rw [e]; simp [codeSumF, MISSING_eq]; ring
    | value f hw ht1 hm =>
      have hlen16 : (fieldCols l pr.1).length = 16 := by rw [ht1]; exact hw.length
      have hf := fieldCols_full hlen16
      rw [if_pos (by omega)]
      have hx : ((fillLine buf l).drop (pr.1 * 16 + 3)).take 16 = fieldCols l pr.1 := by
        unfold fieldCols
        rw [drop_take_fill (by omega)]
        congr 2; omega
      have hne : F.rnd ((f.num.value + signVal f.num.sign * f.spill : Rat) : ℝ) ≠ F.rnd (MISSING : ℝ) := rnd_marker (F := F) (haw _ (List.mem_cons_self ..) f.readValue rfl)
      rw [hx, ht.copy hlen16, Res.bind_ok, ht1, rawResolve_field hw, Res.bind_ok]
      simp only []
      rw [if_neg (by simp), if_pos hne]
      obtain ⟨t', o', e, ht'⟩ := ih' (F.rnd (v + F.rnd (F.rnd ((f.readValue : Rat) : ℝ) * (pr.2 : ℝ)))) st _
        ⟨f.num.value + signVal f.num.sign * f.spill, flagNum f.lli, flagNum f.ssi⟩ (ht1 ▸ IsTbuf.new hlen16)
      refine ⟨t', o', ?_, ht'⟩
      simp only [List.sum_cons, zero_add]
      exact e
    | marker f hw ht1 hm =>
      have hlen16 : (fieldCols l pr.1).length = 16 := by rw [ht1]; exact hw.length
      have hf := fieldCols_full hlen16
      rw [if_pos (by omega)]
      have hx : ((fillLine buf l).drop (pr.1 * 16 + 3)).take 16 = fieldCols l pr.1 := by
        unfold fieldCols
        rw [drop_take_fill (by omega)]
        congr 2; omega
      have heq : f.num.value + signVal f.num.sign * f.spill = MISSING := hm
      rw [hx, ht.copy hlen16, Res.bind_ok, ht1, rawResolve_field hw, Res.bind_ok]
      simp only []
      rw [if_neg (by simp), if_neg (by rw [heq]; simp)]
      obtain ⟨t', o', e, ht'⟩ := ih' (F.rnd (MISSING : ℝ)) (st - 1) _
        ⟨f.num.value + signVal f.num.sign * f.spill, flagNum f.lli, flagNum f.ssi⟩ (ht1 ▸ IsTbuf.new hlen16)
      refine ⟨t', o', ?_, ht'⟩
      rw [e]; simp [codeSumF, MISSING_eq]; ring

theorem collectObsF_got (F : Fp) {l buf : List Char} (hl : NUL ∉ l) : ∀ (sysobs : List IdPairs) (xss : List (List (Option Rat × Rat))),
    List.Forall₂ (GotAll l) sysobs xss → (∀ xs ∈ xss, PartsAway xs) →
    ∀ (k : Nat) (vals : List ℝ) (st : Int) (t : List Char) (o : RawRnxObs), IsTbuf t → k + sysobs.length ≤ vals.length →
    ∃ st', st' ≤ st ∧ collectObsF F (fillLine buf l) l.length sysobs k vals st t o 0 =
      .ok (st', vals.take k ++ xss.map (codeSumF F · 0) ++ vals.drop (k + sysobs.length), 0) := by
  intro sysobs
  induction sysobs with
  | nil =>
    intro xss h _ k vals st t o ht hk
    cases h
    exact ⟨st, le_refl _, by simp [collectObsF]⟩
  | cons prs sysobs ih =>
    intro xss h haw k vals st t o ht hk
    obtain ⟨xs, xss, hg, hr, rfl⟩ := List.forall₂_cons_left_iff.1 h
    obtain ⟨ds, h1, h2, h3⟩ := hg.split
    obtain ⟨t', o', e, ht'⟩ := collectPartsF_got F (buf := buf) hl prs xs ds h1 h2 (haw xs (by simp)) 0 st t o ht
    unfold collectObsF
    rw [e, Res.bind_ok]
    simp only [List.length_cons] at hk
    simp only
    unfold valStoreF
    rw [if_pos (by omega), Res.bind_ok]
    obtain ⟨st', hst, e2⟩ := ih xss hr (fun xs h => haw xs (by simp [h])) (k + 1) (vals.set k (codeSumF F xs 0)) (st - ds.sum) t' o' ht' (by simp; omega)
    refine ⟨st', by omega, ?_⟩
    rw [e2]
    have a1 : (vals.set k (codeSumF F xs 0)).take (k + 1) = vals.take k ++ [codeSumF F xs 0] := by
      rw [List.take_add_one, List.take_set_of_le (by omega)]
      congr 1
      rw [List.getElem?_set_self (by omega)]; rfl
    have a2 : (vals.set k (codeSumF F xs 0)).drop (k + 1 + sysobs.length) = vals.drop (k + (sysobs.length + 1)) := by
      rw [List.drop_set_of_lt (by omega)]; congr 1; omega
    rw [a1, a2]
    simp

theorem satEpochCollectF_eq {F : Fp} {raw0 : RawRnxObs} {buf l : List Char} {sysobs : List IdPairs} {vals : List ℝ} {errno e' prn : Int} {c1 c2 : Char}
    {p : Option (Int × List Char × Bool)} {r : Int × List ℝ × Int}
    (h1 : getAt buf 1 = .ok c1) (h2 : getAt buf 2 = .ok c2) (hp : strtolA (c1 :: c2 :: List.replicate 15 NUL) = .ok p)
    (he : (if strtolErr p then ERANGE else errno) = e') (hprn : toInt32 (strtolVal p) = prn)
    (hno : ¬ ((e' ≠ 0 ∨ p = none) ∨ prn < 1 ∨ prn > 99)) (hc : cstrOf buf = .ok l)
    (hr : collectObsF F buf l.length sysobs 0 vals 0 (c1 :: c2 :: List.replicate 15 NUL) raw0 e' = .ok r) :
    satEpochCollectF F raw0 buf sysobs vals errno = .ok (r.1, prn, r.2.1, r.2.2) := by
  unfold satEpochCollectF
  simp only [h1, h2, Res.bind_ok, hp, he, hprn]
  rw [if_neg hno, hc, Res.bind_ok, hr]
  rfl

theorem satEpochCollectF_got (F : Fp) {l buf : List Char} {prn : Nat} (hl : NUL ∉ l) (hp : NatAt ((l.drop 1).take 2) 0 prn) (h1 : 1 ≤ prn)
    (h99 : prn ≤ 99) (hl3 : 3 ≤ l.length) {sysobs : List IdPairs} {xss : List (List (Option Rat × Rat))}
    (hx : List.Forall₂ (GotAll l) sysobs xss) (haw : ∀ xs ∈ xss, PartsAway xs) (vals : List ℝ) (hv : sysobs.length ≤ vals.length) (raw0 : RawRnxObs) :
    ∃ st, st ≤ 0 ∧ satEpochCollectF F raw0 (fillLine buf l) sysobs vals 0 =
      .ok (st, prn, xss.map (codeSumF F · 0) ++ vals.drop sysobs.length, 0) := by
  match l, hl3 with
  | a :: b :: c :: l', _ =>
    simp only [List.drop_succ_cons, List.drop_zero, List.take_succ_cons, List.take_zero] at hp
    obtain ⟨r, hr⟩ := strtol_nat (tail := List.replicate 14 NUL) hp
    obtain ⟨st, hst, e⟩ := collectObsF_got F (buf := buf) hl sysobs xss hx haw 0 vals 0 (b :: c :: List.replicate 15 NUL) raw0
      ⟨by simp, by simp⟩ (by omega)
    refine ⟨st, hst, ?_⟩
    have hr' : strtolA (b :: c :: List.replicate 15 NUL) = .ok (some ((prn : Int), r, false)) := hr
    have := satEpochCollectF_eq (F := F) (getAt_fill (buf := buf) (l := a :: b :: c :: l') (i := 1) rfl) (getAt_fill (buf := buf) (l := a :: b :: c :: l') (i := 2) rfl) hr'
      (errno := 0) (e' := 0) (prn := prn) rfl (toInt32_nat (by omega)) (by simp; omega) (cstrOf_fill hl) e
    simpa using this

/-! ### Accuracy of the sums -/

theorem sum_step {u η w e s S T v x c t v' : ℝ} (hu0 : 0 ≤ u) (hu1 : u ≤ 1) (hη : 0 ≤ η) (hw : 1 ≤ w)
    (hs : |s| ≤ S) (he : e ≤ ((1 + u) ^ 2 * w - 1) * S + 4 * w * η * T) (hv : |v - s| ≤ e)
    (ht : |t - x * c| ≤ (2 * u + u ^ 2) * |x * c| + (1 + u) * η * |c| + η) (hv' : |v' - (v + t)| ≤ u * |v + t| + η) :
    |v' - (s + x * c)| ≤ ((1 + u) ^ 2 * ((1 + u) * w) - 1) * (S + |x * c|) + 4 * ((1 + u) * w) * η * (T + (|c| + 1)) := by
  have h1 : |v + t - (s + x * c)| ≤ e + ((2 * u + u ^ 2) * |x * c| + (1 + u) * η * |c| + η) := by
    rw [show v + t - (s + x * c) = (v - s) + (t - x * c) by ring]
    exact (abs_add_le _ _).trans (add_le_add hv ht)
  have h2 : |v + t| ≤ S + |x * c| + (e + ((2 * u + u ^ 2) * |x * c| + (1 + u) * η * |c| + η)) := by
    have := abs_sub_abs_le_abs_sub (v + t) (s + x * c)
    have := abs_add_le s (x * c)
    linarith
  have h3 := abs_sub_le v' (v + t) (s + x * c)
  have hS : 0 ≤ S := (abs_nonneg _).trans hs
  have hp : 0 ≤ |x * c| := abs_nonneg _
  have hq : 0 ≤ |c| := abs_nonneg _
  generalize |x * c| = p at *
  generalize |c| = q at *
  have k1 : (1 + u) * e ≤ (1 + u) * (((1 + u) ^ 2 * w - 1) * S + 4 * w * η * T) := mul_le_mul_of_nonneg_left he (by linarith)
  have k2 : 0 ≤ (1 + u) ^ 3 * (w - 1) * p := mul_nonneg (mul_nonneg (by positivity) (by linarith)) hp
  have k3 : 0 ≤ (1 + u) * η * q * (4 * w - (1 + u)) := mul_nonneg (by positivity) (by linarith)
  have k4 : 0 ≤ (1 + u) * η * (4 * w - 2) := mul_nonneg (by positivity) (by linarith)
  have k5 : 0 ≤ u * η := by positivity
  have k6 := mul_le_mul_of_nonneg_left h2 hu0
  nlinarith [k1, k2, k3, k4, k5, k6, h1, h3, hv']

theorem codeSumF_err (F : Fp) : ∀ (xs : List (Option Rat × Rat)), (∀ p ∈ xs, p.1 ≠ none) → ∀ (k : Nat) (v s S T : ℝ), |s| ≤ S → 0 ≤ T →
    |v - s| ≤ ((1 + 2 ^ (-53 : ℤ)) ^ 2 * (1 + 2 ^ (-53 : ℤ)) ^ k - 1) * S + 4 * (1 + 2 ^ (-53 : ℤ)) ^ k * 2 ^ (-1075 : ℤ) * T →
    |codeSumF F xs v - (s + exactSum xs)| ≤ ((1 + 2 ^ (-53 : ℤ)) ^ 2 * (1 + 2 ^ (-53 : ℤ)) ^ (k + xs.length) - 1) * (S + absSum xs) +
      4 * (1 + 2 ^ (-53 : ℤ)) ^ (k + xs.length) * 2 ^ (-1075 : ℤ) * (T + coefSum xs) := by
  intro xs
  induction xs with
  | nil => intro _ k v s S T hs hT h; simpa [codeSumF, exactSum, absSum, coefSum] using h
  | cons p xs ih =>
    obtain ⟨x, c⟩ := p
    intro hall k v s S T hs hT h
    cases x with
    | none => exact absurd rfl (hall _ (List.mem_cons_self ..))
    | some x =>
      have hx := F.rel (x : ℝ)
      have h2 : |F.rnd (x : ℝ) * (c : ℝ) - (x : ℝ) * c| ≤ 2 ^ (-53 : ℤ) * |(x : ℝ) * c| + 2 ^ (-1075 : ℤ) * |(c : ℝ)| := by
        rw [← sub_mul, abs_mul, abs_mul]
        calc _ ≤ (2 ^ (-53 : ℤ) * |(x : ℝ)| + 2 ^ (-1075 : ℤ)) * |(c : ℝ)| := mul_le_mul_of_nonneg_right hx (abs_nonneg _)
          _ = _ := by ring
      have ht : |F.rnd (F.rnd (x : ℝ) * (c : ℝ)) - (x : ℝ) * c| ≤ (2 * 2 ^ (-53 : ℤ) + (2 ^ (-53 : ℤ)) ^ 2) * |(x : ℝ) * c| +
          (1 + 2 ^ (-53 : ℤ)) * 2 ^ (-1075 : ℤ) * |(c : ℝ)| + 2 ^ (-1075 : ℤ) := by
        have h3 := F.rel (F.rnd (x : ℝ) * (c : ℝ))
        have h4 := abs_sub_le (F.rnd (F.rnd (x : ℝ) * (c : ℝ))) (F.rnd (x : ℝ) * (c : ℝ)) ((x : ℝ) * c)
        have h5 := abs_sub_abs_le_abs_sub (F.rnd (x : ℝ) * (c : ℝ)) ((x : ℝ) * c)
        have hu : (0 : ℝ) ≤ 2 ^ (-53 : ℤ) := by positivity
        generalize (2 : ℝ) ^ (-53 : ℤ) = u at *
        generalize (2 : ℝ) ^ (-1075 : ℤ) = η at *
        have h6 : u * |F.rnd (x : ℝ) * (c : ℝ)| ≤ u * (|(x : ℝ) * c| + (u * |(x : ℝ) * c| + η * |(c : ℝ)|)) :=
          mul_le_mul_of_nonneg_left (by linarith) hu
        nlinarith [h6]
      have hu0 : (0 : ℝ) ≤ 2 ^ (-53 : ℤ) := by positivity
      have hu1 : (2 : ℝ) ^ (-53 : ℤ) ≤ 1 := by norm_num
      have hη : (0 : ℝ) ≤ 2 ^ (-1075 : ℤ) := (two_zpow_pos _).le
      have hw : (1 : ℝ) ≤ (1 + 2 ^ (-53 : ℤ)) ^ k := one_le_pow₀ (by linarith)
      have hstep := sum_step hu0 hu1 hη hw hs h le_rfl ht (F.rel (v + F.rnd (F.rnd (x : ℝ) * (c : ℝ))))
      have hp : (1 + (2 : ℝ) ^ (-53 : ℤ)) * (1 + 2 ^ (-53 : ℤ)) ^ k = (1 + 2 ^ (-53 : ℤ)) ^ (k + 1) := (pow_succ' _ _).symm
      have := ih (fun p hp => hall p (List.mem_cons_of_mem _ hp)) (k + 1) (F.rnd (v + F.rnd (F.rnd (x : ℝ) * (c : ℝ)))) (s + (x : ℝ) * c)
        (S + |(x : ℝ) * c|) (T + (|(c : ℝ)| + 1)) ((abs_add_le _ _).trans (by linarith)) (by positivity)
        (hp ▸ hstep)
      have e1 : exactSum ((some x, c) :: xs) = (x : ℝ) * c + exactSum xs := by simp [exactSum]
      have e2 : absSum ((some x, c) :: xs) = |(x : ℝ) * c| + absSum xs := by simp [absSum]
      have e3 : coefSum ((some x, c) :: xs) = (|(c : ℝ)| + 1) + coefSum xs := by simp [coefSum]
      rw [e1, e2, e3, List.length_cons, show k + (xs.length + 1) = k + 1 + xs.length by omega, codeSumF, ← add_assoc s, ← add_assoc S, ← add_assoc T]
      exact this

theorem codeSumF_last (F : Fp) : ∀ (xs : List (Option Rat × Rat)) (v : ℝ) (c : Rat), xs.getLast? = some (none, c) →
    codeSumF F xs v = F.rnd (missingMark : ℝ) := by
  intro xs
  induction xs with
  | nil => intro v c h; simp at h
  | cons p xs ih =>
    obtain ⟨x, d⟩ := p
    intro v c h
    cases xs with
    | nil => simp at h; obtain ⟨rfl, _⟩ := h; simp [codeSumF]
    | cons q xs =>
      have h' : (q :: xs).getLast? = some (none, c) := by rw [← h]; simp
      cases x with
      | none => rw [codeSumF]; exact ih _ c h'
      | some x => rw [codeSumF]; exact ih _ c h'

theorem codeSumF_accurate (F : Fp) (xs : List (Option Rat × Rat)) : AccurateValue xs (codeSumF F xs 0) := by
  refine ⟨?_, ?_, ?_⟩
  · rintro x rfl
    simp only [codeSumF, Rat.cast_one, mul_one, zero_add, F.exact (F.double _)]
    exact F.near _
  · intro hall
    have := codeSumF_err F xs hall 0 0 0 0 0 (by simp) le_rfl (by simp)
    simp only [zero_add] at this
    rw [← pow_add, add_comm 2 xs.length] at this
    exact this
  · intro c hc
    rw [codeSumF_last F xs 0 c hc]
    exact F.near _

/-- **C78** (observations).  For a data line with a satellite number in columns 1-2 (0-based) and requested observables whose fields read
`xss` (blank LLI), the values stored are accurate: the nearest double for raw observables, the usual bound for
combinations; values of the vector beyond the requested ones are untouched.
(A raw value within 1e-6 of the missing-value marker is excluded, see `AwayFromMarker`.) -/
theorem C78_observations_partial (F : Fp) {l : List Char} {prn : Nat} (hl : NUL ∉ l) (hp : NatAt ((l.drop 1).take 2) 0 prn) (h1 : 1 ≤ prn)
    (h99 : prn ≤ 99) (hl3 : 3 ≤ l.length) {sysobs : List IdPairs} {xss : List (List (Option Rat × Rat))}
    (hx : List.Forall₂ (PartsRead l) sysobs xss) (haw : ∀ xs ∈ xss, ∀ p ∈ xs, ∀ x, p.1 = some x → AwayFromMarker x)
    (vals : List ℝ) (hv : sysobs.length ≤ vals.length) (buf : List Char) (raw0 : RawRnxObs) :
    ∃ st vs, st ≤ 0 ∧ satEpochCollectF F raw0 (fillLine buf l) sysobs vals 0 = .ok (st, prn, vs ++ vals.drop sysobs.length, 0) ∧
      List.Forall₂ AccurateValue xss vs := by
  obtain ⟨st, hst, e⟩ := satEpochCollectF_got F (buf := buf) hl hp h1 h99 hl3 (hx.imp fun _ _ h => h.got) haw vals hv raw0
  refine ⟨st, _, hst, e, ?_⟩
  rw [List.forall₂_map_right_iff]
  exact List.forall₂_same.2 fun xs _ => codeSumF_accurate F xs

/-! ### SP3 positions -/

theorem twoRoundings_scale (F : Fp) (x : Rat) : TwoRoundings (1000 * (x : ℝ)) (F.rnd (F.rnd x * 1000)) := by
  unfold TwoRoundings
  have hx := F.rel (x : ℝ)
  have h3 := F.rel (F.rnd (x : ℝ) * 1000)
  have h1 : |F.rnd (x : ℝ) * 1000 - 1000 * x| ≤ 2 ^ (-53 : ℤ) * |1000 * (x : ℝ)| + 1000 * 2 ^ (-1075 : ℤ) := by
    rw [show F.rnd (x : ℝ) * 1000 - 1000 * x = 1000 * (F.rnd (x : ℝ) - x) by ring, abs_mul, abs_mul, abs_of_nonneg (by norm_num : (0 : ℝ) ≤ 1000)]
    linarith
  have h4 := abs_sub_le (F.rnd (F.rnd (x : ℝ) * 1000)) (F.rnd (x : ℝ) * 1000) (1000 * (x : ℝ))
  have h5 := abs_sub_abs_le_abs_sub (F.rnd (x : ℝ) * 1000) (1000 * (x : ℝ))
  have hη : (2 : ℝ) ^ (-1064 : ℤ) = 2048 * 2 ^ (-1075 : ℤ) := by
    rw [show (-1064 : ℤ) = 11 + -1075 by norm_num, two_zpow_add]; norm_num
  have hη0 : (0 : ℝ) ≤ 2 ^ (-1075 : ℤ) := (two_zpow_pos _).le
  have hu0 : (0 : ℝ) ≤ 2 ^ (-53 : ℤ) := by positivity
  have hu1 : (2 : ℝ) ^ (-53 : ℤ) ≤ 1 / 2 := by norm_num
  rw [hη]
  generalize (2 : ℝ) ^ (-53 : ℤ) = u at *
  generalize (2 : ℝ) ^ (-1075 : ℤ) = η at *
  have h6 : u * |F.rnd (x : ℝ) * 1000| ≤ u * (|1000 * (x : ℝ)| + (u * |1000 * (x : ℝ)| + 1000 * η)) :=
    mul_le_mul_of_nonneg_left (by linarith) hu0
  have h7 : u * η ≤ 1 / 2 * η := mul_le_mul_of_nonneg_right hu1 hη0
  nlinarith [h6]

theorem TwoRoundings.zero_iff {x X : ℝ} (h : TwoRoundings x X) (h0 : x = 0 → X = 0) (hx : x = 0 ∨ 1 / 1000000 ≤ |x|) : X = 0 ↔ x = 0 := by
  refine ⟨fun hX => ?_, h0⟩
  rcases hx with hx | hx
  · exact hx
  · exfalso
    unfold TwoRoundings at h
    rw [hX, zero_sub, abs_neg] at h
    have : (2 : ℝ) ^ (-1064 : ℤ) ≤ 2 ^ (-30 : ℤ) := zpow_le_zpow_right₀ (by norm_num) (by norm_num)
    have h3 : ((1 + (2 : ℝ) ^ (-53 : ℤ)) ^ 2 - 1) ≤ 1 / 2 := by norm_num
    have h4 : ((1 + (2 : ℝ) ^ (-53 : ℤ)) ^ 2 - 1) * |x| ≤ 1 / 2 * |x| := mul_le_mul_of_nonneg_right h3 (abs_nonneg _)
    have h5 : (2 : ℝ) ^ (-30 : ℤ) < 1 / 2 * (1 / 1000000) := by norm_num
    generalize ((1 + (2 : ℝ) ^ (-53 : ℤ)) ^ 2 - 1) * |x| = d at *
    generalize (2 : ℝ) ^ (-1064 : ℤ) = a at *
    generalize (2 : ℝ) ^ (-30 : ℤ) = b at *
    linarith

theorem rnd_zero (F : Fp) : F.rnd 0 = 0 := F.exact (by simpa using isDouble_int (n := 0) (by norm_num))

theorem scale_zero_iff (F : Fp) {x : Rat} (hx : x = 0 ∨ 1 / 1000000000 ≤ |x|) : F.rnd (F.rnd x * 1000) = 0 ↔ x = 0 := by
  have hx' : (1000 * (x : ℝ)) = 0 ∨ 1 / 1000000 ≤ |1000 * (x : ℝ)| := by
    rcases hx with hx | hx
    · left; simp [hx]
    · right
      have : (1 / 1000000000 : ℝ) ≤ |(x : ℝ)| := by
        have h := (Rat.cast_le (K := ℝ)).2 hx
        push_cast at h; exact h
      rw [abs_mul, abs_of_nonneg (by norm_num : (0 : ℝ) ≤ 1000)]; linarith
  rw [(twoRoundings_scale F x).zero_iff ?_ hx']
  · constructor
    · intro h
      have : (x : ℝ) = 0 := by linarith
      exact_mod_cast this
    · rintro rfl; simp
  · intro h
    have : (x : ℝ) = 0 := by linarith
    rw [this, rnd_zero]; simp [rnd_zero]

theorem clock_iff (F : Fp) {c : Rat} (hc : 999999 ≤ c ∨ c ≤ 999999 - 1 / 1000000000) : 999999 ≤ F.rnd (c : ℝ) ↔ 999999 ≤ c := by
  constructor
  · intro h
    rcases hc with hc | hc
    · exact hc
    · exfalso
      have hd : IsDouble (999999 - 2 ^ (-33 : ℤ) : ℝ) := isDouble_of (n := 999999 * 2 ^ 33 - 1) (e := -33) (by norm_num) (by norm_num) (by norm_num)
      have hc' : (c : ℝ) ≤ 999999 - 1 / 1000000000 := by
        have h := (Rat.cast_le (K := ℝ)).2 hc
        push_cast at h; exact h
      have := Fp.rnd_le F hd (x := (c : ℝ)) (by norm_num at hc' ⊢; linarith)
      have h2 : (0 : ℝ) < 2 ^ (-33 : ℤ) := by positivity
      linarith
  · intro h
    have h' : (999999 : ℝ) ≤ c := by exact_mod_cast h
    exact Fp.le_rnd F (by simpa using isDouble_int (n := 999999) (by norm_num)) h'

/-- What the flags of a record are, when the line has its 80 columns. -/
theorem sp3FlagsF_get (vals : List ℝ) (line : List Char) (h : 80 ≤ line.length) :
    ∃ fl, sp3FlagsF vals line = .ok fl ∧ ∀ e, fl.isSet e = true ↔
      match e with
      | .bad_abscent_position => ∃ d ∈ vals.take 3, d = 0
      | .bad_abscent_clock => 999999 ≤ vals.getD 3 0
      | .clock_event => getElem? line 74 = some 'E'
      | .clock_prediction => getElem? line 75 = some 'P'
      | .maneuver => getElem? line 78 = some 'M'
      | .orbit_prediction => getElem? line 79 = some 'E' := by
  unfold sp3FlagsF
  simp only [getAt_lt (show 74 < line.length by omega), getAt_lt (show 75 < line.length by omega),
    getAt_lt (show 78 < line.length by omega), getAt_lt (show 79 < line.length by omega), Res.bind_ok, Res.pure_eq]
  refine ⟨_, rfl, ?_⟩
  have setIf : ∀ (f : Sp3Flag) (c : Bool) (e e' : Sp3Event),
      (f.setIf c e).isSet e' = ((c && decide (e = e')) || f.isSet e') := by
    intro f c e e'
    cases c <;> simp [Sp3Flag.setIf, C30_set]
  have e74 := List.getElem?_eq_getElem (show 74 < line.length by omega)
  have e75 := List.getElem?_eq_getElem (show 75 < line.length by omega)
  have e78 := List.getElem?_eq_getElem (show 78 < line.length by omega)
  have e79 := List.getElem?_eq_getElem (show 79 < line.length by omega)
  have hf : ∀ e, ({} : Sp3Flag).isSet e = false := fun e => (C30_reset {} e).2
  intro e
  simp only [setIf, hf, e74, e75, e78, e79]
  cases e <;> simp

/-- **C78** (SP3 positions).  A well formed position line of at least 80 columns gives, in double precision, the satellite, coordinates in
metres up to two roundings, the double nearest to the clock, and (for numbers of six decimals) the same event flags
as the exact computation; the orbit prediction flag is the exception of C33. -/
theorem C78_sp3_position_partial (F : Fp) {p : PosLine} (h : p.WF) (hr : p.Resolved) (tail : List Char) (r0 : Sp3RecF) {errno : Int}
    (he : errno ≠ ERANGE) (hl : 80 ≤ p.line.length) :
    ∃ r, getNextPositionF F (p.line ++ NUL :: tail) r0 errno = .ok ⟨0, r, errno⟩ ∧ p.SaysInF r ∧
      ∀ e, e ≠ .orbit_prediction → (r.flag.isSet e = true ↔ p.Signals e) := by
  obtain ⟨rp, hp⟩ := strtol_nat (tail := tail) h.prn
  have hprn : p.prn < 2147483648 := by obtain ⟨_, _, _, _, _, _, _, _, _, hh⟩ := h.prn; exact hh
  have hlen : 80 ≤ (p.line ++ NUL :: tail).length := by simp; omega
  obtain ⟨fl, hf1, hf2⟩ := sp3FlagsF_get [F.rnd (F.rnd p.x.value * 1000), F.rnd (F.rnd p.y.value * 1000), F.rnd (F.rnd p.z.value * 1000), F.rnd p.clk.value]
    (p.line ++ NUL :: tail) hlen
  unfold getNextPositionF
  simp only [getAt_of h.letter, getAt_of h.satellite, Res.bind_ok, ne_eq, not_true_eq_false, if_false,
    charToSatsys_letter, hp, strtolErr, strtolVal, he, Bool.false_eq_true, reduceCtorEq, or_self, sp3Cols_wf h tail he, sp3ScaleF, hf1, Res.pure_eq]
  refine ⟨_, rfl, ⟨rfl, toInt32_nat hprn, _, _, _, _, rfl, twoRoundings_scale F _, twoRoundings_scale F _, twoRoundings_scale F _, F.near _⟩, ?_⟩
  intro e hne
  rw [hf2 e]
  cases e <;>
    simp only [PosLine.Signals, List.getElem?_append_left (show 74 < p.line.length by omega),
      List.getElem?_append_left (show 75 < p.line.length by omega),
      List.getElem?_append_left (show 78 < p.line.length by omega)]
  · simp only [List.take, List.mem_cons, List.not_mem_nil, or_false, exists_eq_or_imp, exists_eq_left,
      scale_zero_iff F (hr.coord p.x (by simp)), scale_zero_iff F (hr.coord p.y (by simp)), scale_zero_iff F (hr.coord p.z (by simp))]
  · exact clock_iff F hr.clk
  · exact absurd rfl hne

/-- **C78**: for a satellite within 100 000 km of the geocentre along each axis, the metres delivered differ from the file by less than 25 nanometres. -/
theorem C78_sp3_nanometres {x X : ℝ} (h : TwoRoundings x X) (hx : |x| ≤ 100000000) : |X - x| ≤ 25 / 1000000000 := by
  unfold TwoRoundings at h
  have : (2 : ℝ) ^ (-1064 : ℤ) ≤ 2 ^ (-53 : ℤ) := zpow_le_zpow_right₀ (by norm_num) (by norm_num)
  have h3 : (0 : ℝ) ≤ ((1 + (2 : ℝ) ^ (-53 : ℤ)) ^ 2 - 1) := by norm_num
  have h4 := mul_le_mul_of_nonneg_left hx h3
  have h5 : ((1 + (2 : ℝ) ^ (-53 : ℤ)) ^ 2 - 1) * 100000000 + 2 ^ (-53 : ℤ) ≤ 25 / 1000000000 := by norm_num
  exact h.trans ((add_le_add h4 this).trans h5)

/-- **C78**: a two-frequency combination with coefficients of at most 4 of ranges below 100 000 km is delivered within a micrometre of the exact one. -/
theorem C78_combination_micrometre {x1 x2 c1 c2 : Rat} {v : ℝ} (h : AccurateValue [(some x1, c1), (some x2, c2)] v)
    (h1 : |x1| ≤ 100000000) (h2 : |x2| ≤ 100000000) (k1 : |c1| ≤ 4) (k2 : |c2| ≤ 4) :
    |v - ((x1 : ℝ) * c1 + (x2 : ℝ) * c2)| ≤ 1 / 1000000 := by
  have h := h.combined (by simp)
  have cast : ∀ {a : Rat} {b : Rat}, |a| ≤ b → |(a : ℝ)| ≤ (b : ℝ) := by
    intro a b hab
    have := (Rat.cast_le (K := ℝ)).2 hab
    rwa [Rat.cast_abs] at this
  have h1 := cast h1; have h2 := cast h2; have k1 := cast k1; have k2 := cast k2
  push_cast at h1 h2 k1 k2
  have m1 := mulB h1 k1
  have m2 := mulB h2 k2
  simp only [exactSum, absSum, coefSum, List.map_cons, List.map_nil, List.sum_cons, List.sum_nil, Option.getD_some, add_zero, List.length_cons,
    List.length_nil] at h
  have e : (2 : ℝ) ^ (-1075 : ℤ) ≤ 2 ^ (-100 : ℤ) := zpow_le_zpow_right₀ (by norm_num) (by norm_num)
  have e0 : (0 : ℝ) ≤ 2 ^ (-1075 : ℤ) := (two_zpow_pos _).le
  have f1 : ((1 + (2 : ℝ) ^ (-53 : ℤ)) ^ (0 + 1 + 1 + 2) - 1) * (|(x1 : ℝ) * c1| + |(x2 : ℝ) * c2|) ≤
      ((1 + (2 : ℝ) ^ (-53 : ℤ)) ^ (0 + 1 + 1 + 2) - 1) * 800000000 :=
    mul_le_mul_of_nonneg_left (by linarith) (by norm_num)
  have f2 : 4 * (1 + (2 : ℝ) ^ (-53 : ℤ)) ^ (0 + 1 + 1) * 2 ^ (-1075 : ℤ) * (|(c1 : ℝ)| + 1 + (|(c2 : ℝ)| + 1)) ≤
      4 * (1 + (2 : ℝ) ^ (-53 : ℤ)) ^ (0 + 1 + 1) * 2 ^ (-100 : ℤ) * 10 :=
    mul_le_mul (mul_le_mul_of_nonneg_left e (by positivity)) (by linarith) (by positivity) (by positivity)
  have f3 : ((1 + (2 : ℝ) ^ (-53 : ℤ)) ^ (0 + 1 + 1 + 2) - 1) * 800000000 + 4 * (1 + (2 : ℝ) ^ (-53 : ℤ)) ^ (0 + 1 + 1) * 2 ^ (-100 : ℤ) * 10 ≤ 1 / 1000000 := by
    norm_num
  exact h.trans ((add_le_add f1 f2).trans f3)

end Ggnss
