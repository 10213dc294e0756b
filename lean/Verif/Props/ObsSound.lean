import Verif.Spec.ObsSound
import Verif.Lemmas.NumText
import Verif.Props.ObsEpoch
/-!
# C43 for arbitrary lines: what was accepted stands in the line
-/
namespace Ggnss

theorem epochInts_run : ∀ (n : Nat) (start : List Char) (r : List Int × List Char), epochInts n start 0 = .ok (some r) →
    ∃ vs, IntRun start vs r.2 ∧ r.1 = vs.map toInt32 := by
  intro n
  induction n with
  | zero => intro start r h; cases h; exact ⟨[], .nil _, rfl⟩
  | succ n ih =>
    intro start r h
    rw [epochInts] at h
    obtain ⟨p, hp, h⟩ := Res.bind_eq_ok.1 h
    unfold strtolA at hp
    split at hp
    · cases hp
      cases hs : strtol start with
      | none => rw [hs] at h; cases h
      | some x =>
        obtain ⟨v, rest, er⟩ := x
        rw [hs] at h
        simp only at h
        split at h
        · cases h
        · rename_i hc
          obtain ⟨q, hq, h⟩ := Res.bind_eq_ok.1 h
          cases q with
          | none => cases h
          | some q =>
            cases h
            have her : er = false := by cases er <;> simp_all
            subst her
            obtain ⟨vs, h1, h2⟩ := ih _ _ hq
            exact ⟨v :: vs, .cons _ _ _ _ _ (strtol_then hs) h1, by simp [h2]⟩
    · cases hp

/-- **C43** (arbitrary lines).  Whatever an accepted header is said to contain stands in it.  The array holds the line `l`, its terminator and whatever
was there before (`tail`). -/
theorem C43_sound {mjdOf : Int → Int → Int → Res Int} {l tail : List Char} (hl : NUL ∉ l) {h : EpochHead}
    (hr : resolveEpoch mjdOf (l ++ NUL :: tail) 0 = .ok (.inr h)) : HeaderStands mjdOf l (l ++ NUL :: tail) h := by
  unfold resolveEpoch at hr
  have hr := Res.noexcept_eq_ok.1 hr
  rw [cstrOf_append hl, Res.bind_ok] at hr
  obtain ⟨c0, hc0, hr⟩ := Res.bind_eq_ok.1 hr
  split at hr
  · cases hr
  rename_i hmark
  push Not at hmark
  obtain ⟨p, hp, hr⟩ := Res.bind_eq_ok.1 hr
  split at hr
  swap
  · cases hr
  rename_i y m d hh mm start
  obtain ⟨vs, hrun, hvs⟩ := epochInts_run _ _ _ hp
  obtain ⟨mjd, hmjd, hr⟩ := Res.bind_eq_ok.1 hr
  obtain ⟨rs, hrs, hr⟩ := Res.bind_eq_ok.1 hr
  split at hr
  · cases hr
  rename_i hsec
  obtain ⟨c31, hc31, hr⟩ := Res.bind_eq_ok.1 hr
  obtain ⟨ns, hns, hr⟩ := Res.bind_eq_ok.1 hr
  simp only at hr
  have hcount : ¬ ((if strtolErr ns = true then ERANGE else 0) ≠ 0 ∨ start.length = (strtolEnd ((l ++ NUL :: tail).drop 32) ns).length) := by
    intro hc; rw [if_pos hc] at hr; cases hr
  rw [if_neg hcount] at hr
  have hfin := hr
  have hhead : l.head? = some '>' := by
    cases l with
    | nil => simp at hmark
    | cons a as =>
      have : c0 = a := by
        have := getAt_lt (s := (a :: as) ++ NUL :: tail) (i := 0) (by simp)
        rw [this] at hc0
        cases hc0; rfl
      rw [← this, hmark.1]; rfl
  obtain ⟨v, r, hsv⟩ : ∃ v r, strtod start = some (v, r, false) := by
    unfold strtodA at hrs
    split at hrs
    · cases hrs
      cases hs : strtod start with
      | none => rw [hs] at hsec; simp at hsec
      | some x =>
        obtain ⟨v, r, er⟩ := x
        rw [hs] at hsec
        refine ⟨v, r, ?_⟩
        simp [strtodErr] at hsec
        rw [hsec]
    · cases hrs
  have hrsv : strtodVal rs = v := by
    unfold strtodA at hrs
    split at hrs
    · cases hrs; rw [hsv]; rfl
    · cases hrs
  obtain ⟨a1, a2, a3, a4, a5, rfl⟩ : ∃ a1 a2 a3 a4 a5, vs = [a1, a2, a3, a4, a5] := by
    rcases vs with _ | ⟨a1, _ | ⟨a2, _ | ⟨a3, _ | ⟨a4, _ | ⟨a5, _ | ⟨a6, vs⟩⟩⟩⟩⟩⟩ <;> simp at hvs
    exact ⟨a1, a2, a3, a4, a5, rfl⟩
  simp only [List.map_cons, List.map_nil, List.cons.injEq, and_true] at hvs
  obtain ⟨rfl, rfl, rfl, rfl, rfl⟩ := hvs
  have hdrop32 : (l ++ NUL :: tail).drop 32 = l.drop 32 ++ NUL :: tail := List.drop_append_of_le_length (by omega)
  have hcnt : (∃ n, IntBegins (l.drop 32) n ∧ toInt32 (strtolVal ns) = toInt32 n) ∨
      ((∀ n, ¬ IntBegins (l.drop 32) n) ∧ toInt32 (strtolVal ns) = 0 ∧ start ≠ (l ++ NUL :: tail).drop 32) := by
    unfold strtolA at hns
    split at hns
    · cases hns
      cases hs : strtol ((l ++ NUL :: tail).drop 32) with
      | none =>
        right
        refine ⟨fun n hn => strtol_not_begins hs n (by rw [hdrop32]; exact hn.nul _), rfl, ?_⟩
        intro he
        rw [hs] at hcount
        apply hcount
        right
        rw [he]; rfl
      | some x =>
        obtain ⟨w, r, er⟩ := x
        rw [hs] at hcount
        have her : er = false := by
          cases er with
          | false => rfl
          | true => exfalso; apply hcount; left; simp [strtolErr, ERANGE]
        subst her
        exact Or.inl ⟨w, IntBegins.of_nul (b := tail) (by rw [← hdrop32]; exact strtol_begins hs), rfl⟩
    · cases hns
  have hflag : ∃ c, l[31]? = some c ∧ scharVal c31 - 48 = scharVal c - 48 := by
    refine ⟨c31, ?_, rfl⟩
    have hlt : 31 < (l ++ NUL :: tail).length := by simp; omega
    rw [getAt_lt hlt] at hc31
    cases hc31
    rw [List.getElem_append_left (by omega)]
    exact List.getElem?_eq_getElem (by omega)
  have hsecval : ((toInt32 a4 : Rat) * 60 + toInt32 a5) * 60 + strtodVal rs = toInt32 a4 * 3600 + toInt32 a5 * 60 + v := by
    rw [hrsv]; ring
  by_cases h41 : l.length > 41
  · rw [if_pos h41] at hfin
    obtain ⟨blank, hbl, hfin⟩ := Res.bind_eq_ok.1 hfin
    obtain ⟨ck, hck, hfin⟩ := Res.bind_eq_ok.1 hfin
    have hclk : ¬ ((blank = false ∧ strtodErr ck = true) ∨ start.length = (if blank = true then strtolEnd ((l ++ NUL :: tail).drop 32) ns
        else strtodEnd ((l ++ NUL :: tail).drop 41) ck).length) := by
      intro hc; rw [if_pos hc] at hfin; cases hfin
    rw [if_neg hclk] at hfin
    cases hfin
    have hdrop : (l ++ NUL :: tail).drop 41 = l.drop 41 ++ NUL :: tail := List.drop_append_of_le_length (by omega)
    have hb := C07_is_empty (l.drop 41) tail (fun hn => hl (List.mem_of_mem_drop hn)) none
    rw [hdrop] at hbl
    rw [hb] at hbl
    cases hbl
    refine ⟨hhead, by omega, ⟨_, _, _, _, _, v, start, hrun, strtod_begins hsv, hmjd, hsecval, hcnt⟩, hflag, ?_⟩
    right
    by_cases hall : ∀ c ∈ considered (l.drop 41) none, c = ' '
    · left
      refine ⟨h41, hall, ?_⟩
      show some (if (decide _) = true then (0 : Rat) else _) = some 0
      rw [if_pos (by simpa using hall)]
    · right
      refine ⟨h41, by push Not at hall; exact hall, _, rfl, ?_⟩
      rw [if_neg (by simpa using hall)]
      unfold strtodA at hck
      split at hck
      · cases hck
        cases hs : strtod ((l ++ NUL :: tail).drop 41) with
        | none => exact Or.inr ⟨fun w hw => strtod_not_begins hs w (by rw [hdrop]; exact hw.nul _), rfl⟩
        | some x =>
          obtain ⟨w, r', er⟩ := x
          have her : er = false := by
            cases er with
            | false => rfl
            | true => exfalso; apply hclk; left; rw [hs]; exact ⟨by simpa using hall, rfl⟩
          subst her
          exact Or.inl (RealBegins.of_nul (b := tail) (by rw [← hdrop]; exact strtod_begins hs))
      · cases hck
  · rw [if_neg h41] at hfin
    cases hfin
    exact ⟨hhead, by omega, ⟨_, _, _, _, _, v, start, hrun, strtod_begins hsv, hmjd, hsecval, hcnt⟩, hflag, Or.inl ⟨by omega, rfl⟩⟩

end Ggnss
