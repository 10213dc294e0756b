import Verif.Spec.NumText
import Verif.Lemmas.Num
import Verif.Model.Antex
import Mathlib.Data.List.TakeWhile
/-!
# What `strtol`, `std::stoi`, `strtod` and `std::stod` accept begins with that number
-/
namespace Ggnss

theorem takeWhile_append_not {p : Char → Bool} {s : List Char} : ∀ c, (s.dropWhile p).head? = some c → p c = false := by
  intro c h
  have := List.head?_dropWhile_not p s
  rw [h] at this
  simpa using this

/-- What `strtol` accepted without ERANGE is white space, that number, and the rest it returns. -/
theorem strtol_then {t : List Char} {v : Int} {r : List Char} (h : strtol t = some (v, r, false)) : IntThen t v r := by
  unfold strtol at h
  simp only at h
  generalize hsg : takeSign (t.dropWhile isSpace) = sg at h
  have hsp : t = t.takeWhile isSpace ++ t.dropWhile isSpace := (List.takeWhile_append_dropWhile).symm
  have hts : ∃ x, t.dropWhile isSpace = x ++ sg.2 ∧ (x = [] ∨ x = ['+'] ∨ x = ['-']) ∧ (sg.1 = true ↔ x = ['-']) := by
    rw [← hsg]
    generalize t.dropWhile isSpace = w
    unfold takeSign
    split
    · exact ⟨['-'], rfl, by simp, by simp⟩
    · exact ⟨['+'], rfl, by simp, by simp⟩
    · exact ⟨[], rfl, by simp, by simp⟩
  obtain ⟨x, hx1, hx2, hx3⟩ := hts
  by_cases hds : sg.2.takeWhile Char.isDigit = []
  · rw [if_pos hds] at h; cases h
  · rw [if_neg hds] at h
    have hr : r = sg.2.dropWhile Char.isDigit := by
      generalize (if sg.1 = true then -(digitsVal (sg.2.takeWhile Char.isDigit) : Int) else (digitsVal (sg.2.takeWhile Char.isDigit) : Int)) = w at h
      by_cases h1 : w > LONG_MAX
      · simp [h1] at h
      · by_cases h2 : w < LONG_MIN
        · simp [h1, h2] at h
        · simp only [h1, h2, if_false, Option.some.injEq, Prod.mk.injEq] at h
          exact h.2.1.symm
    rw [hr]
    refine ⟨t.takeWhile isSpace, x, sg.2.takeWhile Char.isDigit, ?_, ?_, hx2, hds, ?_, takeWhile_append_not, ?_⟩
    · rw [List.takeWhile_append_dropWhile, ← hx1]; exact hsp
    · intro c hc; exact List.mem_takeWhile_imp hc
    · intro c hc; exact List.mem_takeWhile_imp hc
    · have hv : v = if sg.1 = true then -(digitsVal (sg.2.takeWhile Char.isDigit) : Int) else (digitsVal (sg.2.takeWhile Char.isDigit) : Int) := by
        generalize (if sg.1 = true then -(digitsVal (sg.2.takeWhile Char.isDigit) : Int) else (digitsVal (sg.2.takeWhile Char.isDigit) : Int)) = w at h
        by_cases h1 : w > LONG_MAX
        · simp [h1] at h
        · by_cases h2 : w < LONG_MIN
          · simp [h1, h2] at h
          · simp only [h1, h2, if_false, Option.some.injEq, Prod.mk.injEq] at h
            exact h.1.symm
      rw [hv]
      unfold digitsVal
      by_cases hn : x = ['-']
      · rw [if_pos (hx3.2 hn), if_pos hn]
      · rw [if_neg (fun h => hn (hx3.1 h)), if_neg hn]

/-- What `strtol` accepted without ERANGE begins with that number. -/
theorem strtol_begins {t : List Char} {v : Int} {r : List Char} (h : strtol t = some (v, r, false)) : IntBegins t v := by
  obtain ⟨ws, sg, ds, h⟩ := strtol_then h
  exact ⟨ws, sg, ds, r, h⟩

theorem stoi_begins {t : List Char} {v : Int} (h : stoi t = .ok v) : IntBegins t v := by
  unfold stoi at h
  cases hs : strtol t with
  | none => rw [hs] at h; cases h
  | some x =>
    obtain ⟨w, r, er⟩ := x
    rw [hs] at h
    simp only at h
    split at h
    · cases h
    · rename_i hc
      cases h
      have her : er = false := by cases er <;> simp_all
      subst her
      exact strtol_begins hs

/-! ## What `std::stod` accepts -/

theorem takeSign_split (w : List Char) : ∃ s, w = signText s ++ (takeSign w).2 ∧ ((takeSign w).1 = true ↔ s = some true) := by
  unfold takeSign
  split
  · exact ⟨some true, rfl, by simp⟩
  · exact ⟨some false, rfl, by simp⟩
  · exact ⟨none, rfl, by simp⟩

theorem takeFrac_split (w : List Char) : ∃ fr : Option (List Char),
    w = (match fr with | none => [] | some ds => '.' :: ds) ++ (takeFrac w).2 ∧ fr.getD [] = (takeFrac w).1 ∧ allDigits (fr.getD []) ∧
    (fr = none → (takeFrac w).2 = w ∧ w.head? ≠ some '.') ∧ (∀ ds, fr = some ds → ∀ c, (takeFrac w).2.head? = some c → c.isDigit = false) := by
  unfold takeFrac
  split
  · rename_i r
    refine ⟨some (r.takeWhile Char.isDigit), by simp [List.takeWhile_append_dropWhile], rfl, ?_, by simp, ?_⟩
    · intro c hc; exact List.mem_takeWhile_imp hc
    · intro ds _ c hc; exact takeWhile_append_not c hc
  · rename_i hne
    refine ⟨none, rfl, rfl, by intro c hc; simp at hc, ?_, by simp⟩
    intro _
    refine ⟨rfl, ?_⟩
    intro h
    rcases w with _ | ⟨a, w⟩
    · cases h
    · simp only [List.head?_cons, Option.some.injEq] at h
      subst h
      exact hne w rfl

theorem takeExp_split (w : List Char) : ∃ (ex : Option (Option Bool × List Char)) (x : Char),
    w = (match ex with | none => [] | some (s, ds) => x :: (signText s ++ ds)) ++ (takeExp w).2 ∧ (x = 'e' ∨ x = 'E') ∧
    (∀ s ds, ex = some (s, ds) → allDigits ds ∧ ds ≠ [] ∧ ∀ c, (takeExp w).2.head? = some c → c.isDigit = false) ∧
    (takeExp w).1 = (match ex with
      | none => 0
      | some (some true, ds) => -(Nat.ofDigitChars 10 ds 0 : Int)
      | some (_, ds) => (Nat.ofDigitChars 10 ds 0 : Int)) ∧
    (ex = none → (takeExp w).2 = w ∧ ∀ y s d more, w = y :: (signText s ++ d :: more) → y = 'e' ∨ y = 'E' → d.isDigit = false) := by
  rcases w with _ | ⟨c, r⟩
  · exact ⟨none, 'e', rfl, Or.inl rfl, by simp, rfl, fun _ => ⟨rfl, by simp⟩⟩
  · unfold takeExp
    by_cases hc : c = 'e' ∨ c = 'E'
    · simp only [hc, if_true]
      by_cases hd : (takeSign r).2.takeWhile Char.isDigit = []
      · rw [if_pos hd]
        refine ⟨none, 'e', rfl, Or.inl rfl, by simp, rfl, fun _ => ⟨rfl, ?_⟩⟩
        intro y s d more he _
        simp only [List.cons.injEq] at he
        obtain ⟨_, rfl⟩ := he
        by_contra hdig
        have hdig : d.isDigit = true := by simpa using hdig
        have h1 : takeSign (signText s ++ d :: more) = (decide (s = some true), d :: more) := by
          rcases s with _ | _ | _
          · simp only [signText, List.nil_append]
            unfold takeSign
            split
            · rename_i h; cases h; exact absurd hdig (by decide)
            · rename_i h; cases h; exact absurd hdig (by decide)
            · rfl
          · rfl
          · rfl
        rw [h1] at hd
        simp [hdig] at hd
      · rw [if_neg hd]
        obtain ⟨s, h1, h2⟩ := takeSign_split r
        refine ⟨some (s, (takeSign r).2.takeWhile Char.isDigit), c, ?_, hc, ?_, ?_, by simp⟩
        · simp only [List.cons_append, List.append_assoc, List.takeWhile_append_dropWhile]
          rw [← h1]
        · rintro s' ds' ⟨⟩
          exact ⟨fun c hc => List.mem_takeWhile_imp hc, hd, fun c hc => takeWhile_append_not c hc⟩
        · rcases s with _ | _ | _
          · rw [if_neg (by simpa using h2)]; rfl
          · rw [if_neg (by simpa using h2)]; rfl
          · rw [if_pos (by simpa using h2)]; rfl
    · simp only [hc, if_false]
      refine ⟨none, 'e', rfl, Or.inl rfl, by simp, rfl, fun _ => ⟨trivial, ?_⟩⟩
      intro y s d more he hy
      simp only [List.cons.injEq] at he
      rw [he.1] at hc
      exact absurd hy hc

theorem Numeral.value_scale {n : Numeral} (hn : n.Shape) : n.value = signVal n.sign * scale10 (digitsVal (n.ip ++ n.fracDigits) : Nat) (n.expVal - n.fracDigits.length) := by
  have hval : (digitsVal (n.ip ++ n.fracDigits) : Rat) * (10 : Rat) ^ (n.expVal - n.fracDigits.length)
      = (Numeral.digVal n.ip + Numeral.digVal n.fracDigits / 10 ^ n.fracDigits.length) * (10 : Rat) ^ n.expVal := by
    rw [digVal_eq _ hn.ip, digVal_eq _ hn.frac, digitsVal, Nat.ofDigitChars_append,
      Nat.ofDigitChars_eq_ofDigitChars_zero]
    rw [zpow_sub₀ (by norm_num), zpow_natCast]
    push_cast
    field_simp
  unfold Numeral.value
  rw [scale10_eq, hval, mul_assoc]

theorem dropWord_some {w l r : List Char} (h : dropWord w l = some r) : (l.take w.length).map Char.toLower = w := by
  unfold dropWord at h
  split at h
  · assumption
  · cases h

theorem strtodWord_some {l : List Char} {x : Rat × List Char} (h : strtodWord l = some x) :
    (l.take 3).map Char.toLower = c!"inf" ∨ (l.take 3).map Char.toLower = c!"nan" := by
  unfold strtodWord at h
  split at h
  · rename_i h1
    left
    have := dropWord_some h1
    have := congrArg (List.take 3) this
    rw [← List.map_take, List.take_take] at this
    exact this
  · split at h
    · rename_i h1; exact Or.inl (dropWord_some h1)
    · split at h
      · rename_i h1; exact Or.inr (dropWord_some h1)
      · cases h

/-- What `std::stod` accepted begins with that number. -/
theorem stod_begins {t : List Char} {v : Rat} (h : stod t = .ok v) : RealBegins t v := by
  unfold stod at h
  have hsp : t = t.takeWhile isSpace ++ t.dropWhile isSpace := (List.takeWhile_append_dropWhile).symm
  have hspace : ∀ c ∈ t.takeWhile isSpace, isSpace c = true := fun c hc => List.mem_takeWhile_imp hc
  obtain ⟨s, hs1, hs2⟩ := takeSign_split (t.dropWhile isSpace)
  unfold strtod at h
  simp only at h
  generalize hsg : takeSign (t.dropWhile isSpace) = sg at h hs1 hs2
  cases hw : strtodWord sg.2 with
  | some x =>
    right
    refine ⟨_, s, sg.2, ?_, hspace, ?_⟩
    · rw [← hs1]; exact hsp
    · rcases strtodWord_some hw with h | h
      · exact Or.inl h
      · exact Or.inr (Or.inl h)
  | none =>
    rw [hw] at h
    cases hh : strtodHex sg.2 with
    | some x =>
      right
      refine ⟨_, s, sg.2, ?_, hspace, ?_⟩
      · rw [← hs1]; exact hsp
      · refine Or.inr (Or.inr ?_)
        unfold strtodHex at hh
        split at hh
        · rename_i c r he
          rw [he]
          split at hh
          · rename_i hx; rcases hx with rfl | rfl <;> rfl
          · cases hh
        · cases hh
    | none =>
      rw [hh] at h
      cases hd : strtodDec sg.2 with
      | none => rw [hd] at h; cases h
      | some x =>
        rw [hd] at h
        left
        unfold strtodDec at hd
        simp only at hd
        obtain ⟨fr, f1, f2, f3, f4, f5⟩ := takeFrac_split (sg.2.dropWhile Char.isDigit)
        generalize hF : takeFrac (sg.2.dropWhile Char.isDigit) = F at hd f1 f2 f4 f5
        obtain ⟨ex, e, e1, e2, e3, e4, e5⟩ := takeExp_split F.2
        generalize hX : takeExp F.2 = X at hd e1 e3 e4 e5
        have hne : ¬ (sg.2.takeWhile Char.isDigit = [] ∧ F.1 = []) := by
          intro hc; rw [if_pos hc] at hd; cases hd
        rw [if_neg hne] at hd
        cases hd
        let n : Numeral := ⟨0, s, sg.2.takeWhile Char.isDigit, fr, ex⟩
        have hfd : n.fracDigits = F.1 := f2
        have hshape : n.Shape := by
          refine ⟨fun c hc => List.mem_takeWhile_imp hc, f3, ?_, fun s' ds' he => ⟨(e3 s' ds' he).1, (e3 s' ds' he).2.1⟩⟩
          rw [hfd]
          by_contra hc
          push Not at hc
          exact hne hc
        refine ⟨t.takeWhile isSpace, n, e, X.2, ?_, hspace, hshape, e2, ?_, ?_, ?_, ?_⟩
        · conv_lhs => rw [hsp, hs1]
          congr 2
          show sg.2 = sg.2.takeWhile Char.isDigit ++ _
          conv_lhs => rw [← List.takeWhile_append_dropWhile (p := Char.isDigit) (l := sg.2), f1, e1]
          rfl
        · have hev : n.expVal = X.1 := by
            rw [e4]
            show Numeral.expVal ⟨0, s, _, fr, ex⟩ = _
            unfold Numeral.expVal
            rfl
          rw [Numeral.value_scale hshape, hfd, hev]
          simp only at h
          generalize scale10 (digitsVal (n.ip ++ F.1) : Nat) (X.1 - F.1.length) = q at *
          split at h
          · cases h
          · cases h
            show (if sg.1 = true then -q else q) = signVal s * q
            rcases s with _ | _ | _
            · rw [if_neg (by simpa using hs2)]; simp [signVal]
            · rw [if_neg (by simpa using hs2)]; simp [signVal]
            · rw [if_pos (by simpa using hs2)]; simp [signVal]
        · intro c hc
          rcases ex with _ | ⟨s', ds'⟩
          · rw [(e5 rfl).1] at hc
            rcases fr with _ | ds
            · rw [(f4 rfl).1] at hc
              exact takeWhile_append_not c hc
            · exact f5 ds rfl c hc
          · exact (e3 s' ds' rfl).2.2 c hc
        · intro (h1 : fr = none) (h2 : ex = none)
          rw [(e5 h2).1, (f4 h1).1]
          exact (f4 h1).2
        · intro (h2 : ex = none)
          rw [(e5 h2).1]
          exact (e5 h2).2

/-- What `strtod` accepted without ERANGE begins with that number. -/
theorem strtod_begins {t : List Char} {v : Rat} {r : List Char} (h : strtod t = some (v, r, false)) : RealBegins t v := by
  apply stod_begins
  unfold stod
  rw [h]
  rfl

/-- What `strtol` makes of a text that begins with an integer. -/
theorem strtol_of_then {t : List Char} {v : Int} {r : List Char} (h : IntThen t v r) :
    strtol t = if v > LONG_MAX then some (LONG_MAX, r, true) else if v < LONG_MIN then some (LONG_MIN, r, true) else some (v, r, false) := by
  obtain ⟨ws, sg, ds, rfl, h1, h2, h3, h4, h5, h6⟩ := h
  unfold strtol
  simp only
  have hd : (ws ++ (sg ++ (ds ++ r))).dropWhile isSpace = sg ++ (ds ++ r) := by
    rw [List.dropWhile_append_of_pos h1]
    obtain ⟨c, cs, rfl⟩ := List.exists_cons_of_ne_nil h3
    rcases h2 with rfl | rfl | rfl
    · have := h4 c (by simp)
      simp only [List.nil_append, List.cons_append]
      rw [List.dropWhile_cons_of_neg]
      intro hc
      unfold isSpace at hc
      simp at hc
      rcases hc with ((((rfl | rfl) | rfl) | rfl) | rfl) | rfl <;> simp at this
    · rfl
    · rfl
  rw [hd]
  have ht : takeSign (sg ++ (ds ++ r)) = (decide (sg = ['-']), ds ++ r) := by
    obtain ⟨c, cs, rfl⟩ := List.exists_cons_of_ne_nil h3
    rcases h2 with rfl | rfl | rfl
    · have := h4 c (by simp)
      simp only [List.nil_append, List.cons_append]
      unfold takeSign
      split
      · rename_i he; cases he; simp at this
      · rename_i he; cases he; simp at this
      · rfl
    · rfl
    · rfl
  rw [ht]
  have htk : (ds ++ r).takeWhile Char.isDigit = ds := by
    rw [List.takeWhile_append_of_pos h4]
    cases r with
    | nil => simp
    | cons c cs => rw [List.takeWhile_cons_of_neg (by simp [h5 c rfl])]; simp
  have hdr : (ds ++ r).dropWhile Char.isDigit = r := by
    rw [List.dropWhile_append_of_pos h4]
    cases r with
    | nil => rfl
    | cons c cs => rw [List.dropWhile_cons_of_neg (by simp [h5 c rfl])]
  simp only [htk, hdr]
  rw [if_neg h3]
  have hv : (if decide (sg = ['-']) = true then -(digitsVal ds : Int) else (digitsVal ds : Int)) = v := by
    rw [h6]; unfold digitsVal; simp
  rw [hv]

/-- Where `strtol` finds nothing the text does not begin with an integer. -/
theorem strtol_not_begins {t : List Char} (h : strtol t = none) (v : Int) : ¬ IntBegins t v := by
  rintro ⟨ws, sg, ds, rest, hb⟩
  have := strtol_of_then ⟨ws, sg, ds, hb⟩
  rw [h] at this
  revert this
  (repeat' split) <;> simp

/-- A text begins with one integer only. -/
theorem IntBegins.unique {t : List Char} {v w : Int} (hv : IntBegins t v) (hw : IntBegins t w) : v = w := by
  obtain ⟨ws, sg, ds, rest, rfl, h1, h2, h3, h4, h5, h6⟩ := hv
  obtain ⟨ws', sg', ds', rest', he, g1, g2, g3, g4, g5, g6⟩ := hw
  have key : ∀ (ws sg ds rest : List Char), (∀ c ∈ ws, isSpace c = true) → (sg = [] ∨ sg = ['+'] ∨ sg = ['-']) → ds ≠ [] →
      (∀ c ∈ ds, c.isDigit = true) → (∀ c, rest.head? = some c → c.isDigit = false) →
      takeSign ((ws ++ (sg ++ (ds ++ rest))).dropWhile isSpace) = (decide (sg = ['-']), ds ++ rest) ∧ (ds ++ rest).takeWhile Char.isDigit = ds := by
    intro ws sg ds rest h1 h2 h3 h4 h5
    constructor
    · rw [List.dropWhile_append_of_pos h1]
      obtain ⟨c, cs, rfl⟩ := List.exists_cons_of_ne_nil h3
      rcases h2 with rfl | rfl | rfl
      · have := h4 c (by simp)
        simp only [List.nil_append, List.cons_append]
        rw [List.dropWhile_cons_of_neg]
        · unfold takeSign
          split
          · rename_i he; cases he; simp at this
          · rename_i he; cases he; simp at this
          · rfl
        · intro hc
          unfold isSpace at hc
          simp at hc
          rcases hc with ((((rfl | rfl) | rfl) | rfl) | rfl) | rfl <;> simp at this
      · rfl
      · rfl
    · rw [List.takeWhile_append_of_pos h4]
      cases rest with
      | nil => simp
      | cons c cs => rw [List.takeWhile_cons_of_neg (by simp [h5 c rfl])]; simp
  obtain ⟨a1, a2⟩ := key ws sg ds rest h1 h2 h3 h4 h5
  obtain ⟨b1, b2⟩ := key ws' sg' ds' rest' g1 g2 g3 g4 g5
  rw [he, b1] at a1
  simp only [Prod.mk.injEq, decide_eq_decide] at a1
  have hds : ds' = ds := by rw [← a2, ← a1.2, b2]
  subst hds
  rw [h6, g6]
  by_cases hs : sg = ['-']
  · rw [if_pos hs, if_pos (a1.1.2 hs)]
  · rw [if_neg hs, if_neg (fun h => hs (a1.1.1 h))]

/-- What `strtol` refused for its size begins with such an integer. -/
theorem strtol_big {t : List Char} {w : Int} {r : List Char} (h : strtol t = some (w, r, true)) :
    ∃ v, IntBegins t v ∧ (LONG_MAX < v ∨ v < LONG_MIN) := by
  unfold strtol at h
  simp only at h
  generalize hsg : takeSign (t.dropWhile isSpace) = sg at h
  have hsp : t = t.takeWhile isSpace ++ t.dropWhile isSpace := (List.takeWhile_append_dropWhile).symm
  obtain ⟨x, hx1, hx2, hx3⟩ : ∃ x, t.dropWhile isSpace = x ++ sg.2 ∧ (x = [] ∨ x = ['+'] ∨ x = ['-']) ∧ (sg.1 = true ↔ x = ['-']) := by
    rw [← hsg]
    generalize t.dropWhile isSpace = w
    unfold takeSign
    split
    · exact ⟨['-'], rfl, by simp, by simp⟩
    · exact ⟨['+'], rfl, by simp, by simp⟩
    · exact ⟨[], rfl, by simp, by simp⟩
  by_cases hds : sg.2.takeWhile Char.isDigit = []
  · rw [if_pos hds] at h; cases h
  · rw [if_neg hds] at h
    generalize hw : (if sg.1 = true then -(digitsVal (sg.2.takeWhile Char.isDigit) : Int) else (digitsVal (sg.2.takeWhile Char.isDigit) : Int)) = z at h
    refine ⟨z, ⟨t.takeWhile isSpace, x, sg.2.takeWhile Char.isDigit, sg.2.dropWhile Char.isDigit, ?_, ?_, hx2, hds, ?_, takeWhile_append_not, ?_⟩, ?_⟩
    · rw [List.takeWhile_append_dropWhile, ← hx1]; exact hsp
    · intro c hc; exact List.mem_takeWhile_imp hc
    · intro c hc; exact List.mem_takeWhile_imp hc
    · rw [← hw]
      unfold digitsVal
      by_cases hn : x = ['-']
      · rw [if_pos (hx3.2 hn), if_pos hn]
      · rw [if_neg (fun h => hn (hx3.1 h)), if_neg hn]
    · by_cases h1 : z > LONG_MAX
      · exact Or.inl h1
      · by_cases h2 : z < LONG_MIN
        · exact Or.inr h2
        · simp [h1, h2] at h

theorem split_nul {p r a b : List Char} (hp : NUL ∉ p) (he : a ++ NUL :: b = p ++ r) : ∃ r', a = p ++ r' ∧ r = r' ++ NUL :: b := by
  rcases List.append_eq_append_iff.1 he with ⟨x, hx1, hx2⟩ | ⟨x, hx1, hx2⟩
  · cases x with
    | nil =>
      refine ⟨[], ?_, ?_⟩
      · simpa using hx1.symm
      · simpa using hx2.symm
    | cons c cs =>
      simp only [List.cons_append, List.cons.injEq] at hx2
      exact absurd (by rw [hx1, ← hx2.1]; simp) hp
  · exact ⟨x, hx1, hx2⟩

theorem head_of_nul {r' b : List Char} {c : Char} (h : r'.head? = some c) : (r' ++ NUL :: b).head? = some c := by
  cases r' with
  | nil => cases h
  | cons _ _ => exact h

/-- A terminator ends the text: what stands behind it is not part of the number. -/
theorem IntThen.of_nul {a b : List Char} {v : Int} {r : List Char} (h : IntThen (a ++ NUL :: b) v r) :
    ∃ r', r = r' ++ NUL :: b ∧ IntThen a v r' := by
  obtain ⟨ws, sg, ds, he, h1, h2, h3, h4, h5, h6⟩ := h
  have hno : NUL ∉ ws ++ (sg ++ ds) := by
    intro hn
    simp only [List.mem_append] at hn
    rcases hn with hn | hn | hn
    · exact absurd (h1 _ hn) (by decide)
    · rcases h2 with rfl | rfl | rfl
      · cases hn
      · revert hn; decide
      · revert hn; decide
    · exact absurd (h4 _ hn) (by decide)
  obtain ⟨r', ha', hr'⟩ := split_nul hno (show a ++ NUL :: b = (ws ++ (sg ++ ds)) ++ r by rw [he]; simp)
  exact ⟨r', hr', ws, sg, ds, by rw [ha']; simp, h1, h2, h3, h4, fun c hc => h5 c (by rw [hr']; exact head_of_nul hc), h6⟩

theorem nul_signText (s : Option Bool) : NUL ∉ signText s := by rcases s with _ | _ | _ <;> decide

/-- A terminator ends the text: what stands behind it is not part of the number. -/
theorem RealBegins.of_nul {a b : List Char} {v : Rat} (h : RealBegins (a ++ NUL :: b) v) : RealBegins a v := by
  rcases h with ⟨ws, n, e, rest, he, h1, h2, h3, h4, h5, h6, h7⟩ | ⟨ws, s, more, he, h1, h2⟩
  · left
    have hno : NUL ∉ ws ++ (signText n.sign ++ (n.ip ++ (n.fracText ++ expTextWith e n))) := by
      intro hn
      simp only [List.mem_append] at hn
      rcases hn with hn | hn | hn | hn | hn
      · exact absurd (h1 _ hn) (by decide)
      · exact nul_signText _ hn
      · exact absurd (h2.ip _ hn) (by decide)
      · unfold Numeral.fracText at hn
        cases hf : n.frac with
        | none => rw [hf] at hn; cases hn
        | some ds =>
          rw [hf] at hn
          have := h2.frac
          rw [show n.fracDigits = ds by simp [Numeral.fracDigits, hf]] at this
          rcases List.mem_cons.1 hn with hn | hn
          · revert hn; decide
          · exact absurd (this _ hn) (by decide)
      · unfold expTextWith at hn
        cases hx : n.exp with
        | none => rw [hx] at hn; cases hn
        | some p =>
          obtain ⟨s, ds⟩ := p
          rw [hx] at hn
          have := (h2.exp s ds hx).1
          rcases List.mem_cons.1 hn with hn | hn
          · rcases h3 with rfl | rfl <;> revert hn <;> decide
          · rcases List.mem_append.1 hn with hn | hn
            · exact nul_signText _ hn
            · exact absurd (this _ hn) (by decide)
    obtain ⟨r', ha', hr'⟩ := split_nul hno (show a ++ NUL :: b = (ws ++ (signText n.sign ++ (n.ip ++ (n.fracText ++ expTextWith e n)))) ++ rest by
      rw [he]; simp)
    refine ⟨ws, n, e, r', by rw [ha']; simp, h1, h2, h3, h4, fun c hc => h5 c (by rw [hr']; exact head_of_nul hc), ?_, ?_⟩
    · intro g1 g2 hc
      exact h6 g1 g2 (by rw [hr']; exact head_of_nul hc)
    · intro g x s d more hm hx
      exact h7 g x s d (more ++ NUL :: b) (by rw [hr', hm]; simp) hx
  · right
    have hw : ∃ w, (w = c!"inf" ∨ w = c!"nan" ∨ w = c!"0x") ∧ (more.take w.length).map Char.toLower = w := by
      rcases h2 with h | h | h
      · exact ⟨_, Or.inl rfl, h⟩
      · exact ⟨_, Or.inr (Or.inl rfl), h⟩
      · exact ⟨_, Or.inr (Or.inr rfl), h⟩
    obtain ⟨w, hw1, hw2⟩ := hw
    have hno : NUL ∉ ws ++ (signText s ++ more.take w.length) := by
      intro hn
      simp only [List.mem_append] at hn
      rcases hn with hn | hn | hn
      · exact absurd (h1 _ hn) (by decide)
      · exact nul_signText _ hn
      · have : Char.toLower NUL ∈ w := by rw [← hw2]; exact List.mem_map_of_mem hn
        rcases hw1 with rfl | rfl | rfl <;> revert this <;> decide
    obtain ⟨r', ha', hr'⟩ := split_nul hno (show a ++ NUL :: b = (ws ++ (signText s ++ more.take w.length)) ++ more.drop w.length by
      rw [he]; simp)
    have hlen : (more.take w.length).length = w.length := by rw [← List.length_map (f := Char.toLower), hw2]
    refine ⟨ws, s, more.take w.length ++ r', by rw [ha']; simp, h1, ?_⟩
    have hk : (more.take w.length ++ r').take w.length = more.take w.length := List.take_left' hlen
    rcases hw1 with rfl | rfl | rfl
    · left; rw [show (3 : Nat) = (c!"inf").length from rfl, hk]; exact hw2
    · right; left; rw [show (3 : Nat) = (c!"nan").length from rfl, hk]; exact hw2
    · right; right; rw [show (2 : Nat) = (c!"0x").length from rfl, hk]; exact hw2

theorem DecBegins.nul {a : List Char} {v : Rat} (h : DecBegins a v) (b : List Char) : DecBegins (a ++ NUL :: b) v := by
  obtain ⟨ws, n, e, rest, rfl, h1, h2, h3, h4, h5, h6, h7⟩ := h
  refine ⟨ws, n, e, rest ++ NUL :: b, by simp, h1, h2, h3, h4, ?_, ?_, ?_⟩
  · intro c hc
    cases rest with
    | nil => simp at hc; subst hc; decide
    | cons _ _ => exact h5 c hc
  · intro g1 g2 hc
    cases rest with
    | nil => simp at hc; revert hc; decide
    | cons x xs => exact h6 g1 g2 hc
  · intro g x s d more hm hx
    cases rest with
    | nil =>
      simp only [List.nil_append, List.cons.injEq] at hm
      rcases hx with rfl | rfl <;> exact absurd hm.1 (by decide)
    | cons y ys =>
      simp only [List.cons_append, List.cons.injEq] at hm
      obtain ⟨rfl, hm⟩ := hm
      by_cases hd : NUL ∈ signText s ++ [d]
      · rcases List.mem_append.1 hd with hd | hd
        · exact absurd hd (nul_signText _)
        · simp at hd; rw [← hd]; decide
      · obtain ⟨r', ha', _⟩ := split_nul hd (show ys ++ NUL :: b = (signText s ++ [d]) ++ more by rw [hm]; simp)
        exact h7 g y s d r' (by rw [ha']; simp) hx

theorem IntBegins.of_nul {a b : List Char} {v : Int} (h : IntBegins (a ++ NUL :: b) v) : IntBegins a v := by
  obtain ⟨ws, sg, ds, rest, h⟩ := h
  obtain ⟨r', _, ws, sg, ds, h⟩ := IntThen.of_nul ⟨ws, sg, ds, h⟩
  exact ⟨ws, sg, ds, r', h⟩

theorem IntBegins.nul {a : List Char} {v : Int} (h : IntBegins a v) (b : List Char) : IntBegins (a ++ NUL :: b) v := by
  obtain ⟨ws, sg, ds, rest, rfl, h1, h2, h3, h4, h5, h6⟩ := h
  refine ⟨ws, sg, ds, rest ++ NUL :: b, by simp, h1, h2, h3, h4, ?_, h6⟩
  intro c hc
  cases rest with
  | nil => simp at hc; subst hc; decide
  | cons _ _ => exact h5 c hc

/-- Where `strtod` finds nothing the text does not begin with a decimal number. -/
theorem strtod_not_begins {t : List Char} (h : strtod t = none) (v : Rat) : ¬ DecBegins t v := by
  rintro ⟨ws, n, e, rest, rfl, h1, h2, h3, h4, h5, h6, h7⟩
  have hfirst : ∃ c cs, n.ip ++ (n.fracText ++ (expTextWith e n ++ rest)) = c :: cs ∧ (c.isDigit = true ∨ c = '.') := by
    cases hip : n.ip with
    | cons c cs => exact ⟨c, _, rfl, Or.inl (h2.ip c (by rw [hip]; simp))⟩
    | nil =>
      cases hf : n.frac with
      | none =>
        rcases h2.nonempty with h | h
        · exact absurd hip h
        · exact absurd (by simp [Numeral.fracDigits, hf]) h
      | some ds => exact ⟨'.', ds ++ (expTextWith e n ++ rest), by simp [Numeral.fracText, hf], Or.inr rfl⟩
  have hnum : ¬ ((n.ip ++ (n.fracText ++ (expTextWith e n ++ rest))).takeWhile Char.isDigit = [] ∧
      (takeFrac ((n.ip ++ (n.fracText ++ (expTextWith e n ++ rest))).dropWhile Char.isDigit)).1 = []) := by
    rintro ⟨g1, g2⟩
    cases hip : n.ip with
    | cons c cs =>
      rw [hip, List.cons_append, List.takeWhile_cons_of_pos (h2.ip c (by rw [hip]; simp))] at g1
      cases g1
    | nil =>
      cases hf : n.frac with
      | none =>
        rcases h2.nonempty with h | h
        · exact absurd hip h
        · exact absurd (by simp [Numeral.fracDigits, hf]) h
      | some ds =>
        rcases h2.nonempty with h | h
        · exact absurd hip h
        · have hd : n.fracDigits = ds := by simp [Numeral.fracDigits, hf]
          have hall := h2.frac
          rw [hd] at h hall
          obtain ⟨c, cs, rfl⟩ := List.exists_cons_of_ne_nil h
          rw [hip, show n.fracText = '.' :: (c :: cs) by simp [Numeral.fracText, hf]] at g2
          rw [List.nil_append, List.cons_append, List.dropWhile_cons_of_neg (by decide)] at g2
          simp only [takeFrac] at g2
          rw [List.cons_append, List.takeWhile_cons_of_pos (hall c (by simp))] at g2
          cases g2
  generalize n.ip ++ (n.fracText ++ (expTextWith e n ++ rest)) = body at *
  obtain ⟨c, cs, rfl, hc⟩ := hfirst
  have hnsp : isSpace c = false := by
    rcases hc with hc | rfl
    · cases hs : isSpace c with
      | false => rfl
      | true =>
        unfold isSpace at hs
        simp at hs
        rcases hs with ((((rfl | rfl) | rfl) | rfl) | rfl) | rfl <;> simp at hc
    · rfl
  have hd : (ws ++ (signText n.sign ++ (c :: cs))).dropWhile isSpace = signText n.sign ++ (c :: cs) := by
    rw [List.dropWhile_append_of_pos h1]
    rcases n.sign with _ | _ | _
    · show (c :: cs).dropWhile isSpace = _
      rw [List.dropWhile_cons_of_neg (by simp [hnsp])]; rfl
    · rfl
    · rfl
  have ht : (takeSign (signText n.sign ++ (c :: cs))).2 = c :: cs := by
    rcases n.sign with _ | _ | _
    · show (takeSign (c :: cs)).2 = _
      unfold takeSign
      split
      · rename_i he; cases he; simp at hc
      · rename_i he; cases he; simp at hc
      · rfl
    · rfl
    · rfl
  unfold strtod at h
  simp only at h
  rw [hd, ht] at h
  cases hw : strtodWord (c :: cs) with
  | some x => rw [hw] at h; cases h
  | none =>
    rw [hw] at h
    cases hx : strtodHex (c :: cs) with
    | some x => rw [hx] at h; cases h
    | none =>
      rw [hx] at h
      have hdec : strtodDec (c :: cs) ≠ none := by
        unfold strtodDec
        simp only
        rw [if_neg hnum]
        simp
      cases hy : strtodDec (c :: cs) with
      | none => exact hdec hy
      | some x => rw [hy] at h; cases h

end Ggnss
