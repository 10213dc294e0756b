import Verif.Lemmas.NumText
/-! # `strtod` on arbitrary text -/
namespace Ggnss

/-- What `strtod` finds: a decimal number, with ERANGE exactly when it does not fit, or one of the odd ones. -/
theorem strtod_some {t : List Char} {v : Rat} {r : List Char} {er : Bool} (h : strtod t = some (v, r, er)) :
    OddNumber t ∨ (DecBegins t v ∧ er = dblErange v) := by
  have hsp : t = t.takeWhile isSpace ++ t.dropWhile isSpace := (List.takeWhile_append_dropWhile).symm
  have hspace : ∀ c ∈ t.takeWhile isSpace, isSpace c = true := fun c hc => List.mem_takeWhile_imp hc
  obtain ⟨s, hs1, hs2⟩ := takeSign_split (t.dropWhile isSpace)
  unfold strtod at h
  simp only at h
  generalize hsg : takeSign (t.dropWhile isSpace) = sg at h hs1 hs2
  cases hw : strtodWord sg.2 with
  | some x =>
    left
    refine ⟨_, s, sg.2, ?_, hspace, ?_⟩
    · rw [← hs1]; exact hsp
    · rcases strtodWord_some hw with h | h
      · exact Or.inl h
      · exact Or.inr (Or.inl h)
  | none =>
    rw [hw] at h
    cases hh : strtodHex sg.2 with
    | some x =>
      left
      refine ⟨_, s, sg.2, ?_, hspace, ?_⟩
      · rw [← hs1]; exact hsp
      · refine Or.inr (Or.inr ?_)
        unfold strtodHex at hh
        split at hh
        · rename_i c r he
          rw [he]
          split at hh
          · rename_i hx; rcases hx with rfl | rfl <;> rfl
          · cases hh
        · cases hh
    | none =>
      rw [hh] at h
      cases hd : strtodDec sg.2 with
      | none => rw [hd] at h; cases h
      | some x =>
        rw [hd] at h
        right
        unfold strtodDec at hd
        simp only at hd
        obtain ⟨fr, f1, f2, f3, f4, f5⟩ := takeFrac_split (sg.2.dropWhile Char.isDigit)
        generalize hF : takeFrac (sg.2.dropWhile Char.isDigit) = F at hd f1 f2 f4 f5
        obtain ⟨ex, e, e1, e2, e3, e4, e5⟩ := takeExp_split F.2
        generalize hX : takeExp F.2 = X at hd e1 e3 e4 e5
        have hne : ¬ (sg.2.takeWhile Char.isDigit = [] ∧ F.1 = []) := by
          intro hc; rw [if_pos hc] at hd; cases hd
        rw [if_neg hne] at hd
        cases hd
        simp only [Option.some.injEq, Prod.mk.injEq] at h
        obtain ⟨hv, -, her⟩ := h
        refine ⟨?_, ?_⟩
        swap
        · rw [← her, ← hv]
          split
          · rw [dblErange_neg]
          · rfl
        let n : Numeral := ⟨0, s, sg.2.takeWhile Char.isDigit, fr, ex⟩
        have hfd : n.fracDigits = F.1 := f2
        have hshape : n.Shape := by
          refine ⟨fun c hc => List.mem_takeWhile_imp hc, f3, ?_, fun s' ds' he => ⟨(e3 s' ds' he).1, (e3 s' ds' he).2.1⟩⟩
          rw [hfd]
          by_contra hc
          push Not at hc
          exact hne hc
        refine ⟨t.takeWhile isSpace, n, e, X.2, ?_, hspace, hshape, e2, ?_, ?_, ?_, ?_⟩
        · conv_lhs => rw [hsp, hs1]
          congr 2
          show sg.2 = sg.2.takeWhile Char.isDigit ++ _
          conv_lhs => rw [← List.takeWhile_append_dropWhile (p := Char.isDigit) (l := sg.2), f1, e1]
          rfl
        · have hev : n.expVal = X.1 := by
            rw [e4]
            show Numeral.expVal ⟨0, s, _, fr, ex⟩ = _
            unfold Numeral.expVal
            rfl
          rw [Numeral.value_scale hshape, hfd, hev]
          generalize scale10 (digitsVal (n.ip ++ F.1) : Nat) (X.1 - F.1.length) = q at *
          rw [← hv]
          show (if sg.1 = true then -q else q) = signVal s * q
          rcases s with _ | _ | _
          · rw [if_neg (by simpa using hs2)]; simp [signVal]
          · rw [if_neg (by simpa using hs2)]; simp [signVal]
          · rw [if_pos (by simpa using hs2)]; simp [signVal]
        · intro c hc
          rcases ex with _ | ⟨s', ds'⟩
          · rw [(e5 rfl).1] at hc
            rcases fr with _ | ds
            · rw [(f4 rfl).1] at hc
              exact takeWhile_append_not c hc
            · exact f5 ds rfl c hc
          · exact (e3 s' ds' rfl).2.2 c hc
        · intro (h1 : fr = none) (h2 : ex = none)
          rw [(e5 h2).1, (f4 h1).1]
          exact (f4 h1).2
        · intro (h2 : ex = none)
          rw [(e5 h2).1]
          exact (e5 h2).2


/-- The decimal reader reads the number a text begins with. -/
theorem dec_reads {t : List Char} {v : Rat} (h : DecBegins t v) : ∃ q r, strtodDec (takeSign (t.dropWhile isSpace)).2 = some (q, r) ∧
    v = if (takeSign (t.dropWhile isSpace)).1 = true then -q else q := by
  obtain ⟨ws, n, e, rest, rfl, h1, h2, h3, rfl, h5, h6, h7⟩ := h
  have hbody : ∃ c cs, n.ip ++ (n.fracText ++ (expTextWith e n ++ rest)) = c :: cs ∧ (c.isDigit = true ∨ c = '.') := by
    cases hip : n.ip with
    | cons c cs => exact ⟨c, _, rfl, Or.inl (h2.ip c (by rw [hip]; simp))⟩
    | nil =>
      cases hf : n.frac with
      | none =>
        rcases h2.nonempty with h | h
        · exact absurd hip h
        · exact absurd (by simp [Numeral.fracDigits, hf]) h
      | some ds => exact ⟨'.', ds ++ (expTextWith e n ++ rest), by simp [Numeral.fracText, hf], Or.inr rfl⟩
  have hsp : (ws ++ (signText n.sign ++ (n.ip ++ (n.fracText ++ (expTextWith e n ++ rest))))).dropWhile isSpace =
      signText n.sign ++ (n.ip ++ (n.fracText ++ (expTextWith e n ++ rest))) := by
    rw [List.dropWhile_append_of_pos h1]
    obtain ⟨c, cs, hcs, hc⟩ := hbody
    rw [hcs]
    rcases n.sign with _ | _ | _
    · show (c :: cs).dropWhile isSpace = _
      rw [List.dropWhile_cons_of_neg]
      · rfl
      · rcases hc with hc | rfl
        · rw [isDigit_not_space c hc]; decide
        · decide
    · rfl
    · rfl
  have hsign := takeSign_text n.sign (n.ip ++ (n.fracText ++ (expTextWith e n ++ rest))) (fun c hc => by
    obtain ⟨c', cs, hcs, hc'⟩ := hbody
    rw [hcs] at hc
    cases hc
    rcases hc' with h | rfl
    · exact isDigit_not_sign _ h
    · decide)
  rw [hsp, hsign]
  have hexpHead : ∀ c, (expTextWith e n ++ rest).head? = some c → c.isDigit = false := by
    intro c hc
    unfold expTextWith at hc
    cases hx : n.exp with
    | none => rw [hx] at hc; exact h5 c hc
    | some x => rw [hx] at hc; cases hc; rcases h3 with rfl | rfl <;> decide
  have hfracHead : ∀ c, (n.fracText ++ (expTextWith e n ++ rest)).head? = some c → c.isDigit = false := by
    intro c hc
    cases hf : n.frac with
    | none => rw [show n.fracText = [] by simp [Numeral.fracText, hf]] at hc; exact hexpHead c hc
    | some ds => rw [show n.fracText = '.' :: ds by simp [Numeral.fracText, hf]] at hc; cases hc; decide
  obtain ⟨hw1, hw2⟩ := takeWhile_digits n.ip (n.fracText ++ (expTextWith e n ++ rest)) h2.ip hfracHead
  have hfrac : takeFrac (n.fracText ++ (expTextWith e n ++ rest)) = (n.fracDigits, expTextWith e n ++ rest) := by
    cases hf : n.frac with
    | none =>
      rw [show n.fracText = [] by simp [Numeral.fracText, hf], show n.fracDigits = [] by simp [Numeral.fracDigits, hf], List.nil_append]
      unfold takeFrac
      split
      · rename_i r' he
        exfalso
        unfold expTextWith at he
        cases hx : n.exp with
        | none => rw [hx] at he; exact h6 hf hx (by simp only [List.nil_append] at he; rw [he]; rfl)
        | some x => rw [hx] at he; cases he; rcases h3 with h | h <;> cases h
      · rfl
    | some ds =>
      rw [show n.fracText = '.' :: ds by simp [Numeral.fracText, hf], show n.fracDigits = ds by simp [Numeral.fracDigits, hf]]
      have hds : allDigits ds := by have := h2.frac; rwa [show n.fracDigits = ds by simp [Numeral.fracDigits, hf]] at this
      obtain ⟨g1, g2⟩ := takeWhile_digits ds (expTextWith e n ++ rest) hds hexpHead
      show ((ds ++ (expTextWith e n ++ rest)).takeWhile Char.isDigit, (ds ++ (expTextWith e n ++ rest)).dropWhile Char.isDigit) = _
      rw [g1, g2]
  have hexp : takeExp (expTextWith e n ++ rest) = (n.expVal, rest) := by
    cases hx : n.exp with
    | none =>
      rw [show expTextWith e n = [] by simp [expTextWith, hx], show n.expVal = 0 by simp [Numeral.expVal, hx], List.nil_append]
      cases rest with
      | nil => rfl
      | cons c r =>
        unfold takeExp
        by_cases hc : c = 'e' ∨ c = 'E'
        · simp only [hc, if_true]
          rw [if_pos]
          obtain ⟨s, hs, -⟩ := takeSign_split r
          cases hd : (takeSign r).2 with
          | nil => rfl
          | cons d more =>
            rw [hd] at hs
            have := h7 hx c s d more (by rw [← hs]) hc
            rw [List.takeWhile_cons_of_neg (by simp [this])]
        · simp only [hc, if_false]
    | some x =>
      obtain ⟨s, ds⟩ := x
      obtain ⟨g1, g2⟩ := h2.exp s ds hx
      have hsg := takeSign_text s (ds ++ rest) (fun c hc => isDigit_not_sign c (g1 c (head_digits_append g2 hc)))
      obtain ⟨k1, k2⟩ := takeWhile_digits ds rest g1 h5
      rw [show expTextWith e n = e :: (signText s ++ ds) by simp [expTextWith, hx]]
      simp only [List.cons_append, takeExp, h3, if_true, List.append_assoc, hsg, k1, k2, g2, if_false]
      unfold Numeral.expVal
      rw [hx]
      rcases s with _ | _ | _ <;> rfl
  refine ⟨scale10 (digitsVal (n.ip ++ n.fracDigits) : Nat) (n.expVal - n.fracDigits.length), rest, ?_, ?_⟩
  · unfold strtodDec
    have hne : ¬ (n.ip = [] ∧ n.fracDigits = []) := by
      rintro ⟨a, b⟩; rcases h2.nonempty with h | h <;> contradiction
    simp only [hw1, hw2, hfrac, hexp]
    rw [if_neg hne]
  · rw [Numeral.value_scale h2]
    rcases n.sign with _ | _ | _ <;> simp [signVal]

/-- A text begins with one decimal number at most. -/
theorem DecBegins.unique {t : List Char} {v w : Rat} (hv : DecBegins t v) (hw : DecBegins t w) : v = w := by
  obtain ⟨q, r, h1, h2⟩ := dec_reads hv
  obtain ⟨q', r', h3, h4⟩ := dec_reads hw
  rw [h1] at h3
  cases h3
  rw [h2, h4]

/-- `strtod` on any text. -/
theorem strtod_text (t : List Char) : OddNumber t ∨ (strtod t = none ∧ ∀ v, ¬ DecBegins t v) ∨
    ∃ v r, strtod t = some (v, r, dblErange v) ∧ DecBegins t v := by
  cases h : strtod t with
  | none => exact Or.inr (Or.inl ⟨rfl, strtod_not_begins h⟩)
  | some x =>
    obtain ⟨v, r, er⟩ := x
    rcases strtod_some h with h | ⟨h1, rfl⟩
    · exact Or.inl h
    · exact Or.inr (Or.inr ⟨v, r, rfl, h1⟩)

end Ggnss
