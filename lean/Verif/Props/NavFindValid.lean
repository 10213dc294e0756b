import Verif.Spec.NavFindValid
import Verif.Props.NavFind
import Verif.Props.NavAny
/-! # C113: searching the message in force in a file whose records have arbitrary lines -/
namespace Ggnss

/-- A record that was read has the time of ephemeris of its numbers. -/
theorem read_toe {dateOf : List Char → Res DateTime} {junk : List Char} {f : NavFrame} {s : Stream} {o : NavOut} (h : readNextRecord dateOf junk f s 0 = .ok o) (hst : o.status = 0)
    (hr : HasRules o.frame.sys) : toe2date o.frame = .ok o.frame.toe := by
  unfold readNextRecord at h
  cases hpk : s.peek with
  | mk c s1 =>
    rw [hpk] at h
    cases c with
    | none =>
      simp only at h
      split at h <;> (cases h; simp at hst)
    | some c =>
      simp only at h
      unfold setFromRnx3 at h
      have h := Res.noexcept_eq_ok.1 h
      obtain ⟨o', ho', h⟩ := Res.bind_eq_ok.1 h
      split at h
      · cases h; contradiction
      · split at h
        · obtain ⟨toe, ht, h⟩ := Res.bind_eq_ok.1 h
          cases h
          simp only
          rw [← ht]
          rfl
        · cases h
          contradiction

/-- A number of a record that was read. -/
theorem number_at {dateOf : List Char → Res DateTime} {sys : SatSys} {ls : List (List Char)} {f f' : NavFrame} (hb : IsBlock sys ls) (hs : RecordSays dateOf sys ls f f')
    {j k : Nat} (hj : j < specLines sys) (hk : k < specCount sys j) (hu : specUnit sys j k = 1) :
    ∃ v, f'.data[specIndex j k]? = some v ∧ NumberAt ls j (navCol j k) v := by
  obtain ⟨l, hl⟩ : ∃ l, ls[j]? = some l := ⟨_, List.getElem?_eq_getElem (by rw [hb.count]; exact hj)⟩
  obtain ⟨v, hv, hv2⟩ := hs.numbers j l hl k hk
  rw [hu, one_mul] at hv2
  exact ⟨v, hv2, l, hl, hv⟩

theorem NumberAt.unique {sys : SatSys} {ls : List (List Char)} (hp : PlainRecord sys ls) {j k : Nat} (hk : k < specCount sys j) {v w : Rat} (hv : NumberAt ls j (navCol j k) v)
    (hw : NumberAt ls j (navCol j k) w) : v = w := by
  obtain ⟨l, h1, h2⟩ := hv
  obtain ⟨q, h3, h4⟩ := hw
  rw [h1] at h3
  cases h3
  exact h2.unique (hp j l h1 k hk) h4

/-- What the acceptance test answers. -/
def AnswersValid (r : Res (Option Int)) : Verdict → Prop
  | .inForce => r = .ok (some 0)
  | .pass => r = .ok none
  | .late => r = .ok (some (-1))
  | .undefined => r = .ub
  | .killed => ∃ e, r = .throw e

theorem castInt_zero {v : Rat} {n : Int} (h : castInt v = .ok n) : n = 0 ↔ -1 < v ∧ v < 1 := by
  rw [← C21_healthy_iff, h]
  simp

theorem castInt_val {v : Rat} {n : Int} (h : castInt v = .ok n) : n = truncRat v := by
  unfold castInt at h
  split at h
  · exact (Res.ok.inj h).symm
  · cases h

theorem castLong_val {v : Rat} {n : Int} (h : castLong v = .ok n) : n = truncRat v := by
  unfold castLong at h
  split at h
  · exact (Res.ok.inj h).symm
  · cases h

theorem accept_verdict {dateOf : List Char → Res DateTime} {sys : SatSys} {ls : List (List Char)} {f f' : NavFrame} (hb : IsBlock sys ls) (hs : RecordSays dateOf sys ls f f')
    (htoe : HasRules sys → toe2date f' = .ok f'.toe) (t : Int) :
    ∃ v, VerdictOf dateOf sys ls t v ∧ AnswersValid (acceptValid t sys f'.prn f') v := by
  obtain ⟨l0, hl0⟩ := block_first hb
  have hd := hs.date l0 hl0
  unfold acceptValid
  rw [if_pos rfl]
  simp only
  by_cases hlate : TooLateAt f'.toc t
  · have h1 : 1000 * f'.toc.total > t ∧ 1000 * f'.toc.total - t > 3600 * 4 * 1000 := by unfold TooLateAt at hlate; omega
    rw [if_pos h1]
    exact ⟨.late, .late l0 _ hl0 hd hlate, rfl⟩
  have h1 : ¬ (1000 * f'.toc.total > t ∧ 1000 * f'.toc.total - t > 3600 * 4 * 1000) := by unfold TooLateAt at hlate; omega
  rw [if_neg h1]
  by_cases hR : HasRules sys
  swap
  · have : svHealth f' = .throw .runtime_error := by
      unfold svHealth
      rw [hs.system]
      unfold HasRules at hR
      cases sys <;> simp_all
    rw [this]
    exact ⟨.killed, .noRules l0 _ hl0 hd hlate hR, _, rfl⟩
  -- the health
  obtain ⟨v, hv, hsv⟩ : ∃ v, HealthNumber sys ls v ∧ svHealth f' = castInt v := by
    rcases hR with rfl | rfl | rfl | rfl
    · obtain ⟨v, h1, h2⟩ := number_at hb hs (j := 6) (k := 1) (by decide) (by decide) (by decide)
      refine ⟨v, Or.inr ⟨by decide, h2⟩, ?_⟩
      have h1 : f'.data[24]? = some v := h1
      unfold svHealth dataAt
      rw [hs.system, h1]
      rfl
    · obtain ⟨v, h1, h2⟩ := number_at hb hs (j := 1) (k := 3) (by decide) (by decide) (by decide)
      refine ⟨v, Or.inl ⟨by decide, h2⟩, ?_⟩
      have h1 : f'.data[6]? = some v := h1
      unfold svHealth dataAt
      rw [hs.system, h1]
      rfl
    · obtain ⟨v, h1, h2⟩ := number_at hb hs (j := 6) (k := 1) (by decide) (by decide) (by decide)
      refine ⟨v, Or.inr ⟨by decide, h2⟩, ?_⟩
      have h1 : f'.data[24]? = some v := h1
      unfold svHealth dataAt
      rw [hs.system, h1]
      rfl
    · obtain ⟨v, h1, h2⟩ := number_at hb hs (j := 6) (k := 1) (by decide) (by decide) (by decide)
      refine ⟨v, Or.inr ⟨by decide, h2⟩, ?_⟩
      have h1 : f'.data[24]? = some v := h1
      unfold svHealth dataAt
      rw [hs.system, h1]
      rfl
  rw [hsv]
  rcases castInt_fate v with ⟨hbe, e1⟩ | ⟨hbe, n, e1⟩
  · rw [e1]
    exact ⟨.undefined, .health l0 _ v hl0 hd hlate hR hv hbe, rfl⟩
  rw [e1, Res.bind_ok]
  by_cases hn : n = 0
  swap
  · rw [if_neg hn]
    refine ⟨.pass, .unhealthy l0 _ v hl0 hd hlate hR hv hbe ?_, rfl⟩
    by_contra hc
    push Not at hc
    exact hn ((castInt_zero e1).2 hc)
  rw [if_pos hn]
  have hh := (castInt_zero e1).1 hn
  by_cases hglo : sys = .glonass
  · have hfit : fitInterval f' = .ok 900 := by unfold fitInterval; rw [hs.system, hglo]
    rw [hfit, Res.bind_ok, if_neg (by simp [hglo])]
    subst hglo
    obtain ⟨w, w1, w2⟩ := number_at hb hs (j := 0) (k := 2) (by decide) (by decide) (by decide)
    have w1 : f'.data[2]? = some w := w1
    have w2 : NumberAt ls 0 61 w := w2
    have ht := htoe hR
    unfold toe2date at ht
    rw [hs.system] at ht
    simp only at ht
    unfold gloToe dataAt at ht
    simp only [w1, Res.bind_ok] at ht
    obtain ⟨m, hm, ht⟩ := Res.bind_eq_ok.1 ht
    have htot : f'.toe.total = 86400 * (f'.toc.mjd - f'.toc.sow.tdiv 86400) + truncRat w := by
      rw [← castLong_val hm]
      have ht : (⟨f'.toc.mjd - (f'.toc.sow.tdiv 86400 - m.tdiv 86400), m.tmod 86400⟩ : DateTime) = f'.toe := Res.ok.inj ht
      rw [← ht]
      unfold DateTime.total
      have := Int.mul_tdiv_add_tmod m 86400
      simp only
      omega
    have hspan := MsgInForce.glonass (ls := ls) (d := f'.toc) w rfl w2
    rw [← htot] at hspan
    by_cases hin : t ≥ 1000 * f'.toe.total - 1000 * 900 ∧ t < 1000 * f'.toe.total + 1000 * 900
    · refine ⟨.inForce, .inForce l0 _ v _ _ hl0 hd hlate hR hv hh hspan (by omega) (by omega), ?_⟩
      show (pure _ : Res (Option Int)) = _
      rw [if_pos hin]
      rfl
    · refine ⟨.pass, .outside l0 _ v _ _ hl0 hd hlate hR hv hh hspan (by omega), ?_⟩
      show (pure _ : Res (Option Int)) = _
      rw [if_neg hin]
      rfl
  -- from the date on
  have span : ∀ fit : Int, fitInterval f' = .ok fit → MsgInForce sys ls f'.toc (1000 * f'.toc.total) (1000 * f'.toc.total + 1000 * fit) →
      ∃ x, VerdictOf dateOf sys ls t x ∧ AnswersValid (do
        let fit ← fitInterval f'
        if sys ≠ .glonass then
          let maxT := 1000 * f'.toc.total + 1000 * fit
          pure (if t ≥ 1000 * f'.toc.total ∧ t < maxT then some 0 else none)
        else
          let maxT := 1000 * f'.toe.total + 1000 * fit
          let minT := 1000 * f'.toe.total - 1000 * fit
          pure (if t ≥ minT ∧ t < maxT then some 0 else none)) x := by
    intro fit hfit hspan
    rw [hfit, Res.bind_ok, if_pos hglo]
    by_cases hin : t ≥ 1000 * f'.toc.total ∧ t < 1000 * f'.toc.total + 1000 * fit
    · refine ⟨.inForce, .inForce l0 _ v _ _ hl0 hd hlate hR hv hh hspan (by omega) (by omega), ?_⟩
      show (pure _ : Res (Option Int)) = _
      rw [if_pos hin]
      rfl
    · refine ⟨.pass, .outside l0 _ v _ _ hl0 hd hlate hR hv hh hspan (by omega), ?_⟩
      show (pure _ : Res (Option Int)) = _
      rw [if_neg hin]
      rfl
  by_cases hgps : sys = .gps
  · subst hgps
    obtain ⟨w, w1, w2⟩ := number_at hb hs (j := 7) (k := 1) (by decide) (by decide) (by decide)
    have w1 : f'.data[28]? = some w := w1
    have w2 : NumberAt ls 7 23 w := w2
    have hfi : fitInterval f' = (castInt w >>= fun h => pure (toInt32 (3600 * h))) := by
      unfold fitInterval
      rw [hs.system]
      unfold gpsFitInterval dataAt
      rw [w1]
      rfl
    rcases castInt_fate w with ⟨wb, e2⟩ | ⟨wb, n2, e2⟩
    · refine ⟨.undefined, .hours l0 _ v w hl0 hd hlate hR hv hh rfl w2 wb, ?_⟩
      rw [hfi, e2]
      rfl
    · refine span (toInt32 (3600 * truncRat w)) ?_ (.gps w rfl w2 wb)
      rw [hfi, e2, Res.bind_ok, castInt_val e2]
      rfl
  · have hgb : sys = .galileo ∨ sys = .beidou := by
      unfold HasRules at hR; tauto
    refine span 14400 ?_ (.other hgb)
    unfold fitInterval
    rw [hs.system]
    rcases hgb with rfl | rfl <;> rfl

/-! ## No choice -/

theorem HealthNumber.unique {sys : SatSys} {ls : List (List Char)} (hp : PlainRecord sys ls) {v w : Rat} (hv : HealthNumber sys ls v) (hw : HealthNumber sys ls w) : v = w := by
  rcases hv with ⟨h1, h2⟩ | ⟨h1, h2⟩ <;> rcases hw with ⟨h3, h4⟩ | ⟨h3, h4⟩
  · exact NumberAt.unique hp (j := 1) (k := 3) (by subst h1; decide) h2 h4
  · exact (h3 h1).elim
  · exact (h1 h3).elim
  · exact NumberAt.unique hp (j := 6) (k := 1) (by simp [specCount]) h2 h4

theorem MsgInForce.unique {sys : SatSys} {ls : List (List Char)} (hp : PlainRecord sys ls) {d : DateTime} {a b a' b' : Int} (h : MsgInForce sys ls d a b)
    (h' : MsgInForce sys ls d a' b') : a = a' ∧ b = b' := by
  cases h with
  | glonass v h1 h2 =>
    cases h' with
    | glonass w _ h4 =>
      rw [NumberAt.unique hp (j := 0) (k := 2) (by simp [specCount]) h2 h4]
      exact ⟨rfl, rfl⟩
    | gps w h3 => rw [h1] at h3; cases h3
    | other h3 => rw [h1] at h3; rcases h3 with h3 | h3 <;> cases h3
  | gps v h1 h2 =>
    cases h' with
    | glonass w h3 h4 => rw [h1] at h3; cases h3
    | gps w h3 h4 =>
      rw [NumberAt.unique hp (j := 7) (k := 1) (by subst h1; decide) h2 h4]
      exact ⟨rfl, rfl⟩
    | other h3 => rw [h1] at h3; rcases h3 with h3 | h3 <;> cases h3
  | other h1 =>
    cases h' with
    | glonass w h3 h4 => rw [h3] at h1; rcases h1 with h1 | h1 <;> cases h1
    | gps w h3 h4 => rw [h3] at h1; rcases h1 with h1 | h1 <;> cases h1
    | other h3 => exact ⟨rfl, rfl⟩

theorem not_beyond_small {v : Rat} (h : -1 < v ∧ v < 1) : ¬ BeyondInt32 v := by
  rintro (h' | h') <;> linarith [h.1, h.2]

theorem VerdictOf.unique {dateOf : List Char → Res DateTime} {sys : SatSys} {ls : List (List Char)} (hp : PlainRecord sys ls) {t : Int} {x y : Verdict}
    (hx : VerdictOf dateOf sys ls t x) (hy : VerdictOf dateOf sys ls t y) : x = y := by
  have hd : ∀ {l q : List Char} {d e : DateTime}, ls.head? = some l → dateOf (l.drop 3) = .ok d → ls.head? = some q → dateOf (q.drop 3) = .ok e → d = e := by
    intro l q d e h1 h2 h3 h4
    rw [h1] at h3
    cases h3
    rw [h2] at h4
    exact Res.ok.inj h4
  have hl : ∀ {l q : List Char} {d e : DateTime}, ls.head? = some l → dateOf (l.drop 3) = .ok d → ls.head? = some q → dateOf (q.drop 3) = .ok e → TooLateAt d t → ¬ TooLateAt e t → False := by
    intro l q d e h1 h2 h3 h4 h5 h6
    rw [hd h1 h2 h3 h4] at h5
    exact h6 h5
  cases hx with
  | late l d a1 a2 a3 =>
    cases hy with
    | late => rfl
    | noRules _ _ b1 b2 b3 => exact (hl a1 a2 b1 b2 a3 b3).elim
    | health _ _ _ b1 b2 b3 => exact (hl a1 a2 b1 b2 a3 b3).elim
    | unhealthy _ _ _ b1 b2 b3 => exact (hl a1 a2 b1 b2 a3 b3).elim
    | hours _ _ _ _ b1 b2 b3 => exact (hl a1 a2 b1 b2 a3 b3).elim
    | inForce _ _ _ _ _ b1 b2 b3 => exact (hl a1 a2 b1 b2 a3 b3).elim
    | outside _ _ _ _ _ b1 b2 b3 => exact (hl a1 a2 b1 b2 a3 b3).elim
  | noRules l d a1 a2 a3 a4 =>
    cases hy with
    | late _ _ b1 b2 b3 => exact (hl b1 b2 a1 a2 b3 a3).elim
    | noRules => rfl
    | health _ _ _ b1 b2 b3 b4 => exact (a4 b4).elim
    | unhealthy _ _ _ b1 b2 b3 b4 => exact (a4 b4).elim
    | hours _ _ _ _ b1 b2 b3 b4 => exact (a4 b4).elim
    | inForce _ _ _ _ _ b1 b2 b3 b4 => exact (a4 b4).elim
    | outside _ _ _ _ _ b1 b2 b3 b4 => exact (a4 b4).elim
  | health l d v a1 a2 a3 a4 a5 a6 =>
    cases hy with
    | late _ _ b1 b2 b3 => exact (hl b1 b2 a1 a2 b3 a3).elim
    | noRules _ _ b1 b2 b3 b4 => exact (b4 a4).elim
    | health => rfl
    | unhealthy _ _ w b1 b2 b3 b4 b5 b6 => rw [a5.unique hp b5] at a6; exact (b6 a6).elim
    | hours _ _ _ _ b1 b2 b3 b4 b5 b6 => rfl
    | inForce _ _ _ _ _ b1 b2 b3 b4 b5 b6 => rw [a5.unique hp b5] at a6; exact (not_beyond_small b6 a6).elim
    | outside _ _ _ _ _ b1 b2 b3 b4 b5 b6 => rw [a5.unique hp b5] at a6; exact (not_beyond_small b6 a6).elim
  | unhealthy l d v a1 a2 a3 a4 a5 a6 a7 =>
    have no : ∀ {w : Rat}, HealthNumber sys ls w → -1 < w ∧ w < 1 → False := by
      intro w hw h
      rw [← a5.unique hp hw] at h
      rcases a7 with h' | h' <;> linarith [h.1, h.2]
    cases hy with
    | late _ _ b1 b2 b3 => exact (hl b1 b2 a1 a2 b3 a3).elim
    | noRules _ _ b1 b2 b3 b4 => exact (b4 a4).elim
    | health _ _ w b1 b2 b3 b4 b5 b6 => rw [← a5.unique hp b5] at b6; exact (a6 b6).elim
    | unhealthy => rfl
    | hours _ _ _ _ b1 b2 b3 b4 b5 b6 => exact (no b5 b6).elim
    | inForce _ _ _ _ _ b1 b2 b3 b4 b5 b6 => exact (no b5 b6).elim
    | outside _ _ _ _ _ b1 b2 b3 b4 b5 b6 => rfl
  | hours l d v w a1 a2 a3 a4 a5 a6 a7 a8 a9 =>
    have no : ∀ {d : DateTime} {a b : Int}, MsgInForce sys ls d a b → False := by
      intro d a b h
      cases h with
      | glonass _ h1 => rw [a7] at h1; cases h1
      | gps u h1 h2 h3 => rw [← NumberAt.unique hp (j := 7) (k := 1) (by subst h1; decide) a8 h2] at h3; exact h3 a9
      | other h1 => rw [a7] at h1; rcases h1 with h1 | h1 <;> cases h1
    cases hy with
    | late _ _ b1 b2 b3 => exact (hl b1 b2 a1 a2 b3 a3).elim
    | noRules _ _ b1 b2 b3 b4 => exact (b4 a4).elim
    | health => rfl
    | unhealthy _ _ u b1 b2 b3 b4 b5 b6 b7 =>
      rw [← a5.unique hp b5] at b7
      rcases b7 with h' | h' <;> linarith [a6.1, a6.2]
    | hours => rfl
    | inForce _ _ _ _ _ b1 b2 b3 b4 b5 b6 b7 => exact (no b7).elim
    | outside _ _ _ _ _ b1 b2 b3 b4 b5 b6 b7 => exact (no b7).elim
  | inForce l d v a b a1 a2 a3 a4 a5 a6 a7 a8 a9 =>
    cases hy with
    | late _ _ b1 b2 b3 => exact (hl b1 b2 a1 a2 b3 a3).elim
    | noRules _ _ b1 b2 b3 b4 => exact (b4 a4).elim
    | health _ _ w b1 b2 b3 b4 b5 b6 => rw [← a5.unique hp b5] at b6; exact (not_beyond_small a6 b6).elim
    | unhealthy _ _ u b1 b2 b3 b4 b5 b6 b7 =>
      rw [← a5.unique hp b5] at b7
      rcases b7 with h' | h' <;> linarith [a6.1, a6.2]
    | hours _ _ u w b1 b2 b3 b4 b5 b6 b7 b8 b9 =>
      cases a7 with
      | glonass _ h1 => rw [b7] at h1; cases h1
      | gps x h1 h2 h3 => rw [← NumberAt.unique hp (j := 7) (k := 1) (by subst h1; decide) b8 h2] at h3; exact (h3 b9).elim
      | other h1 => rw [b7] at h1; rcases h1 with h1 | h1 <;> cases h1
    | inForce => rfl
    | outside _ _ _ _ _ b1 b2 b3 b4 b5 b6 b7 b8 =>
      rw [hd b1 b2 a1 a2] at b7
      obtain ⟨rfl, rfl⟩ := a7.unique hp b7
      omega
  | outside l d v a b a1 a2 a3 a4 a5 a6 a7 a8 =>
    cases hy with
    | late _ _ b1 b2 b3 => exact (hl b1 b2 a1 a2 b3 a3).elim
    | noRules _ _ b1 b2 b3 b4 => exact (b4 a4).elim
    | health _ _ w b1 b2 b3 b4 b5 b6 => rw [← a5.unique hp b5] at b6; exact (not_beyond_small a6 b6).elim
    | unhealthy => rfl
    | hours _ _ u w b1 b2 b3 b4 b5 b6 b7 b8 b9 =>
      cases a7 with
      | glonass _ h1 => rw [b7] at h1; cases h1
      | gps x h1 h2 h3 => rw [← NumberAt.unique hp (j := 7) (k := 1) (by subst h1; decide) b8 h2] at h3; exact (h3 b9).elim
      | other h1 => rw [b7] at h1; rcases h1 with h1 | h1 <;> cases h1
    | inForce _ _ _ _ _ b1 b2 b3 b4 b5 b6 b7 b8 b9 =>
      rw [hd b1 b2 a1 a2] at b7
      obtain ⟨rfl, rfl⟩ := a7.unique hp b7
      omega
    | outside => rfl

/-- What one record does to the search. -/
inductive StepIs (dateOf : List Char → Res DateTime) (sys : SatSys) (prn t : Int) (b : NavBlock) : Option SearchWhat → Prop
  | other : b.1 ≠ sys → StepIs dateOf sys prn t b none
  | pass (p : Int) : b.1 = sys → BlockIs sys b.2 (fun q => ∃ d, dateOf q = .ok d) (.good p) → p ≠ prn → StepIs dateOf sys prn t b none
  | useless : b.1 = sys → BlockIs sys b.2 (fun q => ∃ d, dateOf q = .ok d) (.good prn) → VerdictOf dateOf sys b.2 t .pass → StepIs dateOf sys prn t b none
  | found : b.1 = sys → BlockIs sys b.2 (fun q => ∃ d, dateOf q = .ok d) (.good prn) → VerdictOf dateOf sys b.2 t .inForce → StepIs dateOf sys prn t b (some .found)
  | late : b.1 = sys → BlockIs sys b.2 (fun q => ∃ d, dateOf q = .ok d) (.good prn) → VerdictOf dateOf sys b.2 t .late → StepIs dateOf sys prn t b (some .late)
  | refused (st : Int) (m : Nat) : b.1 = sys → BlockIs sys b.2 (fun q => ∃ d, dateOf q = .ok d) (.bad st m) → StepIs dateOf sys prn t b (some (.refused st m))
  | undefined : b.1 = sys → BlockIs sys b.2 (fun q => ∃ d, dateOf q = .ok d) .undefined → StepIs dateOf sys prn t b (some .undefined)
  | undefinedV : b.1 = sys → BlockIs sys b.2 (fun q => ∃ d, dateOf q = .ok d) (.good prn) → VerdictOf dateOf sys b.2 t .undefined → StepIs dateOf sys prn t b (some .undefined)
  | killed : b.1 = sys → BlockIs sys b.2 (fun q => ∃ d, dateOf q = .ok d) .killed → StepIs dateOf sys prn t b (some .killed)
  | killedV : b.1 = sys → BlockIs sys b.2 (fun q => ∃ d, dateOf q = .ok d) (.good prn) → VerdictOf dateOf sys b.2 t .killed → StepIs dateOf sys prn t b (some .killed)

theorem StepIs.unique {dateOf : List Char → Res DateTime} {sys : SatSys} {prn t : Int} {b : NavBlock} (hp : b.1 = sys → PlainRecord sys b.2) {x y : Option SearchWhat}
    (hx : StepIs dateOf sys prn t b x) (hy : StepIs dateOf sys prn t b y) : x = y := by
  by_cases hs : b.1 = sys
  swap
  · cases hx <;> first | (exfalso; exact hs ‹_›) | skip
    cases hy <;> first | (exfalso; exact hs ‹_›) | rfl
  have hp := hp hs
  have key : ∀ {x : Option SearchWhat}, StepIs dateOf sys prn t b x → ∃ k, BlockIs sys b.2 (fun q => ∃ d, dateOf q = .ok d) k ∧
      ((∃ p, k = .good p ∧ p ≠ prn ∧ x = none) ∨ (k = .good prn ∧ ∃ v, VerdictOf dateOf sys b.2 t v ∧
        x = (match v with | .inForce => some .found | .pass => none | .late => some .late | .undefined => some .undefined | .killed => some .killed)) ∨
      (∃ st m, k = .bad st m ∧ x = some (.refused st m)) ∨ (k = .undefined ∧ x = some .undefined) ∨ (k = .killed ∧ x = some .killed)) := by
    intro x h
    cases h with
    | other h => exact (h hs).elim
    | pass p _ h1 h2 => exact ⟨_, h1, Or.inl ⟨p, rfl, h2, rfl⟩⟩
    | useless _ h1 h2 => exact ⟨_, h1, Or.inr (Or.inl ⟨rfl, _, h2, rfl⟩)⟩
    | found _ h1 h2 => exact ⟨_, h1, Or.inr (Or.inl ⟨rfl, _, h2, rfl⟩)⟩
    | late _ h1 h2 => exact ⟨_, h1, Or.inr (Or.inl ⟨rfl, _, h2, rfl⟩)⟩
    | refused st m _ h1 => exact ⟨_, h1, Or.inr (Or.inr (Or.inl ⟨st, m, rfl, rfl⟩))⟩
    | undefined _ h1 => exact ⟨_, h1, Or.inr (Or.inr (Or.inr (Or.inl ⟨rfl, rfl⟩)))⟩
    | undefinedV _ h1 h2 => exact ⟨_, h1, Or.inr (Or.inl ⟨rfl, _, h2, rfl⟩)⟩
    | killed _ h1 => exact ⟨_, h1, Or.inr (Or.inr (Or.inr (Or.inr ⟨rfl, rfl⟩)))⟩
    | killedV _ h1 h2 => exact ⟨_, h1, Or.inr (Or.inl ⟨rfl, _, h2, rfl⟩)⟩
  obtain ⟨k, k1, k2⟩ := key hx
  obtain ⟨k', k3, k4⟩ := key hy
  cases k1.unique hp k3
  rcases k2 with ⟨p, rfl, a, rfl⟩ | ⟨rfl, v, a, rfl⟩ | ⟨st, m, rfl, rfl⟩ | ⟨rfl, rfl⟩ | ⟨rfl, rfl⟩ <;>
    rcases k4 with ⟨p', e, a', rfl⟩ | ⟨e, v', a', rfl⟩ | ⟨st', m', e, rfl⟩ | ⟨e, rfl⟩ | ⟨e, rfl⟩ <;> cases e <;> first | rfl | (exact (a rfl).elim) | (exact (a' rfl).elim) | skip
  rw [a.unique hp a']

theorem ValidFate.step {dateOf : List Char → Res DateTime} {sys : SatSys} {prn t : Int} {b : NavBlock} {bs : List NavBlock} {i : Nat} {w : SearchWhat}
    (h : ValidFate dateOf sys prn t (b :: bs) i w) : (StepIs dateOf sys prn t b (some w) ∧ i = 0) ∨ (StepIs dateOf sys prn t b none ∧ ∃ j, i = j + 1 ∧ ValidFate dateOf sys prn t bs j w) := by
  cases h with
  | other h1 h2 => exact Or.inr ⟨.other h1, _, rfl, h2⟩
  | pass p h1 h2 h3 h4 => exact Or.inr ⟨.pass p h1 h2 h3, _, rfl, h4⟩
  | useless h1 h2 h3 h4 => exact Or.inr ⟨.useless h1 h2 h3, _, rfl, h4⟩
  | found h1 h2 h3 => exact Or.inl ⟨.found h1 h2 h3, rfl⟩
  | late h1 h2 h3 => exact Or.inl ⟨.late h1 h2 h3, rfl⟩
  | refused st m h1 h2 => exact Or.inl ⟨.refused st m h1 h2, rfl⟩
  | undefined h1 h2 =>
    rcases h2 with h2 | ⟨h2, h3⟩
    · exact Or.inl ⟨.undefined h1 h2, rfl⟩
    · exact Or.inl ⟨.undefinedV h1 h2 h3, rfl⟩
  | killed h1 h2 =>
    rcases h2 with h2 | ⟨h2, h3⟩
    · exact Or.inl ⟨.killed h1 h2, rfl⟩
    · exact Or.inl ⟨.killedV h1 h2 h3, rfl⟩

/-- **C113** (no choice): the records determine how a search for the message in force ends. -/
theorem C113_determined {dateOf : List Char → Res DateTime} {sys : SatSys} {prn t : Int} : ∀ {bs : List NavBlock}, (∀ b ∈ bs, b.1 = sys → PlainRecord sys b.2) → ∀ {i j : Nat}
    {v w : SearchWhat}, ValidFate dateOf sys prn t bs i v → ValidFate dateOf sys prn t bs j w → i = j ∧ v = w := by
  intro bs
  induction bs with
  | nil =>
    intro _ i j v w h1 h2
    cases h1
    cases h2
    exact ⟨rfl, rfl⟩
  | cons b bs ih =>
    intro hp i j v w h1 h2
    have hb := hp b (by simp)
    rcases h1.step with ⟨a1, rfl⟩ | ⟨a1, i', rfl, a2⟩ <;> rcases h2.step with ⟨b1, rfl⟩ | ⟨b1, j', rfl, b2⟩
    · have := a1.unique hb b1
      exact ⟨rfl, Option.some.inj this⟩
    · have := a1.unique hb b1; cases this
    · have := a1.unique hb b1; cases this
    · obtain ⟨rfl, rfl⟩ := ih (fun q hq => hp q (by simp [hq])) a2 b2
      exact ⟨rfl, rfl⟩

/-! ## The call -/

theorem findLoop_valid_blocks {dateOf : List Char → Res DateTime} (hL : ∀ t, (∃ d, dateOf t = .ok d) ∨ ∃ e, dateOf t = .throw e) (junk : Nat → List Char) {sys : SatSys} {prn t : Int} :
    ∀ (bs : List NavBlock) (fuel : Nat) (f : NavFrame) (s : Stream), bs.length < fuel → (∀ b ∈ bs, IsBlock b.1 b.2) →
      (∀ b ∈ bs, b.1 = sys → ReachesColumns sys b.2 ∧ PlainRecord sys b.2) → f.data.length = 31 → s.good = true → s.rest = linesText (blockLines bs) →
      ∃ i w, ValidFate dateOf sys prn t bs i w ∧ LoopDelivers dateOf sys bs s i (Res.noexcept (findLoop dateOf junk (acceptValid t sys prn) sys fuel f s 0)) w := by
  intro bs
  induction bs with
  | nil =>
    intro fuel f s hfuel _ _ _ hg hr
    obtain ⟨m, rfl⟩ : ∃ m, fuel = m + 1 := ⟨fuel - 1, by simp at hfuel; omega⟩
    refine ⟨0, .ended, .ended, rfl, f, ?_⟩
    rw [findLoop_eof dateOf junk _ sys m f s hg (by simpa [blockLines, linesText] using hr)]
    simp [blockLines, linesText, Stream.adv]
  | cons b bs ih =>
    intro fuel f s hfuel hB hC hlen hg hr
    obtain ⟨m, rfl⟩ : ∃ m, fuel = m + 1 := ⟨fuel - 1, by simp at hfuel; omega⟩
    have hb := hB b (by simp)
    have hr' : s.rest = linesText b.2 ++ linesText (blockLines bs) := by
      rw [hr, ← linesText_append]; simp [blockLines]
    have ihs := fun f' hl => ih m f' (s.adv (linesText b.2).length) (by simp at hfuel; omega) (fun q hq => hB q (by simp [hq])) (fun q hq => hC q (by simp [hq])) hl
      (by simpa using hg) (Stream.adv_rest_append hr')
    rw [findLoop]
    simp only [peakSatsys_block hb hg hr', ne_eq, not_true_eq_false, if_false]
    by_cases hsys : b.1 = sys
    · rw [if_pos hsys]
      obtain ⟨hrc, hpl⟩ := hC b (by simp) hsys
      rw [hsys] at hb
      obtain ⟨k, hk, hrd⟩ := record_kind hL (junk s.pos) hb hrc hpl hlen hg hr'
      cases k with
      | good p =>
        obtain ⟨f', e1, hs, hpr⟩ := hrd
        have htoe := read_toe e1 rfl
        simp only [hs.system] at htoe
        rw [e1, Res.bind_ok]
        simp only [not_true_eq_false, if_false]
        by_cases hm : prn = f'.prn
        · subst hm
          rw [← hpr] at hk
          obtain ⟨v, hv, ha⟩ := accept_verdict hb hs htoe t
          cases v with
          | inForce =>
            have ha : acceptValid t sys f'.prn f' = .ok (some 0) := ha
            rw [ha]
            exact ⟨0, .found, .found hsys hk hv, f', f, b, rfl, hs, by simp [blockLines]⟩
          | pass =>
            have ha : acceptValid t sys f'.prn f' = .ok none := ha
            rw [ha, Res.bind_ok]
            obtain ⟨i, w, h1, h2⟩ := ihs f' (by rw [hs.size]; exact hlen)
            exact ⟨i + 1, w, .useless hsys hk hv h1, LoopDelivers.cons h2⟩
          | late =>
            have ha : acceptValid t sys f'.prn f' = .ok (some (-1)) := ha
            rw [ha]
            exact ⟨0, .late, .late hsys hk hv, f', f, b, rfl, hs, by simp [blockLines]⟩
          | undefined =>
            have ha : acceptValid t sys f'.prn f' = .ub := ha
            rw [ha]
            exact ⟨0, .undefined, .undefined hsys (Or.inr ⟨hk, hv⟩), rfl⟩
          | killed =>
            obtain ⟨e, ha⟩ : ∃ e, acceptValid t sys f'.prn f' = .throw e := ha
            rw [ha]
            exact ⟨0, .killed, .killed hsys (Or.inr ⟨hk, hv⟩), rfl⟩
        · have ha : acceptValid t sys prn f' = .ok none := by unfold acceptValid; rw [if_neg hm]
          rw [ha, Res.bind_ok]
          obtain ⟨i, w, h1, h2⟩ := ihs f' (by rw [hs.size]; exact hlen)
          exact ⟨i + 1, w, .pass p hsys hk (by rw [← hpr]; exact fun h => hm h.symm) h1, LoopDelivers.cons h2⟩
      | bad st n =>
        obtain ⟨f', e1, hst⟩ := hrd
        rw [e1, Res.bind_ok]
        simp only [hst, not_false_eq_true, if_true]
        refine ⟨0, .refused st n, .refused st n hsys hk, f', b, rfl, ?_⟩
        rw [adv_clear hg]
        simp [blockLines]
      | undefined =>
        have e1 : readNextRecord dateOf (junk s.pos) f s 0 = .ub := hrd
        rw [e1]
        exact ⟨0, .undefined, .undefined hsys (Or.inl hk), rfl⟩
      | killed =>
        have e1 : readNextRecord dateOf (junk s.pos) f s 0 = .terminate := hrd
        rw [e1]
        exact ⟨0, .killed, .killed hsys (Or.inl hk), rfl⟩
    · rw [if_neg hsys, ignore_block hb hg hr']
      simp only [not_true_eq_false, if_false]
      obtain ⟨i, w, h1, h2⟩ := ihs f hlen
      exact ⟨i + 1, w, .other hsys h1, LoopDelivers.cons h2⟩

theorem noexcept_bind_pure {α β : Type} (x : Res α) (g : α → β) : Res.noexcept (x >>= fun o => pure (g o)) = (Res.noexcept x >>= fun o => pure (g o)) := by
  cases x <;> rfl

/-- **C113** (something becomes of every search). -/
theorem C113_total {dateOf : List Char → Res DateTime} (hL : ∀ t, (∃ d, dateOf t = .ok d) ∨ ∃ e, dateOf t = .throw e) (junk : Nat → List Char) {sys : SatSys} {prn t : Int}
    {bs : List NavBlock} {fuel : Nat} {f : NavFrame} {s : Stream} (hfuel : bs.length < fuel) (hB : ∀ b ∈ bs, IsBlock b.1 b.2)
    (hC : ∀ b ∈ bs, b.1 = sys → ReachesColumns sys b.2 ∧ PlainRecord sys b.2) (hlen : f.data.length = 31) (hg : s.good = true) (hr : s.rest = linesText (blockLines bs)) :
    ∃ i w, ValidFate dateOf sys prn t bs i w ∧ SearchDelivers dateOf sys bs s i (findNextValid dateOf junk fuel t sys prn f s 0) w := by
  obtain ⟨i, w, h1, h2⟩ := findLoop_valid_blocks hL junk (prn := prn) (t := t) bs fuel f s hfuel hB hC hlen hg hr
  refine ⟨i, w, h1, ?_⟩
  unfold findNextValid
  simp only [tellg_good hg]
  rw [noexcept_bind_pure]
  cases w with
  | found => obtain ⟨f', g, b, k1, k2, k3⟩ := h2; exact ⟨f', g, b, k1, k2, by rw [k3]; rfl⟩
  | late => obtain ⟨f', g, b, k1, k2, k3⟩ := h2; exact ⟨f', g, b, k1, k2, by rw [k3]; rfl⟩
  | ended => obtain ⟨k0, f', k3⟩ := h2; exact ⟨k0, f', by rw [k3]; rfl⟩
  | refused st m => obtain ⟨f', b, k1, k3⟩ := h2; exact ⟨f', b, k1, by rw [k3]; rfl⟩
  | undefined =>
    have h2 : Res.noexcept (findLoop dateOf junk (acceptValid t sys prn) sys fuel f s 0) = .ub := h2
    rw [h2]; rfl
  | killed =>
    have h2 : Res.noexcept (findLoop dateOf junk (acceptValid t sys prn) sys fuel f s 0) = .terminate := h2
    rw [h2]; rfl

/-- **C113**.  A search for the message in force in a file whose records have arbitrary lines ends as the records say. -/
theorem C113_search {dateOf : List Char → Res DateTime} (hL : ∀ t, (∃ d, dateOf t = .ok d) ∨ ∃ e, dateOf t = .throw e) (junk : Nat → List Char) {sys : SatSys} {prn t : Int}
    {bs : List NavBlock} {fuel : Nat} {f : NavFrame} {s : Stream} (hfuel : bs.length < fuel) (hB : ∀ b ∈ bs, IsBlock b.1 b.2)
    (hC : ∀ b ∈ bs, b.1 = sys → ReachesColumns sys b.2 ∧ PlainRecord sys b.2) (hlen : f.data.length = 31) (hg : s.good = true) (hr : s.rest = linesText (blockLines bs))
    {i : Nat} {w : SearchWhat} (hw : ValidFate dateOf sys prn t bs i w) :
    SearchDelivers dateOf sys bs s i (findNextValid dateOf junk fuel t sys prn f s 0) w := by
  obtain ⟨j, v, h1, h2⟩ := C113_total hL junk (prn := prn) (t := t) hfuel hB hC hlen hg hr
  obtain ⟨rfl, rfl⟩ := C113_determined (fun b hb hs => (hC b hb hs).2) h1 hw
  exact h2

end Ggnss
