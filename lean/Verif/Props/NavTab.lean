import Verif.Model.NavTab
import Verif.Spec.NavTab
import Verif.Props.PpEpoch
import Verif.Props.NavHead
import Verif.Props.AntexOpen
import Verif.Props.AntexSat
/-!
# C87: the table of positions and clocks of a satellite
-/
namespace Ggnss
open NavItem

/-! ## One line -/

/-- What `stateNclock` gives for a message of GPS, Galileo or BeiDou, in force or not. -/
theorem stateNclock_kepler {dateOf : List Char → Res DateTime} {f : NavFrame} {r : NavItem} (hc : Carries f r) (hr : r.WF dateOf) (t : Int)
    (hh : Handled r.sys) (hg : r.sys ≠ .glonass) (e0 : 0 ≤ r.el.e) (e1 : r.el.e ≤ 0.95) (fuel : Nat) (o : StateClock) :
    ∃ c, stateNclock f fuel (msEpoch t) o = .ok c ∧ c.status = 0 ∧ KeplerSays r t ![c.state 0, c.state 1, c.state 2] c.clock := by
  obtain ⟨toe, htoe⟩ := hr.toe
  have hft := hc.toe hh toe htoe
  have hel := elements_el hc hh hg
  obtain ⟨mjd, ms, ht, hep⟩ : ∃ mjd ms : Int, t = 86400000 * mjd + ms ∧ msEpoch t = ⟨mjd, (ms : ℝ) / 1000⟩ :=
    ⟨t / 86400000, t % 86400000, by omega, rfl⟩
  rw [hep, ht]
  obtain ⟨s1, s2, s3⟩ := C25_systems f fuel ⟨mjd, (ms : ℝ) / 1000⟩ o
  have hst : stateNclock f fuel ⟨mjd, (ms : ℝ) / 1000⟩ o = .ok (keplerStateNclock (specConst r.sys) f ⟨mjd, (ms : ℝ) / 1000⟩ o) := by
    rcases hh with h | h | h | h
    · rw [s1 (by rw [hc.sys, h]), h]; rfl
    · exact absurd h hg
    · rw [s2 (by rw [hc.sys, h]), h]; rfl
    · rw [s3 (by rw [hc.sys, h]), h]; rfl
  rw [hst]
  generalize hk : specConst r.sys = k
  have hconv := C24_converges k f (ref2toe f ⟨mjd, (ms : ℝ) / 1000⟩) ⟨0, ![o.state 0, o.state 1, o.state 2], 0⟩ (by rw [hel]; exact e0) (by rw [hel]; exact e1)
  have hcl := svClock_converges k f (ref2toc f ⟨mjd, (ms : ℝ) / 1000⟩) o.clock (by rw [hel]; exact e0) (by rw [hel]; exact e1)
  have hks : keplerStateNclock k f ⟨mjd, (ms : ℝ) / 1000⟩ o = ⟨(svClock k f (ref2toc f ⟨mjd, (ms : ℝ) / 1000⟩) none o.clock).1,
      putPos o.state (kepler2state k f (ref2toe f ⟨mjd, (ms : ℝ) / 1000⟩) ⟨0, ![o.state 0, o.state 1, o.state 2], 0⟩).state,
      (svClock k f (ref2toc f ⟨mjd, (ms : ℝ) / 1000⟩) none o.clock).2⟩ := by
    unfold keplerStateNclock
    simp only [hconv, ne_eq, not_true_eq_false, if_false]
  obtain ⟨E, v, p1, p2, p3⟩ := C25_stateNclock k f ⟨mjd, (ms : ℝ) / 1000⟩ o (by rw [hel]; exact e0) (by rw [hel]; linarith) (by rw [hks]; exact hcl)
  obtain ⟨E', q1, q2⟩ := (C26_clock_formula k f (ref2toc f ⟨mjd, (ms : ℝ) / 1000⟩) o.clock).2.1 hcl
  rw [C22_toc_exact, elapsed_secs, hel, hc.toc] at q1 q2
  rw [elapsed_secs, hft, hel] at p1
  rw [elapsed_secs, hft, hel] at p3
  rw [hel] at p2
  refine ⟨_, rfl, by rw [hks]; exact hcl, toe, E, v, E', htoe, by rw [hk]; exact p1, p2, ?_, by rw [hk]; exact q1, ?_⟩
  · rw [p3, hk]
    funext i
    fin_cases i <;> rfl
  · rw [hks, hk]; exact q2

/-- `msg_is_ok` for a message of a well formed record of GPS, Galileo or BeiDou. -/
theorem tabMsgOk_spec {dateOf : List Char → Res DateTime} {f : NavFrame} {r : NavItem} (hc : Carries f r) (hr : r.WFV dateOf)
    (hg : r.sys ≠ .glonass) (t : Int) :
    ∃ j, tabMsgOk f t = .ok j ∧ (j = -1 ↔ ¬ r.HealthIs 0) ∧ (j = 1 ↔ r.HealthIs 0 ∧ r.Expired t) := by
  obtain ⟨h, hh⟩ := hr.health
  obtain ⟨fit, hfit⟩ := hr.fit
  have hx : r.Expired t ↔ 1000 * r.toc.total ≤ t ∧ 1000 * (r.toc.total + fit) ≤ t :=
    ⟨fun ⟨h0, fit', h1, h2⟩ => by rw [FitIs.unique hfit h1]; exact ⟨h0, h2⟩, fun h => ⟨h.1, fit, hfit, h.2⟩⟩
  have hz : r.HealthIs 0 ↔ h = 0 := ⟨fun h' => HealthIs.unique hh h', fun e => e ▸ hh⟩
  unfold tabMsgOk
  rw [svHealth_spec hc hh, Res.bind_ok]
  by_cases e : h = 0
  · rw [if_neg (by simpa using e), fitInterval_spec hc hfit, Res.bind_ok]
    simp only [hc.sys, hc.toc, hg, if_false]
    rw [hz, hx]
    by_cases h1 : t ≥ 1000 * r.toc.total
    · rw [if_pos h1]
      by_cases h2 : t < 1000 * r.toc.total + 1000 * fit
      · refine ⟨0, by rw [if_pos h2]; rfl, by simp [e], ?_⟩
        constructor
        · intro h; omega
        · rintro ⟨_, h⟩; omega
      · refine ⟨1, by rw [if_neg h2]; rfl, by simp [e], ?_⟩
        constructor
        · intro _; exact ⟨e, by omega, by omega⟩
        · intro _; rfl
    · refine ⟨100, by rw [if_neg h1]; rfl, by simp [e], ?_⟩
      constructor
      · intro h; omega
      · rintro ⟨_, h⟩; omega
  · refine ⟨-1, by rw [if_pos (by simpa using e)]; rfl, by simp [hz, e], by simp [hz, e]⟩

/-! ## The loop -/

/-- The next message of the satellite in a well formed file, or the end of the file. -/
theorem next_message {dateOf : List Char → Res DateTime} {rs : List NavItem} (hrs : NavFileOK dateOf rs) {sys : SatSys} (hh : Handled sys)
    {prn : Int} (hp : 0 < prn) (junk : Nat → List Char) {fuel : Nat} (hfuel : rs.length < fuel) {f : NavFrame} (hl : f.data.length = 31)
    {s : Stream} (hg : s.good = true) (hrest : s.rest = fileText rs) :
    (messagesOf sys prn rs = [] ∧ ∃ f' s', findNext dateOf junk fuel sys prn f s 0 = .ok (some s.pos, ⟨-1, f', s', 0⟩)) ∨
    ∃ q post f' s', messagesOf sys prn rs = q :: messagesOf sys prn post ∧ q ∈ rs ∧ q.Of sys prn ∧ (∃ pre, rs = pre ++ q :: post) ∧
      findNext dateOf junk fuel sys prn f s 0 = .ok (some s.pos, ⟨0, f', s', 0⟩) ∧ Carries f' q ∧ s'.good = true ∧ s'.rest = fileText post := by
  have skip : ∀ pre : List NavItem, (∀ p ∈ pre, p ∈ rs) → messagesOf sys prn pre = [] →
      ∀ p ∈ pre, (p.sys ≠ sys ∧ IsBlock p.sys p.lines) ∨ (p.sys = sys ∧ p.WF dateOf ∧ prn ≠ -1 ∧ p.prn ≠ prn) := by
    intro pre hpre hm p hpm
    unfold messagesOf at hm
    rw [List.filter_eq_nil_iff] at hm
    have h := hm p hpm
    simp only [decide_eq_true_eq, not_and] at h
    by_cases e : p.sys = sys
    · exact Or.inr ⟨e, (hrs.handled p (hpre p hpm) (by rw [e]; exact hh)).toWF, by omega, h e⟩
    · exact Or.inl ⟨e, hrs.block p (hpre p hpm)⟩
  by_cases hm : messagesOf sys prn rs = []
  · obtain ⟨f', s', h1, _⟩ := C18_none dateOf junk fuel sys prn f s rs hg hrest hl (skip rs (fun _ h => h) hm) hfuel
    exact Or.inl ⟨hm, f', s', h1⟩
  · obtain ⟨q, more, hq⟩ : ∃ q more, messagesOf sys prn rs = q :: more := List.exists_cons_of_ne_nil hm
    obtain ⟨pre, post, e1, e2, e3, e4⟩ := List.filter_eq_cons_iff.1 hq
    have hof : q.sys = sys ∧ q.prn = prn := by simpa using e3
    have hqm : q ∈ rs := by rw [e1]; simp
    obtain ⟨f', s', h1, h2, h3, h4, _⟩ := C18_first_match dateOf junk fuel sys prn f s pre q (fileText post) hg
      (by rw [hrest, e1]; simp [fileText]) hl
      (skip pre (fun p hp => by rw [e1]; simp [hp]) (by unfold messagesOf; rw [List.filter_eq_nil_iff]; exact e2))
      (hrs.handled q hqm (by rw [hof.1]; exact hh)).toWF hof.1 (Or.inr hof.2) (by rw [e1] at hfuel; simp at hfuel; omega)
    exact Or.inr ⟨q, post, f', s', by rw [hq]; unfold messagesOf; rw [e4], hqm, hof, ⟨pre, e1⟩, h1, h2, h4, h3⟩

/-- Orbits of the messages: eccentricities the algorithm is made for. -/
def Tame (rs : List NavItem) (sys : SatSys) (prn : Int) : Prop := sys ≠ .glonass → ∀ r ∈ rs, r.Of sys prn → 0 ≤ r.el.e ∧ r.el.e ≤ 0.95

/-- The row of the table that a line of the program shows. -/
def TabLine.row (l : TabLine) : TabRow := (l.t, l.pos, l.clock)

theorem tabLoop_run (W : TabWorld) {sys : SatSys} (hh : Handled sys) (hk : sys ≠ .glonass) {prn : Int} (hp : 0 < prn) (stop : Int) (K : Nat) :
    ∀ (fuel : Nat) (rs : List NavItem) (q : NavItem) (msg : NavFrame) (s : Stream) (t : Int) (k : Nat) (o : StateClock),
    NavFileOK W.navDate rs → rs.length < W.fuel → Tame (q :: rs) sys prn → q.Of sys prn → q.WFV W.navDate → Carries msg q →
    s.good = true → s.rest = fileText rs → (∀ r ∈ rs, r.Of sys prn → stop - 1000 * r.toc.total ≤ 60000 * K) →
    stop - t ≤ 60000 * k → rs.length * (K + 1) + k < fuel →
    ∃ lines, tabLoop W sys prn stop fuel msg s 0 t o = .ok (0, lines) ∧ (∀ l ∈ lines, ∃ r ∈ q :: rs, Carries l.msg r ∧ r.Of sys prn) ∧
      TabRun stop q (messagesOf sys prn rs) t (lines.map TabLine.row)
  | 0, _, _, _, _, _, _, _, _, _, _, _, _, _, _, _, _, _, hf => absurd hf (by omega)
  | fuel + 1, rs, q, msg, s, t, k, o, hrs, hW, hT, hq, hqw, hc, hg, hr, hK, hk', hf => by
      have hqg : q.sys ≠ .glonass := by rw [hq.1]; exact hk
      unfold tabLoop
      by_cases ht : t < stop
      · rw [if_pos ht]
        obtain ⟨j, j1, j2, j3⟩ := tabMsgOk_spec hc hqw hqg t
        rw [j1, Res.bind_ok]
        by_cases hj : j = -1 ∨ j = 1
        · rw [if_pos hj]
          have hout : ¬ q.HealthIs 0 ∨ q.Expired t := by
            rcases hj with h | h
            · exact Or.inl (j2.1 h)
            · exact Or.inr (j3.1 h).2
          rcases next_message hrs hh hp W.navJunk hW hc.len hg hr with ⟨h1, f', s', h2⟩ | ⟨q', post, f', s', h1, h2, h3, ⟨pre, h4⟩, h5, h6, h7, h8⟩
          · rw [h2, Res.bind_ok]
            refine ⟨[], rfl, by simp, ?_⟩
            rw [h1]
            exact .last ht hout
          · rw [h5, Res.bind_ok]
            simp only [ne_eq, not_true_eq_false, if_false]
            have hlen : rs.length = pre.length + post.length + 1 := by rw [h4]; simp; omega
            have hpost : ∀ r ∈ post, r ∈ rs := fun r hr => by rw [h4]; simp [hr]
            have hmul : (post.length + 1) * (K + 1) ≤ rs.length * (K + 1) := Nat.mul_le_mul_right _ (by omega)
            rw [Nat.add_mul, Nat.one_mul] at hmul
            have hrs' : NavFileOK W.navDate post := ⟨fun r h => hrs.handled r (hpost r h), fun r h => hrs.block r (hpost r h)⟩
            have hT' : Tame (q' :: post) sys prn := by
              intro hg r hm
              rcases List.mem_cons.1 hm with rfl | hm
              · exact hT hg _ (by simp [h2])
              · exact hT hg r (by simp [hpost r hm])
            have step := fun (t' : Int) (k' : Nat) (hk1 : stop - t' ≤ 60000 * k') (hk2 : k' ≤ K ∨ k' ≤ k) =>
              tabLoop_run W hh hk hp stop K fuel post q' f' s' t' k' o hrs' (by omega) hT' h3
                (hrs.handled q' h2 (by rw [h3.1]; exact hh)) h6 h7 h8 (fun r h => hK r (hpost r h)) hk1 (by omega)
            by_cases e : j = -1
            · rw [if_pos e, h6.toc]
              obtain ⟨lines, g1, g2, g3⟩ := step (1000 * q'.toc.total) K (hK q' h2 h3) (Or.inl (le_refl _))
              refine ⟨lines, g1, ?_, ?_⟩
              · intro l hl
                obtain ⟨r, m1, m2⟩ := g2 l hl
                refine ⟨r, ?_, m2⟩
                rcases List.mem_cons.1 m1 with rfl | m1
                · simp [h2]
                · simp [hpost r m1]
              · rw [h1]
                exact .sick ht (j2.1 e) g3
            · rw [if_neg e]
              obtain ⟨lines, g1, g2, g3⟩ := step t k hk' (Or.inr (le_refl _))
              refine ⟨lines, g1, ?_, ?_⟩
              · intro l hl
                obtain ⟨r, m1, m2⟩ := g2 l hl
                refine ⟨r, ?_, m2⟩
                rcases List.mem_cons.1 m1 with rfl | m1
                · simp [h2]
                · simp [hpost r m1]
              · rw [h1]
                have := j3.1 (hj.resolve_left e)
                exact .expired ht this.1 this.2 g3
        · rw [if_neg hj]
          obtain ⟨e0, e1⟩ := hT hk q (by simp) hq
          have hz : q.HealthIs 0 := by
            by_contra h
            exact hj (Or.inl (j2.2 h))
          have hx : ¬ q.Expired t := fun h => hj (Or.inr (j3.2 ⟨hz, h⟩))
          obtain ⟨c, c1, c2, c3⟩ := stateNclock_kepler hc hqw.toWF t (by rw [hq.1]; exact hh) hqg e0 e1 W.fuel o
          unfold tabState
          rw [c1, Res.bind_ok, if_neg (by rw [hc.sys]; tauto)]
          simp only [Res.pure_eq, Res.bind_ok, c2, ne_eq, not_true_eq_false, if_false]
          obtain ⟨lines, g1, g2, g3⟩ := tabLoop_run W hh hk hp stop K fuel rs q msg s (t + 60000) (k - 1) c hrs hW hT hq hqw hc hg hr hK
            (by omega) (by omega)
          rw [g1, Res.bind_ok]
          refine ⟨_, rfl, ?_, .line ht hz hx c3 g3⟩
          intro l hl
          rcases List.mem_cons.1 hl with rfl | hl
          · exact ⟨q, by simp, hc, hq⟩
          · exact g2 l hl
      · rw [if_neg ht]
        exact ⟨[], rfl, by simp, .full (by omega)⟩

/-! ## Consequences -/

theorem NavItem.Expired.mono {q : NavItem} {t t' : Int} (h : q.Expired t) (ht : t ≤ t') : q.Expired t' := by
  obtain ⟨h0, fit, h1, h2⟩ := h
  exact ⟨by omega, fit, h1, by omega⟩

theorem FirstAlive.cons {q : NavItem} {ms : List NavItem} {t : Int} (h : q.Expired t) {r : NavItem} (hr : FirstAlive ms t r) :
    FirstAlive (q :: ms) t r := by
  obtain ⟨a, b, h1, h2, h3⟩ := hr
  refine ⟨q :: a, b, by rw [h1]; rfl, ?_, h3⟩
  intro x hx
  rcases List.mem_cons.1 hx with rfl | hx
  · exact h
  · exact h2 x hx

/-- With healthy messages only, the run is the table. -/
theorem TabRun.table {stop : Int} {q : NavItem} {ms : List NavItem} {t : Int} {ls : List TabRow} (h : TabRun stop q ms t ls)
    (hz : ∀ r ∈ q :: ms, r.HealthIs 0) : TableOf (q :: ms) t stop ls := by
  induction h with
  | full h => exact ⟨by simp, by simp; omega⟩
  | @line q ms t p c ls ht _ hx hs _ ih =>
    obtain ⟨i1, i2⟩ := ih hz
    constructor
    · intro k l hl
      cases k with
      | zero =>
        simp only [List.getElem?_cons_zero, Option.some.injEq] at hl
        subst hl
        exact ⟨by simp, ht, q, ⟨[], ms, rfl, by simp, hx⟩, hs⟩
      | succ k =>
        obtain ⟨g1, g2⟩ := i1 k l (by simpa using hl)
        exact ⟨by rw [g1]; push_cast; ring, g2⟩
    · intro h
      have e : t + 60000 * ((((t, p, c) :: ls).length : Nat) : Int) = t + 60000 + 60000 * (ls.length : Int) := by push_cast [List.length_cons]; ring
      rw [e] at h ⊢
      exact i2 h
  | @expired q q' ms t ls ht _ hx _ ih =>
    obtain ⟨i1, i2⟩ := ih (fun r hr => hz r (by simp [List.mem_cons.1 hr]))
    constructor
    · intro k l hl
      obtain ⟨g1, g2, r, g3, g4⟩ := i1 k l hl
      exact ⟨g1, g2, r, FirstAlive.cons (hx.mono (by omega)) g3, g4⟩
    · intro h r hr
      rcases List.mem_cons.1 hr with rfl | hr
      · exact hx.mono (by omega)
      · exact i2 h r hr
  | sick _ hn _ _ => exact absurd (hz _ (by simp)) hn
  | last ht h =>
    refine ⟨by simp, ?_⟩
    intro _ r hr
    rcases List.mem_cons.1 hr with rfl | hr
    · simpa using h.resolve_left (fun h => h (hz _ (by simp)))
    · simp at hr

/-- Whatever the health of the messages: every line is for an epoch before `stop` and shows what a healthy, not expired message
broadcasts. -/
theorem TabRun.lines {stop : Int} {q : NavItem} {ms : List NavItem} {t : Int} {ls : List TabRow} (h : TabRun stop q ms t ls) :
    ∀ l ∈ ls, l.1 < stop ∧ ∃ r ∈ q :: ms, r.HealthIs 0 ∧ ¬ r.Expired l.1 ∧ KeplerSays r l.1 l.2.1 l.2.2 := by
  induction h with
  | full h => simp
  | line ht hz hx hs _ ih =>
    intro l hl
    rcases List.mem_cons.1 hl with rfl | hl
    · exact ⟨ht, _, by simp, hz, hx, hs⟩
    · exact ih l hl
  | expired _ _ _ _ ih =>
    intro l hl
    obtain ⟨h1, r, h2, h3⟩ := ih l hl
    exact ⟨h1, r, by simp [List.mem_cons.1 h2], h3⟩
  | sick _ _ _ ih =>
    intro l hl
    obtain ⟨h1, r, h2, h3⟩ := ih l hl
    exact ⟨h1, r, by simp [List.mem_cons.1 h2], h3⟩
  | last _ _ => simp

/-- Without gaps the first message that has not expired is in force. -/
theorem FirstAlive.valid {dateOf : List Char → Res DateTime} {q : NavItem} {ms : List NavItem} {t : Int} (h0 : 1000 * q.toc.total ≤ t)
    (hgap : Gapless (q :: ms)) (hz : ∀ r ∈ q :: ms, r.HealthIs 0) (hw : ∀ r ∈ q :: ms, r.WFV dateOf) (hg : ∀ r ∈ q :: ms, r.sys ≠ .glonass)
    {r : NavItem} (h : FirstAlive (q :: ms) t r) : r.ValidAt t := by
  obtain ⟨a, b, h1, h2, h3⟩ := h
  have hm : r ∈ q :: ms := by rw [h1]; simp
  have htoc : 1000 * r.toc.total ≤ t := by
    rcases List.eq_nil_or_concat a with rfl | ⟨a', x, rfl⟩
    · simp only [List.nil_append, List.cons.injEq] at h1
      rw [← h1.1]; exact h0
    · obtain ⟨_, fit, f1, f2⟩ := h2 x (by simp)
      have := hgap a' x r b (by rw [h1]; simp) fit f1
      omega
  obtain ⟨fit, hfit⟩ := (hw r hm).fit
  refine ⟨hz r hm, fit, hfit, ?_⟩
  rw [if_neg (hg r hm)]
  refine ⟨htoc, ?_⟩
  by_contra hc
  exact h3 ⟨htoc, fit, hfit, by omega⟩

end Ggnss
