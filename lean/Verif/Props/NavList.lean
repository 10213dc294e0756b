import Verif.Model.NavList
import Verif.Spec.NavList
import Verif.Props.Checks
/-!
# C92: the minute by minute listings
-/
namespace Ggnss
open NavItem

theorem NavProg.sys_ne (p : NavProg) : p.sys ≠ .mixed := by cases p <;> decide
theorem NavProg.handled (p : NavProg) : Handled p.sys := by cases p <;> simp [NavProg.sys, Handled]

/-! ## Finding the next frame -/

/-- What `listNext` looks for. -/
def NextFor (p : NavProg) (prn after : Int) (r : NavItem) : Prop := r.Of p.sys prn ∧ (p = .G ∨ after < r.toc.total)

theorem listNext_run {W : TabWorld} {p : NavProg} {prn after : Int} : ∀ (rs : List NavItem) (n : Nat) (f : NavFrame) (s : Stream),
    NavFileOK W.navDate rs → f.data.length = 31 → s.good = true → s.rest = fileText rs → rs.length < n →
    ((∀ r ∈ rs, ¬ NextFor p prn after r) ∧ listNext W p prn after n f s 0 = .ok (.inl (-1))) ∨
    ∃ pre q post f' s', rs = pre ++ q :: post ∧ (∀ r ∈ pre, ¬ NextFor p prn after r) ∧ NextFor p prn after q ∧
      listNext W p prn after n f s 0 = .ok (.inr (f', s', 0)) ∧ Carries f' q ∧ s'.good = true ∧ s'.rest = fileText post := by
  intro rs
  induction rs with
  | nil =>
    intro n f s _ _ hg hr hn
    obtain ⟨n, rfl⟩ : ∃ n', n = n' + 1 := ⟨n - 1, by simp at hn; omega⟩
    refine Or.inl ⟨by simp, ?_⟩
    unfold listNext
    simp only [(C55_peek s hg).1 (by simpa [fileText] using hr)]
    rw [if_pos (by decide)]
  | cons r rs ih =>
    intro n f s hrs hl hg hr hn
    obtain ⟨n, rfl⟩ : ∃ n', n = n' + 1 := ⟨n - 1, by omega⟩
    have hrs' : NavFileOK W.navDate rs := ⟨fun x h => hrs.handled x (by simp [h]), fun x h => hrs.block x (by simp [h])⟩
    have hr' : s.rest = linesText r.lines ++ fileText rs := by rw [hr, fileText_cons]; rfl
    have hadv : (s.adv r.text.length).rest = fileText rs := Stream.adv_rest_append hr'
    unfold listNext
    simp only [peakSatsys_block (hrs.block r (by simp)) hg hr']
    rw [if_neg (by decide), if_neg (by decide)]
    by_cases he : r.sys = p.sys
    · rw [if_pos he]
      have hwf := (hrs.handled r (by simp) (by rw [he]; exact p.handled)).toWF
      obtain ⟨g, hg1, hg2, _⟩ := C17_record W.navDate (W.navJunk s.pos) f s r (fileText rs) hwf hg hr' hl
      rw [hg1, Res.bind_ok]
      simp only [ne_eq, not_true_eq_false, if_false]
      by_cases ha : NextFor p prn after r
      · refine Or.inr ⟨[], r, rs, g, s.adv r.text.length, rfl, by simp, ha, ?_, hg2, hg, hadv⟩
        rw [if_pos ⟨by rw [hg2.prn]; exact ha.1.2, by rw [hg2.toc]; exact ha.2⟩]
        rfl
      · rw [if_neg (fun h => ha ⟨⟨he, by rw [← hg2.prn]; exact h.1⟩, by rw [← hg2.toc]; exact h.2⟩)]
        rcases ih n g (s.adv r.text.length) hrs' hg2.len hg hadv (by simp at hn; omega) with ⟨h1, h2⟩ | ⟨pre, q, post, f', s', h1, h2, h3, h4, h5, h6, h7⟩
        · refine Or.inl ⟨?_, h2⟩
          intro x hx
          rcases List.mem_cons.1 hx with rfl | hx
          · exact ha
          · exact h1 x hx
        · refine Or.inr ⟨r :: pre, q, post, f', s', by rw [h1]; rfl, ?_, h3, h4, h5, h6, h7⟩
          intro x hx
          rcases List.mem_cons.1 hx with rfl | hx
          · exact ha
          · exact h2 x hx
    · rw [if_neg he, ignore_block (hrs.block r (by simp)) hg hr']
      have ha : ¬ NextFor p prn after r := fun h => he h.1.1
      rcases ih n f (s.adv r.text.length) hrs' hl hg hadv (by simp at hn; omega) with ⟨h1, h2⟩ | ⟨pre, q, post, f', s', h1, h2, h3, h4, h5, h6, h7⟩
      · refine Or.inl ⟨?_, h2⟩
        intro x hx
        rcases List.mem_cons.1 hx with rfl | hx
        · exact ha
        · exact h1 x hx
      · refine Or.inr ⟨r :: pre, q, post, f', s', by rw [h1]; rfl, ?_, h3, h4, h5, h6, h7⟩
        intro x hx
        rcases List.mem_cons.1 hx with rfl | hx
        · exact ha
        · exact h2 x hx

/-! ## The first two frames -/

/-- At the end of the file the loop does not end. -/
theorem listFirst_eof {W : TabWorld} {p : NavProg} {prn : Int} {s : Stream} (hg : s.good = true) (hr : s.rest = []) :
    ∀ (n : Nat) (first : Option NavFrame) (f : NavFrame) (e : Int), listFirst W p prn n first f s e = .diverge := by
  intro n
  induction n with
  | zero => intro first f e; rfl
  | succ n ih =>
    intro first f e
    unfold listFirst
    simp only [(C55_peek s hg).1 hr, C55_skip_eof s hg hr]
    rw [if_neg (fun h => p.sys_ne h.symm)]
    exact ih first f e

/-- The second frame: the first record of the satellite (E and C: with another time of clock than `T`). -/
def SecondFor (p : NavProg) (prn T : Int) (r : NavItem) : Prop := r.Of p.sys prn ∧ (p = .G ∨ r.toc.total ≠ T)

theorem listFirst_second {W : TabWorld} {p : NavProg} {prn T : Int} : ∀ (rs : List NavItem) (n : Nat) (f0 f : NavFrame) (s : Stream),
    NavFileOK W.navDate rs → f.data.length = 31 → f0.toc.total = T → s.good = true → s.rest = fileText rs →
    ((∀ r ∈ rs, ¬ SecondFor p prn T r) ∧ listFirst W p prn n (some f0) f s 0 = .diverge) ∨
    ∃ pre q post g0 f' s', rs = pre ++ q :: post ∧ (∀ r ∈ pre, ¬ SecondFor p prn T r) ∧ SecondFor p prn T q ∧
      (rs.length < n → listFirst W p prn n (some f0) f s 0 = .ok (.inr (g0, f', s', 0))) ∧ g0.toc.total = T ∧ Carries f' q ∧
      s'.good = true ∧ s'.rest = fileText post := by
  intro rs
  induction rs with
  | nil =>
    intro n f0 f s _ _ _ hg hr
    exact Or.inl ⟨by simp, listFirst_eof hg (by simpa [fileText] using hr) n _ f 0⟩
  | cons r rs ih =>
    intro n f0 f s hrs hl hT hg hr
    have hrs' : NavFileOK W.navDate rs := ⟨fun x h => hrs.handled x (by simp [h]), fun x h => hrs.block x (by simp [h])⟩
    have hr' : s.rest = linesText r.lines ++ fileText rs := by rw [hr, fileText_cons]; rfl
    have hadv : (s.adv r.text.length).rest = fileText rs := Stream.adv_rest_append hr'
    have fin : ¬ SecondFor p prn T r → ∀ g0 g : NavFrame, g0.toc.total = T → g.data.length = 31 →
        (∀ m, listFirst W p prn (m + 1) (some f0) f s 0 = listFirst W p prn m (some g0) g (s.adv r.text.length) 0) →
        ((∀ x ∈ r :: rs, ¬ SecondFor p prn T x) ∧ listFirst W p prn n (some f0) f s 0 = .diverge) ∨
        ∃ pre q post g0 f' s', r :: rs = pre ++ q :: post ∧ (∀ r ∈ pre, ¬ SecondFor p prn T r) ∧ SecondFor p prn T q ∧
          ((r :: rs).length < n → listFirst W p prn n (some f0) f s 0 = .ok (.inr (g0, f', s', 0))) ∧ g0.toc.total = T ∧ Carries f' q ∧
          s'.good = true ∧ s'.rest = fileText post := by
      intro ha g0 g hg0 hgl heq
      rcases ih (n - 1) g0 g (s.adv r.text.length) hrs' hgl hg0 hg hadv with ⟨h1, h2⟩ | ⟨pre, q, post, k0, f', s', h1, h2, h3, h4, h5, h6, h7, h8⟩
      · refine Or.inl ⟨?_, ?_⟩
        · intro x hx
          rcases List.mem_cons.1 hx with rfl | hx
          · exact ha
          · exact h1 x hx
        · cases n with
          | zero => rfl
          | succ n => rw [heq]; exact h2
      · refine Or.inr ⟨r :: pre, q, post, k0, f', s', by rw [h1]; rfl, ?_, h3, ?_, h5, h6, h7, h8⟩
        · intro x hx
          rcases List.mem_cons.1 hx with rfl | hx
          · exact ha
          · exact h2 x hx
        · intro hn
          cases n with
          | zero => simp at hn
          | succ n =>
            rw [heq]
            exact h4 (by simp at hn ⊢; omega)
    by_cases he : r.sys = p.sys
    · have hwf := (hrs.handled r (by simp) (by rw [he]; exact p.handled)).toWF
      obtain ⟨g, hg1, hg2, _⟩ := C17_record W.navDate (W.navJunk s.pos) f s r (fileText rs) hwf hg hr' hl
      have hstep : ∀ m, listFirst W p prn (m + 1) (some f0) f s 0 =
          if g.prn = prn then
            if p ≠ .G ∧ f0.toc.total = g.toc.total then listFirst W p prn m (some g) g (s.adv r.text.length) 0
            else .ok (.inr (f0, g, s.adv r.text.length, 0))
          else listFirst W p prn m (some f0) g (s.adv r.text.length) 0 := by
        intro m
        rw [listFirst]
        simp only [peakSatsys_block (hrs.block r (by simp)) hg hr']
        rw [if_pos he, hg1, Res.bind_ok]
        simp only [ne_eq, not_true_eq_false, if_false]
        rfl
      by_cases hprn : r.prn = prn
      · by_cases ht : p ≠ .G ∧ r.toc.total = T
        · refine fin (fun h => h.2.elim ht.1 (fun h => h ht.2)) g g (by rw [hg2.toc]; exact ht.2) hg2.len ?_
          intro m
          rw [hstep, if_pos (by rw [hg2.prn]; exact hprn), if_pos ⟨ht.1, by rw [hT, hg2.toc]; exact ht.2.symm⟩]
        · refine Or.inr ⟨[], r, rs, f0, g, s.adv r.text.length, rfl, by simp, ⟨⟨he, hprn⟩, by tauto⟩, ?_, hT, hg2, hg, hadv⟩
          intro hn
          obtain ⟨n, rfl⟩ : ∃ n', n = n' + 1 := ⟨n - 1, by omega⟩
          rw [hstep, if_pos (by rw [hg2.prn]; exact hprn), if_neg (fun h => ht ⟨h.1, by rw [← hT, h.2, hg2.toc]⟩)]
      · refine fin (fun h => hprn h.1.2) f0 g hT hg2.len ?_
        intro m
        rw [hstep, if_neg (by rw [hg2.prn]; exact hprn)]
    · refine fin (fun h => he h.1.1) f0 f hT hl ?_
      intro m
      rw [listFirst]
      simp only [peakSatsys_block (hrs.block r (by simp)) hg hr']
      rw [if_neg he, ignore_block (hrs.block r (by simp)) hg hr']
      rfl

theorem listFirst_first {W : TabWorld} {p : NavProg} {prn : Int} : ∀ (rs : List NavItem) (f : NavFrame) (s : Stream),
    NavFileOK W.navDate rs → f.data.length = 31 → s.good = true → s.rest = fileText rs →
    ((∀ r ∈ rs, ¬ r.Of p.sys prn) ∧ ∀ n, listFirst W p prn n none f s 0 = .diverge) ∨
    ∃ pre q post g s', rs = pre ++ q :: post ∧ (∀ r ∈ pre, ¬ r.Of p.sys prn) ∧ q.Of p.sys prn ∧ Carries g q ∧ s'.good = true ∧ s'.rest = fileText post ∧
      (∀ m, listFirst W p prn (pre.length + 1 + m) none f s 0 = listFirst W p prn m (some g) g s' 0) ∧
      (∀ n ≤ pre.length, listFirst W p prn n none f s 0 = .diverge) := by
  intro rs
  induction rs with
  | nil =>
    intro f s _ _ hg hr
    exact Or.inl ⟨by simp, fun n => listFirst_eof hg (by simpa [fileText] using hr) n _ f 0⟩
  | cons r rs ih =>
    intro f s hrs hl hg hr
    have hrs' : NavFileOK W.navDate rs := ⟨fun x h => hrs.handled x (by simp [h]), fun x h => hrs.block x (by simp [h])⟩
    have hr' : s.rest = linesText r.lines ++ fileText rs := by rw [hr, fileText_cons]; rfl
    have hadv : (s.adv r.text.length).rest = fileText rs := Stream.adv_rest_append hr'
    have fin : ¬ r.Of p.sys prn → ∀ g : NavFrame, g.data.length = 31 →
        (∀ m, listFirst W p prn (m + 1) none f s 0 = listFirst W p prn m none g (s.adv r.text.length) 0) →
        ((∀ x ∈ r :: rs, ¬ x.Of p.sys prn) ∧ ∀ n, listFirst W p prn n none f s 0 = .diverge) ∨
        ∃ pre q post g s', r :: rs = pre ++ q :: post ∧ (∀ r ∈ pre, ¬ r.Of p.sys prn) ∧ q.Of p.sys prn ∧ Carries g q ∧ s'.good = true ∧ s'.rest = fileText post ∧
          (∀ m, listFirst W p prn (pre.length + 1 + m) none f s 0 = listFirst W p prn m (some g) g s' 0) ∧
          (∀ n ≤ pre.length, listFirst W p prn n none f s 0 = .diverge) := by
      intro ha g hgl heq
      rcases ih g (s.adv r.text.length) hrs' hgl hg hadv with ⟨h1, h2⟩ | ⟨pre, q, post, k, s', h1, h2, h3, h4, h5, h6, h7, h8⟩
      · refine Or.inl ⟨?_, ?_⟩
        · intro x hx
          rcases List.mem_cons.1 hx with rfl | hx
          · exact ha
          · exact h1 x hx
        · intro n
          cases n with
          | zero => rfl
          | succ n => rw [heq]; exact h2 n
      · refine Or.inr ⟨r :: pre, q, post, k, s', by rw [h1]; rfl, ?_, h3, h4, h5, h6, ?_, ?_⟩
        · intro x hx
          rcases List.mem_cons.1 hx with rfl | hx
          · exact ha
          · exact h2 x hx
        · intro m
          rw [show (r :: pre).length + 1 + m = (pre.length + 1 + m) + 1 by simp; omega, heq]
          exact h7 m
        · intro n hn
          cases n with
          | zero => rfl
          | succ n => rw [heq]; exact h8 n (by simp at hn; omega)
    by_cases he : r.sys = p.sys
    · have hwf := (hrs.handled r (by simp) (by rw [he]; exact p.handled)).toWF
      obtain ⟨g, hg1, hg2, _⟩ := C17_record W.navDate (W.navJunk s.pos) f s r (fileText rs) hwf hg hr' hl
      have hstep : ∀ m, listFirst W p prn (m + 1) none f s 0 =
          if g.prn = prn then listFirst W p prn m (some g) g (s.adv r.text.length) 0
          else listFirst W p prn m none g (s.adv r.text.length) 0 := by
        intro m
        rw [listFirst]
        simp only [peakSatsys_block (hrs.block r (by simp)) hg hr']
        rw [if_pos he, hg1, Res.bind_ok]
        simp only [ne_eq, not_true_eq_false, if_false]
      by_cases hprn : r.prn = prn
      · refine Or.inr ⟨[], r, rs, g, s.adv r.text.length, rfl, by simp, ⟨he, hprn⟩, hg2, hg, hadv, ?_, ?_⟩
        · intro m
          rw [show ([] : List NavItem).length + 1 + m = m + 1 by simp; omega, hstep, if_pos (by rw [hg2.prn]; exact hprn)]
        · intro n hn
          have : n = 0 := by simpa using hn
          rw [this]; rfl
      · refine fin (fun h => hprn h.2) g hg2.len ?_
        intro m
        rw [hstep, if_neg (by rw [hg2.prn]; exact hprn)]
    · refine fin (fun h => he h.1) f hl ?_
      intro m
      rw [listFirst]
      simp only [peakSatsys_block (hrs.block r (by simp)) hg hr']
      rw [if_neg he, ignore_block (hrs.block r (by simp)) hg hr']
      rfl

/-! ## The listing -/

theorem FirstAfter.prefix {ms pre : List NavItem} {t : Int} {q : NavItem} (hp : ∀ x ∈ pre, 1000 * x.toc.total ≤ t) (h : FirstAfter ms t q) :
    FirstAfter (pre ++ ms) t q := by
  obtain ⟨a, b, h1, h2, h3⟩ := h
  refine ⟨pre ++ a, b, by rw [h1]; simp, ?_, h3⟩
  intro x hx
  rcases List.mem_append.1 hx with hx | hx
  · exact hp x hx
  · exact h2 x hx

theorem ListsNext.prefix {ms pre : List NavItem} {t0 : Int} {ls : List TabRow} (hp : ∀ x ∈ pre, 1000 * x.toc.total ≤ t0) (h : ListsNext ms t0 ls) :
    ListsNext (pre ++ ms) t0 ls := by
  refine ⟨?_, ?_⟩
  · intro k l hl
    obtain ⟨h1, q, h2, h3⟩ := h.line k l hl
    exact ⟨h1, q, h2.prefix (fun x hx => by have := hp x hx; omega), h3⟩
  · intro q hq
    rcases List.mem_append.1 hq with hq | hq
    · have := hp q hq; omega
    · exact h.complete q hq

theorem ListsNext.cons {ms : List NavItem} {q : NavItem} {t : Int} {pos : Fin 3 → ℝ} {clk : ℝ} {ls : List TabRow} (ht : t < 1000 * q.toc.total)
    (hk : KeplerSays q t pos clk) (h : ListsNext (q :: ms) (t + 60000) ls) : ListsNext (q :: ms) t ((t, pos, clk) :: ls) := by
  refine ⟨?_, ?_⟩
  · intro k l hl
    cases k with
    | zero =>
      simp only [List.getElem?_cons_zero, Option.some.injEq] at hl
      subst hl
      exact ⟨by simp, q, ⟨[], ms, rfl, by simp, ht⟩, hk⟩
    | succ k =>
      obtain ⟨h1, h2⟩ := h.line k l (by simpa using hl)
      exact ⟨by rw [h1]; push_cast; ring, h2⟩
  · intro x hx
    have := h.complete x hx
    have e : t + 60000 * ((((t, pos, clk) :: ls).length : Nat) : Int) = t + 60000 + 60000 * (ls.length : Int) := by push_cast [List.length_cons]; ring
    rw [e]; exact this

/-- One line, from the frame of a record of the satellite. -/
theorem list_line {dateOf : List Char → Res DateTime} {p : NavProg} (hp : p ≠ .R) {f : NavFrame} {r : NavItem} {prn : Int} (hc : Carries f r) (hr : r.WF dateOf) (hof : r.Of p.sys prn)
    (e0 : 0 ≤ r.el.e) (e1 : r.el.e ≤ 0.95) (t : Int) (o : StateClock) :
    KeplerSays r t ![(keplerStateNclock p.konst f (msEpoch t) o).state 0, (keplerStateNclock p.konst f (msEpoch t) o).state 1,
      (keplerStateNclock p.konst f (msEpoch t) o).state 2] (keplerStateNclock p.konst f (msEpoch t) o).clock := by
  have hg : r.sys ≠ .glonass := by rw [hof.1]; cases p <;> simp_all [NavProg.sys]
  obtain ⟨c, h1, _, h3⟩ := stateNclock_kepler hc hr t (by rw [hof.1]; exact p.handled) hg e0 e1 0 o
  have h2 : stateNclock f 0 (msEpoch t) o = .ok (keplerStateNclock p.konst f (msEpoch t) o) := by
    unfold stateNclock
    rw [hc.sys, hof.1]
    cases p <;> first | rfl | exact absurd rfl hp
  rw [h2] at h1
  cases h1
  exact h3

theorem messagesOf_append (sys : SatSys) (prn : Int) (a b : List NavItem) : messagesOf sys prn (a ++ b) = messagesOf sys prn a ++ messagesOf sys prn b := by
  unfold messagesOf; simp

theorem messagesOf_cons_of {sys : SatSys} {prn : Int} {q : NavItem} (h : q.Of sys prn) (b : List NavItem) : messagesOf sys prn (q :: b) = q :: messagesOf sys prn b := by
  unfold messagesOf
  rw [List.filter_cons_of_pos (by simpa [NavItem.Of] using h)]

theorem listLoop_run {W : TabWorld} {p : NavProg} (hp : p ≠ .R) {prn : Int} : ∀ (fuel : Nat) (rs : List NavItem) (q : NavItem) (n0 f : NavFrame) (s : Stream) (t : Int) (k : Nat) (o : StateClock),
    NavFileOK W.navDate rs → rs.length < W.fuel → q.Of p.sys prn → q.WF W.navDate → Carries f q → s.good = true → s.rest = fileText rs →
    (∀ r ∈ q :: messagesOf p.sys prn rs, 0 ≤ r.el.e ∧ r.el.e ≤ 0.95) → Spaced (decide (p ≠ .G)) (q :: messagesOf p.sys prn rs) →
    1000 * n0.toc.total ≤ t → t < 1000 * q.toc.total → (∀ r ∈ q :: messagesOf p.sys prn rs, 1000 * r.toc.total - t ≤ 60000 * k) → k < fuel →
    ∃ lines, listLoop W p prn fuel n0 f f s 0 t o = .ok (-1, lines) ∧ ListsNext (q :: messagesOf p.sys prn rs) t (lines.map TabLine.row) ∧
      ∀ l ∈ lines, ∃ r ∈ q :: messagesOf p.sys prn rs, Carries l.msg r ∧ l.t < 1000 * r.toc.total
  | 0, _, _, _, _, _, _, _, _, _, _, _, _, _, _, _, _, _, _, _, _, hf => absurd hf (by omega)
  | fuel + 1, rs, q, n0, f, s, t, k, o, hrs, hW, hof, hq, hc, hg, hr, hE, hS, h0, h1, hk, hf => by
      have hqt := hc.toc
      obtain ⟨e0, e1⟩ := hE q (by simp)
      have hline := list_line hp hc hq hof e0 e1 t o
      generalize hcc : keplerStateNclock p.konst f (msEpoch t) o = c at hline
      have hkq := hk q (by simp)
      unfold listLoop
      rw [if_pos ⟨h0, Or.inl (by rw [hqt]; exact h1)⟩]
      simp only [hcc]
      by_cases hx : t + 60000 ≥ 1000 * f.toc.total
      · rw [if_pos hx]
        rw [hqt] at hx ⊢
        rcases listNext_run (W := W) (p := p) (prn := prn) (after := q.toc.total) rs W.fuel f s hrs hc.len hg hr hW with
          ⟨g1, g2⟩ | ⟨pre, q', post, f', s', g1, g2, g3, g4, g5, g6, g7⟩
        · rw [g2, Res.bind_ok]
          refine ⟨_, rfl, ?_, ?_⟩
          · refine ListsNext.cons h1 hline ⟨by simp, ?_⟩
            intro x hxm
            simp only [List.map_nil, List.length_nil, Nat.cast_zero, mul_zero, add_zero]
            rcases List.mem_cons.1 hxm with rfl | hxm
            · omega
            · have h2 := g1 x (messagesOf_mem.1 hxm).1
              have h3 := List.rel_of_pairwise_cons hS hxm
              unfold NextFor at h2
              have h4 := (messagesOf_mem.1 hxm).2
              have h5 : ¬ (p = .G ∨ q.toc.total < x.toc.total) := fun h => h2 ⟨h4, h⟩
              rw [not_or] at h5
              omega
          · intro l hl
            simp only [List.mem_singleton] at hl
            subst hl
            exact ⟨q, by simp, hc, h1⟩
        · rw [g4, Res.bind_ok]
          have hpost : ∀ r ∈ post, r ∈ rs := fun r hr => by rw [g1]; simp [hr]
          have hq'm : q' ∈ rs := by rw [g1]; simp
          have hms : messagesOf p.sys prn rs = messagesOf p.sys prn pre ++ q' :: messagesOf p.sys prn post := by
            rw [g1, messagesOf_append, messagesOf_cons_of g3.1]
          have hsub : ∀ r ∈ q' :: messagesOf p.sys prn post, r ∈ q :: messagesOf p.sys prn rs := by
            intro r hr
            rw [hms]
            simp only [List.mem_cons, List.mem_append] at hr ⊢
            tauto
          have hS' : Spaced (decide (p ≠ .G)) (q' :: messagesOf p.sys prn post) := by
            unfold Spaced at hS ⊢
            rw [hms] at hS
            exact (List.pairwise_append.1 (List.pairwise_cons.1 hS).2).2.1
          have hgap : q.toc.total + 60 ≤ q'.toc.total := by
            rcases List.rel_of_pairwise_cons hS (a' := q') (by rw [hms]; simp) with h | ⟨h2, h3⟩
            · exact h
            · have h2 : p ≠ .G := by simpa using h2
              have := g3.2.resolve_left h2
              omega
          have hlen : rs.length = pre.length + post.length + 1 := by rw [g1]; simp; omega
          obtain ⟨lines, i1, i2, i3⟩ := listLoop_run hp fuel post q' f f' s' (t + 60000) (k - 1) c
            ⟨fun r h => hrs.handled r (hpost r h), fun r h => hrs.block r (hpost r h)⟩ (by omega) g3.1
            (hrs.handled q' hq'm (by rw [g3.1.1]; exact p.handled)).toWF g5 g6 g7 (fun r h => hE r (hsub r h)) hS' (by rw [hqt]; exact hx) (by omega)
            (fun r h => by have := hk r (hsub r h); omega) (by omega)
          simp only
          rw [i1, Res.bind_ok]
          refine ⟨_, rfl, ?_, ?_⟩
          · refine ListsNext.cons h1 hline ?_
            rw [hms, show q :: (messagesOf p.sys prn pre ++ q' :: messagesOf p.sys prn post) =
              (q :: messagesOf p.sys prn pre) ++ q' :: messagesOf p.sys prn post from rfl]
            refine ListsNext.prefix ?_ i2
            intro x hxm
            rcases List.mem_cons.1 hxm with rfl | hxm
            · omega
            · have h2 := g2 x (messagesOf_mem.1 hxm).1
              have h4 := (messagesOf_mem.1 hxm).2
              have h5 : ¬ (p = .G ∨ q.toc.total < x.toc.total) := fun h => h2 ⟨h4, h⟩
              rw [not_or] at h5
              omega
          · intro l hl
            rcases List.mem_cons.1 hl with rfl | hl
            · exact ⟨q, by simp, hc, h1⟩
            · obtain ⟨r, m1, m2⟩ := i3 l hl
              exact ⟨r, hsub r m1, m2⟩
      · rw [if_neg hx]
        rw [hqt] at hx
        obtain ⟨lines, i1, i2, i3⟩ := listLoop_run hp fuel rs q n0 f s (t + 60000) (k - 1) c hrs hW hof hq hc hg hr hE hS (by omega) (by omega)
          (fun r h => by have := hk r h; omega) (by omega)
        rw [i1, Res.bind_ok]
        refine ⟨_, rfl, ListsNext.cons h1 hline i2, ?_⟩
        intro l hl
        rcases List.mem_cons.1 hl with rfl | hl
        · exact ⟨q, by simp, hc, h1⟩
        · exact i3 l hl

/-- What the theorems need to know of the run: arguments, a well formed file, room for the loops. -/
structure ListCase (W : TabWorld) (p : NavProg) (name : List Char) (more : List (List Char)) (prn : Int) (rs : List NavItem) : Prop where
  arg : PrnArg more prn
  fresh : W.fresh.data.length = 31
  ne : rs ≠ []
  wf : ∀ r ∈ rs, r.WF W.navDate
  gps : p = .G → ∀ r ∈ rs, r.sys = .gps → r.WFV W.navDate
  ok : NavFileOK W.navDate rs
  file : ∃ nh : NavHeader, nh.WF ∧ W.files name = some (linesText nh.lines ++ fileText rs)
  fuel : rs.length + 1 < W.fuel

theorem listMain_start {W : TabWorld} {p : NavProg} {a0 name : List Char} {more : List (List Char)} {prn : Int} {rs : List NavItem}
    (h : ListCase W p name more prn rs) (o : StateClock) :
    ∃ f s, f.data.length = 31 ∧ s.good = true ∧ s.rest = fileText rs ∧
      listMain W p o (a0 :: name :: more) = Res.noexcept (do
        match ← listFirst W p prn W.fuel none f s 0 with
        | .inl c => pure (c, [])
        | .inr (f0, f1, s, errno) => listLoop W p prn W.fuel f0 f1 f1 s errno (1000 * f0.toc.total) { o with clock := 0 }) := by
  obtain ⟨nh, n1, n2⟩ := h.file
  obtain ⟨nav, r, e, h1, _, _, _, h5, h6, h7, h8, h9⟩ := C91_nav_one_too_many W p (a0 := a0) h.arg h.fresh n1 h.ne h.wf h.gps (by have := h.fuel; omega) n2
  refine ⟨r.frame, navRewind e r.strm none, h6, h8, h9, ?_⟩
  unfold listMain
  rw [h1, Res.bind_ok]
  simp only [h7, h5]
  rfl

/-- **C92** (what the listings of GPS, Galileo and BeiDou satellites are).  For every file of well formed records in which the
messages of the chosen satellite are in order of time and at least a minute apart (Galileo and BeiDou: or at the same time), with at
least two different times of clock: the program lists the satellite once a minute from the time of clock of its first message to that
of its last one; **every line is computed from the next message, the first one whose time of clock is still to come**, instead of the one
in force; and the program ends with exit code -1, complaining that no further message was found. -/
theorem C92_next_message {W : TabWorld} {p : NavProg} (hp : p ≠ .R) {a0 name : List Char} {more : List (List Char)} {prn : Int} {rs : List NavItem}
    (h : ListCase W p name more prn rs) {q : NavItem} {ms : List NavItem} (hms : messagesOf p.sys prn rs = q :: ms)
    (hS : Spaced (decide (p ≠ .G)) (q :: ms)) (hlate : ∃ r ∈ ms, q.toc.total < r.toc.total) (hE : ∀ r ∈ q :: ms, 0 ≤ r.el.e ∧ r.el.e ≤ 0.95)
    {K : Nat} (hK : ∀ r ∈ q :: ms, r.toc.total - q.toc.total ≤ 60 * K) (hfuel : K < W.fuel) (o : StateClock) :
    ∃ lines, listMain W p o (a0 :: name :: more) = .ok (-1, lines) ∧ ListsNext (q :: ms) (1000 * q.toc.total) (lines.map TabLine.row) ∧
      ∀ l ∈ lines, ∃ r ∈ q :: ms, Carries l.msg r ∧ l.t < 1000 * r.toc.total := by
  obtain ⟨f, s, s1, s2, s3, s4⟩ := listMain_start (a0 := a0) h o
  rw [s4]
  have hf := h.fuel
  rcases listFirst_first (p := p) (prn := prn) rs f s h.ok s1 s2 s3 with ⟨g1, _⟩ | ⟨pre, q0, post, g, s', g1, g2, g3, g4, g5, g6, g7, _⟩
  · have : q ∈ messagesOf p.sys prn rs := by rw [hms]; simp
    exact absurd (messagesOf_mem.1 this).2 (g1 q (messagesOf_mem.1 this).1)
  · have hpre : messagesOf p.sys prn pre = [] := by
      rw [List.eq_nil_iff_forall_not_mem]
      intro x hx
      exact g2 x (messagesOf_mem.1 hx).1 (messagesOf_mem.1 hx).2
    have hsplit : q0 :: messagesOf p.sys prn post = q :: ms := by
      rw [← hms, g1, messagesOf_append, messagesOf_cons_of g3, hpre]; rfl
    obtain ⟨rfl, rfl⟩ := List.cons.inj hsplit
    have hlen : rs.length = pre.length + post.length + 1 := by rw [g1]; simp; omega
    have hpost : ∀ r ∈ post, r ∈ rs := fun r hr => by rw [g1]; simp [hr]
    obtain ⟨m, hm⟩ : ∃ m, W.fuel = pre.length + 1 + m := ⟨W.fuel - (pre.length + 1), by omega⟩
    have hpok : NavFileOK W.navDate post := ⟨fun r h' => h.ok.handled r (hpost r h'), fun r h' => h.ok.block r (hpost r h')⟩
    have hfirst : listFirst W p prn W.fuel none f s 0 = listFirst W p prn m (some g) g s' 0 := by
      have := g7 m
      rw [← hm] at this
      exact this
    rw [hfirst]
    rcases listFirst_second (p := p) (prn := prn) (T := q0.toc.total) post m g g s' hpok g4.len (by rw [g4.toc]) g5 g6 with
      ⟨k1, _⟩ | ⟨pre', q1, post', k0, f1, s1', k1, k2, k3, k4, k5, k6, k7, k8⟩
    · obtain ⟨r, hr, hrt⟩ := hlate
      have := k1 r (messagesOf_mem.1 hr).1
      exact absurd ⟨(messagesOf_mem.1 hr).2, Or.inr (by omega)⟩ this
    · rw [k4 (by omega), Res.bind_ok]
      simp only
      have hms1 : messagesOf p.sys prn post = messagesOf p.sys prn pre' ++ q1 :: messagesOf p.sys prn post' := by
        rw [k1, messagesOf_append, messagesOf_cons_of k3.1]
      have hpost' : ∀ r ∈ post', r ∈ rs := fun r hr => hpost r (by rw [k1]; simp [hr])
      have hq1m : q1 ∈ rs := hpost q1 (by rw [k1]; simp)
      have hlen' : post.length = pre'.length + post'.length + 1 := by rw [k1]; simp; omega
      have hsub : ∀ r ∈ q1 :: messagesOf p.sys prn post', r ∈ q0 :: messagesOf p.sys prn post := by
        intro r hr
        rw [hms1]
        simp only [List.mem_cons, List.mem_append] at hr ⊢
        tauto
      have hprefix : ∀ x ∈ messagesOf p.sys prn pre', x.toc.total = q0.toc.total := by
        intro x hx
        have h1 := k2 x (messagesOf_mem.1 hx).1
        have h2 : ¬ (p = .G ∨ x.toc.total ≠ q0.toc.total) := fun h => h1 ⟨(messagesOf_mem.1 hx).2, h⟩
        rw [not_or] at h2
        exact not_not.1 h2.2
      have hgap : q0.toc.total + 60 ≤ q1.toc.total := by
        rcases List.rel_of_pairwise_cons hS (a' := q1) (by rw [hms1]; simp) with h | ⟨h2, h3⟩
        · exact h
        · have h2 : p ≠ .G := by simpa using h2
          have := k3.2.resolve_left h2
          omega
      have hS' : Spaced (decide (p ≠ .G)) (q1 :: messagesOf p.sys prn post') := by
        unfold Spaced at hS ⊢
        rw [hms1] at hS
        exact (List.pairwise_append.1 (List.pairwise_cons.1 hS).2).2.1
      obtain ⟨lines, i1, i2, i3⟩ := listLoop_run hp W.fuel post' q1 k0 f1 s1' (1000 * q0.toc.total) K { o with clock := 0 }
        ⟨fun r h' => h.ok.handled r (hpost' r h'), fun r h' => h.ok.block r (hpost' r h')⟩ (by omega) k3.1 (h.wf q1 hq1m) k6 k7 k8
        (fun r hr => hE r (hsub r hr)) hS' (by rw [k5]) (by omega) (fun r hr => by have := hK r (hsub r hr); omega) hfuel
      rw [k5, i1]
      refine ⟨lines, rfl, ?_, ?_⟩
      · rw [hms1, show q0 :: (messagesOf p.sys prn pre' ++ q1 :: messagesOf p.sys prn post') =
          (q0 :: messagesOf p.sys prn pre') ++ q1 :: messagesOf p.sys prn post' from rfl]
        refine ListsNext.prefix ?_ i2
        intro x hx
        rcases List.mem_cons.1 hx with rfl | hx
        · exact le_refl _
        · rw [hprefix x hx]
      · intro l hl
        obtain ⟨r, m1, m2⟩ := i3 l hl
        exact ⟨r, hsub r m1, m2⟩

/-- **C92**: no line of such a listing is computed from the message in force at its epoch. -/
theorem C92_never_in_force {ms : List NavItem} {t0 : Int} {lines : List TabRow} (h : ListsNext ms t0 lines) :
    ∀ (k : Nat) (l : TabRow), lines[k]? = some l → ∃ q ∈ ms, KeplerSays q l.1 l.2.1 l.2.2 ∧ l.1 < 1000 * q.toc.total ∧
      ∀ q', LatestBefore ms l.1 q' → q' ≠ q := by
  intro k l hl
  obtain ⟨_, q, ⟨a, b, h1, h2, h3⟩, h4⟩ := h.line k l hl
  refine ⟨q, by rw [h1]; simp, h4, h3, ?_⟩
  rintro q' ⟨_, _, _, h5, _⟩ rfl
  omega

/-- **C92**: the program never ends when the file has no two messages of the satellite (Galileo and BeiDou: with different times of
clock). -/
theorem C92_hangs {W : TabWorld} {p : NavProg} {a0 name : List Char} {more : List (List Char)} {prn : Int} {rs : List NavItem}
    (h : ListCase W p name more prn rs)
    (hfew : ∀ q ms, messagesOf p.sys prn rs = q :: ms → ∀ r ∈ ms, p ≠ .G ∧ r.toc.total = q.toc.total) (o : StateClock) :
    listMain W p o (a0 :: name :: more) = .diverge := by
  obtain ⟨f, s, s1, s2, s3, s4⟩ := listMain_start (a0 := a0) h o
  rw [s4]
  have hd : listFirst W p prn W.fuel none f s 0 = .diverge := by
    rcases listFirst_first (p := p) (prn := prn) rs f s h.ok s1 s2 s3 with ⟨_, g2⟩ | ⟨pre, q0, post, g, s', g1, g2, g3, g4, g5, g6, g7, g8⟩
    · exact g2 _
    · by_cases hn : W.fuel ≤ pre.length
      · exact g8 _ hn
      · obtain ⟨m, hm⟩ : ∃ m, W.fuel = pre.length + 1 + m := ⟨W.fuel - (pre.length + 1), by omega⟩
        have hpre : messagesOf p.sys prn pre = [] := by
          rw [List.eq_nil_iff_forall_not_mem]
          intro x hx
          exact g2 x (messagesOf_mem.1 hx).1 (messagesOf_mem.1 hx).2
        have hms : messagesOf p.sys prn rs = q0 :: messagesOf p.sys prn post := by
          rw [g1, messagesOf_append, messagesOf_cons_of g3, hpre]; rfl
        have hpost : ∀ r ∈ post, r ∈ rs := fun r hr => by rw [g1]; simp [hr]
        rw [hm, g7 m]
        rcases listFirst_second (p := p) (prn := prn) (T := q0.toc.total) post m g g s'
          ⟨fun r h' => h.ok.handled r (hpost r h'), fun r h' => h.ok.block r (hpost r h')⟩ g4.len (by rw [g4.toc]) g5 g6 with
          ⟨_, k2⟩ | ⟨pre', q1, post', _, _, _, k1, _, k3, _⟩
        · exact k2
        · have hq1 : q1 ∈ messagesOf p.sys prn post := messagesOf_mem.2 ⟨by rw [k1]; simp, k3.1⟩
          obtain ⟨h1, h2⟩ := hfew q0 _ hms q1 hq1
          exact absurd h2 (k3.2.resolve_left h1)
  rw [hd]
  rfl

/-! ## Exit codes -/

theorem listNext_code {W : TabWorld} {p : NavProg} {prn after : Int} : ∀ (n : Nat) (f : NavFrame) (s : Stream) (e c : Int),
    listNext W p prn after n f s e = .ok (.inl c) → c ≠ 0 := by
  intro n
  induction n with
  | zero => intro f s e c h; simp [listNext] at h
  | succ n ih =>
    intro f s e c h
    unfold listNext at h
    simp only at h
    generalize peakSatsys s = k at h
    by_cases h1 : k.1 < 0
    · rw [if_pos h1] at h
      cases h; decide
    · rw [if_neg h1] at h
      by_cases h2 : k.1 > 0
      · rw [if_pos h2] at h
        cases h; omega
      · rw [if_neg h2] at h
        by_cases h3 : k.2.1 = p.sys
        · rw [if_pos h3] at h
          obtain ⟨r, _, h⟩ := bind_ok_inv h
          by_cases h4 : r.status ≠ 0
          · rw [if_pos h4] at h; cases h; decide
          · rw [if_neg h4] at h
            split at h
            · cases h
            · exact ih _ _ _ _ h
        · rw [if_neg h3] at h
          exact ih _ _ _ _ h

theorem listFirst_code {W : TabWorld} {p : NavProg} {prn : Int} : ∀ (n : Nat) (first : Option NavFrame) (f : NavFrame) (s : Stream) (e c : Int),
    listFirst W p prn n first f s e = .ok (.inl c) → c ≠ 0 := by
  intro n
  induction n with
  | zero => intro first f s e c h; simp [listFirst] at h
  | succ n ih =>
    intro first f s e c h
    unfold listFirst at h
    simp only at h
    generalize peakSatsys s = k at h
    by_cases h3 : k.2.1 = p.sys
    · rw [if_pos h3] at h
      obtain ⟨r, _, h⟩ := bind_ok_inv h
      by_cases h4 : r.status ≠ 0
      · rw [if_pos h4] at h; cases h; decide
      · rw [if_neg h4] at h
        split at h
        · cases first with
          | none => exact ih _ _ _ _ _ h
          | some f0 =>
            simp only at h
            split at h
            · exact ih _ _ _ _ _ h
            · cases h
        · exact ih _ _ _ _ _ h
    · rw [if_neg h3] at h
      exact ih _ _ _ _ _ h

theorem listLoop_code {W : TabWorld} {p : NavProg} {prn : Int} : ∀ (n : Nat) (n0 n1 b : NavFrame) (s : Stream) (e t : Int) (o : StateClock) (c : Int) (ls : List TabLine),
    listLoop W p prn n n0 n1 b s e t o = .ok (c, ls) → c ≠ 0 := by
  intro n
  induction n with
  | zero => intro n0 n1 b s e t o c ls h; simp [listLoop] at h
  | succ n ih =>
    intro n0 n1 b s e t o c ls h
    unfold listLoop at h
    simp only at h
    split at h
    · split at h
      · obtain ⟨r, hr, h⟩ := bind_ok_inv h
        cases r with
        | inl code => cases h; exact listNext_code _ _ _ _ _ hr
        | inr x =>
          simp only at h
          obtain ⟨y, hy, h⟩ := bind_ok_inv h
          cases h
          exact ih _ _ _ _ _ _ _ _ _ hy
      · obtain ⟨y, hy, h⟩ := bind_ok_inv h
        cases h
        exact ih _ _ _ _ _ _ _ _ _ hy
    · cases h; decide

/-- **C92** (exit status): whatever the file and the arguments, a listing program for GPS, Galileo or BeiDou never exits with 0. -/
theorem C92_exit_never_zero (W : TabWorld) (p : NavProg) (o : StateClock) (argv : List (List Char)) {c : Int} {ls : List TabLine}
    (h : listMain W p o argv = .ok (c, ls)) : c ≠ 0 := by
  unfold listMain at h
  have h := Res.noexcept_eq_ok.1 h
  obtain ⟨r, hr, h⟩ := bind_ok_inv h
  cases r with
  | inl x =>
    cases h
    unfold navThrough at hr
    split at hr
    · split at hr
      · obtain ⟨_, _, hr⟩ := bind_ok_inv hr
        obtain ⟨_, _, hr⟩ := bind_ok_inv hr
        obtain ⟨_, _, hr⟩ := bind_ok_inv hr
        obtain ⟨_, _, hr⟩ := bind_ok_inv hr
        cases hr
      · cases hr; decide
    · cases hr; decide
  | inr x =>
    simp only at h
    obtain ⟨y, hy, h⟩ := bind_ok_inv h
    cases y with
    | inl code => cases h; exact listFirst_code _ _ _ _ _ _ hy
    | inr z => exact listLoop_code _ _ _ _ _ _ _ _ _ _ h

end Ggnss
