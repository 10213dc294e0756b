import Verif.Model.GloList
import Verif.Spec.GloList
import Verif.Props.NavList
import Verif.Props.PpEpoch
/-!
# C93: the listing of GLONASS satellites
-/
namespace Ggnss
open NavItem

/-- What the record says near its time of ephemeris, whatever its health. -/
theorem glo_near_says {f : NavFrame} {r : NavItem} (hc : Carries f r) (hg : r.sys = .glonass) {t toe : Int} (htoe : r.toeIs toe) (hn : |1000 * toe - t| < 900000)
    {fuel : Nat} (hfuel : 720 < fuel) (o : StateClock) :
    ∃ c, gloStateNclock f fuel (msEpoch t) o = .ok c ∧ c.status = 0 ∧ GloSays r t ![c.state 0, c.state 1, c.state 2] c.clock := by
  have hh : Handled r.sys := by rw [hg]; simp [Handled]
  have hft := hc.toe hh toe htoe
  have hgf : f.sys = .glonass := by rw [hc.sys, hg]
  have ht : (86400000 * (t / 86400000) + t % 86400000 : Int) = t := by omega
  have hel : elapsed (msEpoch t) f.toe = secsSince t toe := by
    unfold msEpoch; rw [elapsed_secs, hft, ht]
  have hle : |secsSince t toe| < 900 := by
    rw [abs_lt] at hn
    have a1 : (-900000 : ℝ) < 1000 * (toe : ℝ) - (t : ℝ) := by exact_mod_cast hn.1
    have a2 : 1000 * (toe : ℝ) - (t : ℝ) < 900000 := by exact_mod_cast hn.2
    unfold secsSince
    rw [abs_lt]; constructor <;> linarith
  obtain ⟨c, h1, _, h3⟩ := C28_window f fuel (msEpoch t) o hfuel hgf
  rw [hel] at h3
  obtain ⟨h4, h5⟩ := h3 hle.le
  have hex := C22_toe_exact f (msEpoch t)
  rw [hel] at hex
  have hN : ⌈|secsSince t toe| / 60⌉₊ ≤ 15 := by
    rw [Nat.ceil_le, div_le_iff₀ (by norm_num)]; push_cast; linarith
  have h6 := C27_integration f fuel (ref2toe f (msEpoch t)) o.state (by rw [hex]; linarith) (by rw [hex]; omega)
  rw [hex] at h6
  unfold stateNclock at h1
  rw [hgf] at h1
  simp only at h1
  have hcs : c.state = (rk4 r.gloField (if 0 < secsSince t toe then 60 else -60))^[⌈|secsSince t toe| / 60⌉₊] r.gloStart := by
    unfold gloStateNclock at h1
    rw [h6, if_neg (by linarith)] at h1
    simp only [Res.bind_ok, ne_eq, not_true_eq_false, if_false, Res.pure_eq, Res.ok.injEq] at h1
    rw [← h1]
    simp only
    rw [gloFieldOf_item hc hg, gloStart_item hc hg]
    have : (ref2toe f (msEpoch t) > f.toeSec) ↔ 0 < secsSince t toe := by rw [← hex]; constructor <;> intro <;> linarith
    simp only [this]
  refine ⟨c, h1, h4, toe, htoe, ?_, ?_⟩
  · intro i
    rw [← hcs]
    fin_cases i <;> rfl
  · rw [h5, glo_lines hc hg 0 0 (by omega) (by omega), glo_lines hc hg 0 1 (by omega) (by omega)]

theorem glo_toe_unique {r : NavItem} (hg : r.sys = .glonass) {a b : Int} (ha : r.toeIs a) (hb : r.toeIs b) : a = b := by
  unfold toeIs at ha hb
  rw [hg] at ha hb
  obtain ⟨x, ⟨hx, _⟩, rfl⟩ := ha
  obtain ⟨y, ⟨hy, _⟩, rfl⟩ := hb
  rw [hx] at hy
  have : x = y := by exact_mod_cast hy
  rw [this]

/-! ## Searching for frames -/

theorem gloFirst_eof {W : TabWorld} {prn : Int} {s : Stream} (hg : s.good = true) (hr : s.rest = []) :
    ∀ (n : Nat) (f : NavFrame) (e : Int), gloFirst W prn n f s e = .diverge := by
  intro n
  induction n with
  | zero => intro f e; rfl
  | succ n ih =>
    intro f e
    unfold gloFirst
    simp only [(C55_peek s hg).1 hr, C55_skip_eof s hg hr]
    rw [if_neg (by decide)]
    exact ih f e

/-- The first search: it finds the first record of the satellite, or goes on for ever. -/
theorem gloFirst_run {W : TabWorld} {prn : Int} : ∀ (rs : List NavItem) (n : Nat) (f : NavFrame) (s : Stream),
    NavFileOK W.navDate rs → f.data.length = 31 → s.good = true → s.rest = fileText rs →
    ((∀ r ∈ rs, ¬ r.Of .glonass prn) ∧ gloFirst W prn n f s 0 = .diverge) ∨
    ∃ pre q post, rs = pre ++ q :: post ∧ (∀ r ∈ pre, ¬ r.Of .glonass prn) ∧ q.Of .glonass prn ∧
      (pre.length < n → ∃ g s', gloFirst W prn n f s 0 = .ok (.inr (g, s', 0)) ∧ Carries g q ∧ s'.good = true ∧ s'.rest = fileText post) := by
  intro rs
  induction rs with
  | nil =>
    intro n f s _ _ hg hr
    exact Or.inl ⟨by simp, gloFirst_eof hg (by simpa [fileText] using hr) n f 0⟩
  | cons r rs ih =>
    intro n f s hrs hl hg hr
    have hrs' : NavFileOK W.navDate rs := ⟨fun x h => hrs.handled x (by simp [h]), fun x h => hrs.block x (by simp [h])⟩
    have hr' : s.rest = linesText r.lines ++ fileText rs := by rw [hr, fileText_cons]; rfl
    have hadv : (s.adv r.text.length).rest = fileText rs := Stream.adv_rest_append hr'
    have fin : ¬ r.Of .glonass prn → ∀ g : NavFrame, g.data.length = 31 →
        (∀ m, gloFirst W prn (m + 1) f s 0 = gloFirst W prn m g (s.adv r.text.length) 0) →
        ((∀ x ∈ r :: rs, ¬ x.Of .glonass prn) ∧ gloFirst W prn n f s 0 = .diverge) ∨
        ∃ pre q post, r :: rs = pre ++ q :: post ∧ (∀ r ∈ pre, ¬ r.Of .glonass prn) ∧ q.Of .glonass prn ∧
          (pre.length < n → ∃ g s', gloFirst W prn n f s 0 = .ok (.inr (g, s', 0)) ∧ Carries g q ∧ s'.good = true ∧ s'.rest = fileText post) := by
      intro ha g hgl heq
      rcases ih (n - 1) g (s.adv r.text.length) hrs' hgl hg hadv with ⟨h1, h2⟩ | ⟨pre, q, post, h1, h2, h3, h4⟩
      · refine Or.inl ⟨?_, ?_⟩
        · intro x hx
          rcases List.mem_cons.1 hx with rfl | hx
          · exact ha
          · exact h1 x hx
        · cases n with
          | zero => rfl
          | succ n => rw [heq]; exact h2
      · refine Or.inr ⟨r :: pre, q, post, by rw [h1]; rfl, ?_, h3, ?_⟩
        · intro x hx
          rcases List.mem_cons.1 hx with rfl | hx
          · exact ha
          · exact h2 x hx
        · intro hn
          obtain ⟨m, rfl⟩ : ∃ m, n = m + 1 := ⟨n - 1, by omega⟩
          rw [heq]
          exact h4 (by simp at hn; omega)
    by_cases he : r.sys = .glonass
    · have hwf := (hrs.handled r (by simp) (by rw [he]; simp [Handled])).toWF
      obtain ⟨g, hg1, hg2, _⟩ := C17_record W.navDate (W.navJunk s.pos) f s r (fileText rs) hwf hg hr' hl
      have hstep : ∀ m, gloFirst W prn (m + 1) f s 0 =
          if g.prn = prn then .ok (.inr (g, s.adv r.text.length, 0)) else gloFirst W prn m g (s.adv r.text.length) 0 := by
        intro m
        rw [gloFirst]
        simp only [peakSatsys_block (hrs.block r (by simp)) hg hr']
        rw [if_pos he, hg1, Res.bind_ok]
        simp only [ne_eq, not_true_eq_false, if_false, Res.pure_eq]
      by_cases hprn : r.prn = prn
      · refine Or.inr ⟨[], r, rs, rfl, by simp, ⟨he, hprn⟩, ?_⟩
        intro hn
        obtain ⟨m, rfl⟩ : ∃ m, n = m + 1 := ⟨n - 1, by simp at hn; omega⟩
        exact ⟨g, s.adv r.text.length, by rw [hstep, if_pos (by rw [hg2.prn]; exact hprn)], hg2, hg, hadv⟩
      · refine fin (fun h => hprn h.2) g hg2.len ?_
        intro m
        rw [hstep, if_neg (by rw [hg2.prn]; exact hprn)]
    · refine fin (fun h => he h.1) f hl ?_
      intro m
      rw [gloFirst]
      simp only [peakSatsys_block (hrs.block r (by simp)) hg hr']
      rw [if_neg he, ignore_block (hrs.block r (by simp)) hg hr']
      rfl

/-- Later searches: they find the next record of the satellite, or report the end of the file. -/
theorem gloNext_run {W : TabWorld} {prn : Int} : ∀ (rs : List NavItem) (n : Nat) (f : NavFrame) (s : Stream),
    NavFileOK W.navDate rs → f.data.length = 31 → s.good = true → s.rest = fileText rs → rs.length < n →
    ((∀ r ∈ rs, ¬ r.Of .glonass prn) ∧ gloNext W prn n f s 0 = .ok (.inl (-1))) ∨
    ∃ pre q post g s', rs = pre ++ q :: post ∧ (∀ r ∈ pre, ¬ r.Of .glonass prn) ∧ q.Of .glonass prn ∧
      gloNext W prn n f s 0 = .ok (.inr (g, s', 0)) ∧ Carries g q ∧ s'.good = true ∧ s'.rest = fileText post := by
  intro rs
  induction rs with
  | nil =>
    intro n f s _ _ hg hr hn
    obtain ⟨m, rfl⟩ : ∃ m, n = m + 1 := ⟨n - 1, by simp at hn; omega⟩
    refine Or.inl ⟨by simp, ?_⟩
    have hr' : s.rest = [] := by simpa [fileText] using hr
    unfold gloNext
    simp only [(C55_peek s hg).1 hr', C55_skip_eof s hg hr']
    rw [if_neg (by decide), if_pos (by decide)]
  | cons r rs ih =>
    intro n f s hrs hl hg hr hn
    obtain ⟨n, rfl⟩ : ∃ m, n = m + 1 := ⟨n - 1, by omega⟩
    have hrs' : NavFileOK W.navDate rs := ⟨fun x h => hrs.handled x (by simp [h]), fun x h => hrs.block x (by simp [h])⟩
    have hr' : s.rest = linesText r.lines ++ fileText rs := by rw [hr, fileText_cons]; rfl
    have hadv : (s.adv r.text.length).rest = fileText rs := Stream.adv_rest_append hr'
    have fin : ¬ r.Of .glonass prn → ∀ g : NavFrame, g.data.length = 31 →
        gloNext W prn (n + 1) f s 0 = gloNext W prn n g (s.adv r.text.length) 0 →
        ((∀ x ∈ r :: rs, ¬ x.Of .glonass prn) ∧ gloNext W prn (n + 1) f s 0 = .ok (.inl (-1))) ∨
        ∃ pre q post g s', r :: rs = pre ++ q :: post ∧ (∀ r ∈ pre, ¬ r.Of .glonass prn) ∧ q.Of .glonass prn ∧
          gloNext W prn (n + 1) f s 0 = .ok (.inr (g, s', 0)) ∧ Carries g q ∧ s'.good = true ∧ s'.rest = fileText post := by
      intro ha g hgl heq
      rw [heq]
      rcases ih n g (s.adv r.text.length) hrs' hgl hg hadv (by simp at hn; omega) with ⟨h1, h2⟩ | ⟨pre, q, post, k, s', h1, h2, h3, h4⟩
      · refine Or.inl ⟨?_, h2⟩
        intro x hx
        rcases List.mem_cons.1 hx with rfl | hx
        · exact ha
        · exact h1 x hx
      · refine Or.inr ⟨r :: pre, q, post, k, s', by rw [h1]; rfl, ?_, h3, h4⟩
        intro x hx
        rcases List.mem_cons.1 hx with rfl | hx
        · exact ha
        · exact h2 x hx
    by_cases he : r.sys = .glonass
    · have hwf := (hrs.handled r (by simp) (by rw [he]; simp [Handled])).toWF
      obtain ⟨g, hg1, hg2, _⟩ := C17_record W.navDate (W.navJunk s.pos) f s r (fileText rs) hwf hg hr' hl
      have hstep : gloNext W prn (n + 1) f s 0 =
          if g.prn = prn then .ok (.inr (g, s.adv r.text.length, 0)) else gloNext W prn n g (s.adv r.text.length) 0 := by
        rw [gloNext]
        simp only [peakSatsys_block (hrs.block r (by simp)) hg hr']
        rw [if_pos he, hg1, Res.bind_ok]
        simp only [ne_eq, not_true_eq_false, if_false, Res.pure_eq]
      by_cases hprn : r.prn = prn
      · exact Or.inr ⟨[], r, rs, g, s.adv r.text.length, rfl, by simp, ⟨he, hprn⟩, by rw [hstep, if_pos (by rw [hg2.prn]; exact hprn)], hg2, hg, hadv⟩
      · refine fin (fun h => hprn h.2) g hg2.len ?_
        rw [hstep, if_neg (by rw [hg2.prn]; exact hprn)]
    · refine fin (fun h => he h.1) f hl ?_
      rw [gloNext]
      simp only [peakSatsys_block (hrs.block r (by simp)) hg hr']
      rw [if_neg he, ignore_block (hrs.block r (by simp)) hg hr']
      rfl

/-! ## The listing -/

theorem NavItem.Past.mono {r : NavItem} {t t' : Int} (h : r.Past t) (hle : t ≤ t') : r.Past t' := by
  obtain ⟨toe, h1, h2⟩ := h
  exact ⟨toe, h1, by omega⟩

theorem OnGrid.le {t0 t : Int} {K : Nat} (h : OnGrid t0 K t) : t0 ≤ t := by
  obtain ⟨k, _, rfl⟩ := h; omega

theorem OnGrid.shift {t0 t : Int} {K : Nat} (h : OnGrid (t0 + 60001) K t) : OnGrid t0 (K + 1) t := by
  obtain ⟨k, hk, rfl⟩ := h
  exact ⟨k + 1, by omega, by push_cast; ring⟩

theorem OnGrid.cases {t0 t : Int} {K : Nat} (h : OnGrid t0 (K + 1) t) : t = t0 ∨ OnGrid (t0 + 60001) K t := by
  obtain ⟨k, hk, rfl⟩ := h
  cases k with
  | zero => left; simp
  | succ k => right; exact ⟨k, by omega, by push_cast; ring⟩

theorem firstNotPast_head {q q' : NavItem} {ms : List NavItem} {t : Int} (hq : ¬ q.Past t) (h : FirstNotPast (q :: ms) t q') : q' = q := by
  obtain ⟨a, b, h1, h2, h3⟩ := h
  cases a with
  | nil => simp at h1; exact h1.1.symm
  | cons x a => simp at h1; exact absurd (h1.1 ▸ h2 x (by simp)) hq

theorem ListsNear.none {ms : List NavItem} {t : Int} : ListsNear ms t 0 [] :=
  ⟨.nil, by simp, fun t' _ h => by obtain ⟨k, hk, _⟩ := h; omega⟩

theorem ListsNear.cons {q : NavItem} {ms : List NavItem} {t : Int} {K : Nat} {ls : List TabRow} (hq : ¬ q.Past t) (hn : q.Near t) {p : Fin 3 → ℝ} {c : ℝ}
    (hs : GloSays q t p c) (h : ListsNear (q :: ms) (t + 60001) K ls) : ListsNear (q :: ms) t (K + 1) ((t, p, c) :: ls) where
  order := List.pairwise_cons.2 ⟨fun l hl => by have := (h.line l hl).1.le; show t < l.1; omega, h.order⟩
  line := by
    intro l hl
    rcases List.mem_cons.1 hl with rfl | hl
    · exact ⟨⟨0, by omega, by simp⟩, q, ⟨[], ms, rfl, by simp, hq⟩, hn, hs⟩
    · exact ⟨(h.line l hl).1.shift, (h.line l hl).2⟩
  complete := by
    intro t' q' ht h1 h2
    rcases ht.cases with rfl | ht
    · exact ⟨(t', p, c), List.mem_cons_self, rfl⟩
    · obtain ⟨l, hl, e⟩ := h.complete t' q' ht h1 h2
      exact ⟨l, by simp [hl], e⟩

theorem ListsNear.skip {q : NavItem} {ms : List NavItem} {t : Int} {K : Nat} {ls : List TabRow} (hq : ¬ q.Past t) (hn : ¬ q.Near t)
    (h : ListsNear (q :: ms) (t + 60001) K ls) : ListsNear (q :: ms) t (K + 1) ls where
  order := h.order
  line := fun l hl => ⟨(h.line l hl).1.shift, (h.line l hl).2⟩
  complete := by
    intro t' q' ht h1 h2
    rcases ht.cases with rfl | ht
    · exact absurd (firstNotPast_head hq h1 ▸ h2) hn
    · exact h.complete t' q' ht h1 h2

theorem ListsNear.past {q : NavItem} {ms : List NavItem} {t : Int} {K : Nat} {ls : List TabRow} (hq : q.Past t) (h : ListsNear ms t K ls) :
    ListsNear (q :: ms) t K ls where
  order := h.order
  line := by
    intro l hl
    obtain ⟨h1, q', ⟨a, b, e1, e2, e3⟩, h2⟩ := h.line l hl
    refine ⟨h1, q', ⟨q :: a, b, by rw [e1]; rfl, ?_, e3⟩, h2⟩
    intro x hx
    rcases List.mem_cons.1 hx with rfl | hx
    · exact hq.mono h1.le
    · exact e2 x hx
  complete := by
    intro t' q' ht h1 h2
    refine h.complete t' q' ht ?_ h2
    obtain ⟨a, b, e1, e2, e3⟩ := h1
    cases a with
    | nil =>
      simp at e1
      exact absurd (hq.mono ht.le) (e1.1 ▸ e3)
    | cons x a =>
      simp at e1
      exact ⟨a, b, e1.2, fun y hy => e2 y (by simp [hy]), e3⟩

theorem gloList_run {W : TabWorld} {prn limit : Int} (hfu : 720 < W.fuel) : ∀ (left : Nat) (rs : List NavItem) (q : NavItem) (f : NavFrame) (s : Stream) (t : Int)
    (o : StateClock), NavFileOK W.navDate rs → rs.length < W.fuel → q.Of .glonass prn → q.WF W.navDate → Carries f q → s.good = true → s.rest = fileText rs →
    t + 60001 * (left : Int) ≤ limit →
    ∃ c lines K, gloList W prn limit left f s 0 t o = .ok (c, lines) ∧ ListsNear (q :: messagesOf .glonass prn rs) t K (lines.map TabLine.row) ∧
      (∀ l ∈ lines, ∃ r ∈ q :: messagesOf .glonass prn rs, Carries l.msg r) ∧
      ((c = 0 ∧ ∃ m, K + m = left ∧ m ≤ (messagesOf .glonass prn rs).length ∧ ∀ r ∈ (q :: messagesOf .glonass prn rs).take m, r.Past (t + 60001 * (K : Int))) ∨
       (c = 5 ∧ K + (messagesOf .glonass prn rs).length + 1 ≤ left ∧ ∀ r ∈ q :: messagesOf .glonass prn rs, r.Past (t + 60001 * (K : Int)))) := by
  intro left
  induction left with
  | zero =>
    intro rs q f s t o _ _ _ _ _ _ _ _
    exact ⟨0, [], 0, rfl, .none, by simp, Or.inl ⟨rfl, 0, rfl, by omega, by simp⟩⟩
  | succ n ih =>
    intro rs q f s t o hrs hlen hof hwf hc hg hr hlim
    have hlim' : t + 60001 + 60001 * (n : Int) ≤ limit := by push_cast at hlim; omega
    have hgs : q.sys = .glonass := hof.1
    obtain ⟨toe, htoe⟩ := hwf.toe
    have hft := hc.toe (by rw [hgs]; simp [Handled]) toe htoe
    have hpast : q.Past t ↔ 1000 * toe + 900000 ≤ t := by
      constructor
      · rintro ⟨x, hx, h⟩; rw [glo_toe_unique hgs htoe hx]; exact h
      · intro h; exact ⟨toe, htoe, h⟩
    have hnear : q.Near t ↔ |1000 * toe - t| < 900000 := by
      constructor
      · rintro ⟨x, hx, h⟩; rw [glo_toe_unique hgs htoe hx]; exact h
      · intro h; exact ⟨toe, htoe, h⟩
    rw [gloList]
    simp only
    rw [if_pos (by push_cast at hlim; omega), hft]
    by_cases hn : |1000 * toe - t| < 900000
    · rw [if_pos hn]
      obtain ⟨c, h1, h2, h3⟩ := glo_near_says hc hgs htoe hn hfu o
      rw [h1, Res.bind_ok]
      simp only [h2, ne_eq, not_true_eq_false, if_false]
      obtain ⟨x, lines, K, e1, e2, e3, e4⟩ := ih rs q f s (t + 60001) c hrs hlen hof hwf hc hg hr hlim'
      rw [e1, Res.bind_ok]
      have hnp : ¬ q.Past t := by rw [hpast]; rw [abs_lt] at hn; omega
      refine ⟨x, _, K + 1, rfl, ?_, ?_, ?_⟩
      · exact e2.cons hnp (hnear.2 hn) h3
      · intro l hl
        rcases List.mem_cons.1 hl with rfl | hl
        · exact ⟨q, by simp, hc⟩
        · exact e3 l hl
      · have ht : t + 60001 + 60001 * (K : Int) = t + 60001 * ((K + 1 : Nat) : Int) := by push_cast; ring
        rw [ht] at e4
        rcases e4 with ⟨a, m, b, d⟩ | ⟨a, b, d⟩
        · exact Or.inl ⟨a, m, by omega, d⟩
        · exact Or.inr ⟨a, by omega, d⟩
    · rw [if_neg hn]
      by_cases hp : 1000 * toe - t ≤ -900000
      · rw [if_pos hp]
        have hq : q.Past t := hpast.2 (by omega)
        rcases gloNext_run (W := W) (prn := prn) rs W.fuel f s hrs hc.len hg hr hlen with ⟨k1, k2⟩ | ⟨pre, q', post, g, s', k1, k2, k3, k4, k5, k6, k7⟩
        · rw [k2, Res.bind_ok]
          have hnil : messagesOf .glonass prn rs = [] := by
            rw [List.eq_nil_iff_forall_not_mem]
            intro x hx
            exact k1 x (messagesOf_mem.1 hx).1 (messagesOf_mem.1 hx).2
          rw [hnil]
          refine ⟨5, [], 0, rfl, .none, by simp, Or.inr ⟨rfl, by simp, ?_⟩⟩
          intro r hr
          simp at hr; subst hr
          simpa using hq
        · rw [k4, Res.bind_ok]
          simp only
          have hpre : messagesOf .glonass prn pre = [] := by
            rw [List.eq_nil_iff_forall_not_mem]
            intro x hx
            exact k2 x (messagesOf_mem.1 hx).1 (messagesOf_mem.1 hx).2
          have hms : messagesOf .glonass prn rs = q' :: messagesOf .glonass prn post := by
            rw [k1, messagesOf_append, messagesOf_cons_of k3, hpre]; rfl
          have hpost : ∀ r ∈ post, r ∈ rs := fun r hr => by rw [k1]; simp [hr]
          have hq'm : q' ∈ rs := by rw [k1]; simp
          obtain ⟨x, lines, K, e1, e2, e3, e4⟩ := ih post q' g s' t o
            ⟨fun r h' => hrs.handled r (hpost r h'), fun r h' => hrs.block r (hpost r h')⟩ (by rw [k1] at hlen; simp at hlen; omega) k3
            (hrs.handled q' hq'm (by rw [k3.1]; simp [Handled])).toWF k5 k6 k7 (by omega)
          rw [e1, hms]
          refine ⟨x, lines, K, rfl, e2.past hq, ?_, ?_⟩
          · intro l hl
            obtain ⟨r, h1, h2⟩ := e3 l hl
            exact ⟨r, by simp at h1 ⊢; tauto, h2⟩
          · have hqK : q.Past (t + 60001 * (K : Int)) := hq.mono (by omega)
            rcases e4 with ⟨a, m, b, d1, d2⟩ | ⟨a, b, d⟩
            · refine Or.inl ⟨a, m + 1, by omega, by simp; omega, ?_⟩
              intro r hr
              rw [List.take_succ_cons] at hr
              rcases List.mem_cons.1 hr with rfl | hr
              · exact hqK
              · exact d2 r hr
            · refine Or.inr ⟨a, by simp; omega, ?_⟩
              intro r hr
              rcases List.mem_cons.1 hr with rfl | hr
              · exact hqK
              · exact d r hr
      · rw [if_neg hp]
        obtain ⟨x, lines, K, e1, e2, e3, e4⟩ := ih rs q f s (t + 60001) o hrs hlen hof hwf hc hg hr hlim'
        rw [e1]
        refine ⟨x, lines, K + 1, rfl, e2.skip (by rw [hpast]; omega) (by rw [hnear]; exact hn), e3, ?_⟩
        have ht : t + 60001 + 60001 * (K : Int) = t + 60001 * ((K + 1 : Nat) : Int) := by push_cast; ring
        rw [ht] at e4
        rcases e4 with ⟨a, m, b, d⟩ | ⟨a, b, d⟩
        · exact Or.inl ⟨a, m, by omega, d⟩
        · exact Or.inr ⟨a, by omega, d⟩

/-- The start of the run: reading through the file and going back. -/
theorem gloListMain_start {W : TabWorld} {a0 name : List Char} {more : List (List Char)} {prn : Int} {rs : List NavItem}
    (h : ListCase W .R name more prn rs) (o : StateClock) :
    ∃ f s, f.data.length = 31 ∧ s.good = true ∧ s.rest = fileText rs ∧
      gloListMain W o (a0 :: name :: more) = Res.noexcept (do
        match ← gloFirst W prn W.fuel f s 0 with
        | .inl c => pure (c, [])
        | .inr (f, s, errno) =>
            gloList W prn (1000 * f.toc.total + 86400000) 1499 f s errno (1000 * f.toc.total - 10800000) o) := by
  obtain ⟨nh, n1, n2⟩ := h.file
  obtain ⟨nav, r, e, h1, _, _, _, h5, h6, h7, h8, h9⟩ := C91_nav_one_too_many W .R (a0 := a0) h.arg h.fresh n1 h.ne h.wf h.gps (by have := h.fuel; omega) n2
  refine ⟨r.frame, navRewind e r.strm none, h6, h8, h9, ?_⟩
  unfold gloListMain
  rw [h1, Res.bind_ok]
  simp only [h7, h5]
  rfl

/-- **C93** (what the listing of a GLONASS satellite is).  For every file of well formed records with at least one message of the satellite
(`q` the first, `ms` the others, in file order): the program runs over the epochs every 60.001 s from three hours before the
time of clock of the first message on, and prints a line for exactly those at which the first message that is not past is less than 15 minutes away; the
line is what that message says.  It ends with 5 when all messages are past, or with 0 when `K` epochs and `m` messages, 1499 together,
have been used up. -/
theorem C93_listing {W : TabWorld} {a0 name : List Char} {more : List (List Char)} {prn : Int} {rs : List NavItem}
    (h : ListCase W .R name more prn rs) {q : NavItem} {ms : List NavItem} (hms : messagesOf .glonass prn rs = q :: ms) (hfu : 720 < W.fuel) (o : StateClock) :
    ∃ c lines K, gloListMain W o (a0 :: name :: more) = .ok (c, lines) ∧
      ListsNear (q :: ms) (1000 * q.toc.total - 10800000) K (lines.map TabLine.row) ∧
      (∀ l ∈ lines, ∃ r ∈ q :: ms, Carries l.msg r) ∧
      ((c = 0 ∧ ∃ m ≤ ms.length, K + m = 1499 ∧ ∀ r ∈ (q :: ms).take m, r.Past (1000 * q.toc.total - 10800000 + 60001 * (K : Int))) ∨
       (c = 5 ∧ K + (q :: ms).length ≤ 1499 ∧ ∀ r ∈ q :: ms, r.Past (1000 * q.toc.total - 10800000 + 60001 * (K : Int)))) := by
  obtain ⟨f, s, s1, s2, s3, s4⟩ := gloListMain_start (a0 := a0) h o
  rw [s4]
  have hf := h.fuel
  rcases gloFirst_run (W := W) (prn := prn) rs W.fuel f s h.ok s1 s2 s3 with ⟨g1, _⟩ | ⟨pre, q0, post, g1, g2, g3, g4⟩
  · have : q ∈ messagesOf .glonass prn rs := by rw [hms]; simp
    exact absurd (messagesOf_mem.1 this).2 (g1 q (messagesOf_mem.1 this).1)
  · have hpre : messagesOf .glonass prn pre = [] := by
      rw [List.eq_nil_iff_forall_not_mem]
      intro x hx
      exact g2 x (messagesOf_mem.1 hx).1 (messagesOf_mem.1 hx).2
    have hsplit : q0 :: messagesOf .glonass prn post = q :: ms := by
      rw [← hms, g1, messagesOf_append, messagesOf_cons_of g3, hpre]; rfl
    obtain ⟨rfl, rfl⟩ := List.cons.inj hsplit
    have hlen : rs.length = pre.length + post.length + 1 := by rw [g1]; simp; omega
    have hpost : ∀ r ∈ post, r ∈ rs := fun r hr => by rw [g1]; simp [hr]
    obtain ⟨g, s', k1, k2, k3, k4⟩ := g4 (by omega)
    rw [k1, Res.bind_ok]
    simp only
    obtain ⟨c, lines, K, e1, e2, e3, e4⟩ := gloList_run (W := W) (prn := prn) (limit := 1000 * q0.toc.total + 86400000) hfu 1499 post q0 g s'
      (1000 * q0.toc.total - 10800000) o ⟨fun r h' => h.ok.handled r (hpost r h'), fun r h' => h.ok.block r (hpost r h')⟩ (by omega) g3
      (h.wf q0 (by rw [g1]; simp)) k2 k3 k4 (by push_cast; omega)
    rw [k2.toc, e1]
    refine ⟨c, lines, K, rfl, e2, e3, ?_⟩
    rcases e4 with ⟨a, m, b, d1, d2⟩ | ⟨a, b, d⟩
    · exact Or.inl ⟨a, m, d1, b, d2⟩
    · exact Or.inr ⟨a, by rw [List.length_cons]; omega, d⟩

/-- **C93**: without a message of the satellite the program never ends. -/
theorem C93_hangs {W : TabWorld} {a0 name : List Char} {more : List (List Char)} {prn : Int} {rs : List NavItem}
    (h : ListCase W .R name more prn rs) (hnone : ∀ r ∈ rs, ¬ r.Of .glonass prn) (o : StateClock) :
    gloListMain W o (a0 :: name :: more) = .diverge := by
  obtain ⟨f, s, s1, s2, s3, s4⟩ := gloListMain_start (a0 := a0) h o
  rw [s4]
  rcases gloFirst_run (W := W) (prn := prn) rs W.fuel f s h.ok s1 s2 s3 with ⟨_, g2⟩ | ⟨pre, q0, post, g1, _, g3, _⟩
  · rw [g2]; rfl
  · exact absurd g3 (hnone q0 (by rw [g1]; simp))

/-- **C93** is violated: the listing never covers a day.  Every line is less than 21 hours and 59 minutes after the time of clock of the
first message, and when no message refers to an earlier time there are fewer than 1340 lines instead of the 1440 minutes of a day. -/
theorem C93_less_than_a_day {W : TabWorld} {a0 name : List Char} {more : List (List Char)} {prn : Int} {rs : List NavItem}
    (h : ListCase W .R name more prn rs) {q : NavItem} {ms : List NavItem} (hms : messagesOf .glonass prn rs = q :: ms) (hfu : 720 < W.fuel) (o : StateClock) :
    ∃ c lines, gloListMain W o (a0 :: name :: more) = .ok (c, lines) ∧ (∀ l ∈ lines, l.t < 1000 * (q.toc.total + 79140)) ∧
      ((∀ r ∈ q :: ms, ∀ toe, r.toeIs toe → q.toc.total ≤ toe) → lines.length < 1340) := by
  obtain ⟨c, lines, K, h1, h2, _, h4⟩ := C93_listing (a0 := a0) h hms hfu o
  have hK : K ≤ 1499 := by
    rcases h4 with ⟨_, m, _, b, _⟩ | ⟨_, b, _⟩ <;> omega
  refine ⟨c, lines, h1, ?_, ?_⟩
  · intro l hl
    obtain ⟨⟨k, hk, he⟩, _⟩ := h2.line l.row (List.mem_map.2 ⟨l, hl, rfl⟩)
    have he : l.t = 1000 * q.toc.total - 10800000 + 60001 * (k : Int) := he
    omega
  · intro hmin
    have hsub : ∀ l ∈ lines.map TabLine.row, l.1 ∈ (Finset.Ico 165 1499).image fun k : ℕ => 1000 * q.toc.total - 10800000 + 60001 * (k : Int) := by
      intro l hl
      obtain ⟨⟨k, hk, he⟩, r, ⟨a, b, r1, _⟩, ⟨toe, r2, r3⟩, _⟩ := h2.line l hl
      have := hmin r (by rw [r1]; simp) toe r2
      rw [abs_lt] at r3
      refine Finset.mem_image.2 ⟨k, Finset.mem_Ico.2 ⟨?_, by omega⟩, he.symm⟩
      omega
    have hnd : ((lines.map TabLine.row).map Prod.fst).Nodup := by
      rw [List.nodup_iff_pairwise_ne, List.pairwise_map]
      exact h2.order.imp (fun h => ne_of_lt h)
    have hcard := Finset.card_le_card (s := ((lines.map TabLine.row).map Prod.fst).toFinset)
      (t := (Finset.Ico 165 1499).image fun k : ℕ => 1000 * q.toc.total - 10800000 + 60001 * (k : Int)) (by
        intro x hx
        obtain ⟨l, hl, rfl⟩ := List.mem_map.1 (List.mem_toFinset.1 hx)
        exact hsub l hl)
    rw [List.toFinset_card_of_nodup hnd] at hcard
    have := le_trans hcard Finset.card_image_le
    simp at this
    omega

/-- **C93** is violated: the health of a message is not looked at.  Near the time of ephemeris of the first message there is a line at every epoch,
computed from that message, whatever its health word is. -/
theorem C93_health_ignored {W : TabWorld} {a0 name : List Char} {more : List (List Char)} {prn : Int} {rs : List NavItem}
    (h : ListCase W .R name more prn rs) {q : NavItem} {ms : List NavItem} (hms : messagesOf .glonass prn rs = q :: ms) (hfu : 720 < W.fuel) (o : StateClock)
    (hsick : ¬ q.HealthIs 0) {k : Nat} (hk : k < 1499) (hnear : q.Near (1000 * q.toc.total - 10800000 + 60001 * (k : Int))) :
    ∃ c lines, ∃ l ∈ lines, gloListMain W o (a0 :: name :: more) = .ok (c, lines) ∧ l.t = 1000 * q.toc.total - 10800000 + 60001 * (k : Int) ∧
      ¬ q.ValidAt l.t ∧ GloSays q l.t l.pos l.clock := by
  obtain ⟨c, lines, K, h1, h2, _, h4⟩ := C93_listing (a0 := a0) h hms hfu o
  have hqm := messagesOf_mem.1 (show q ∈ messagesOf .glonass prn rs by rw [hms]; simp)
  obtain ⟨toe, t1, t2⟩ := hnear
  rw [abs_lt] at t2
  have hnp : ¬ q.Past (1000 * q.toc.total - 10800000 + 60001 * (k : Int)) := by
    rintro ⟨x, x1, x2⟩
    rw [glo_toe_unique hqm.2.1 x1 t1] at x2
    omega
  have hkK : k < K := by
    by_contra hc
    have hp : ∀ x : Int, q.Past x → 1000 * q.toc.total - 10800000 + 60001 * (k : Int) < x := by
      intro x hx
      by_contra hcc
      exact hnp (hx.mono (by omega))
    rcases h4 with ⟨_, m, _, b, d⟩ | ⟨_, _, d⟩
    · cases m with
      | zero => omega
      | succ m =>
        have := hp _ (d q (by simp))
        omega
    · have := hp _ (d q (by simp))
      omega
  have hfirst : FirstNotPast (q :: ms) (1000 * q.toc.total - 10800000 + 60001 * (k : Int)) q := ⟨[], ms, rfl, by simp, hnp⟩
  obtain ⟨row, r1, r2⟩ := h2.complete _ q ⟨k, hkK, rfl⟩ hfirst ⟨toe, t1, by rw [abs_lt]; omega⟩
  obtain ⟨l, l1, rfl⟩ := List.mem_map.1 r1
  have r2 : l.t = _ := r2
  obtain ⟨_, q', g1, _, g3⟩ := h2.line _ r1
  have : q' = q := firstNotPast_head (by show ¬ q.Past l.t; rw [r2]; exact hnp) g1
  subst this
  exact ⟨c, lines, l, l1, h1, r2, fun hv => hsick hv.1, g3⟩

end Ggnss
