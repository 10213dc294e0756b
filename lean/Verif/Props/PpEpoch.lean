import Verif.Props.Pp
import Verif.Props.Kepler
import Verif.Props.Glonass
import Verif.Props.PpGeom
/-!
# C67: what the filter is given for an epoch
-/
namespace Ggnss
open NavItem

/-! ## Frames and records -/

theorem at_val {f : NavFrame} {r : NavItem} (hc : Carries f r) {j k : Nat} (hj : j < specLines r.sys) (hk : k < specCount r.sys j) :
    f.at j k = ((r.val j k : ℚ) : ℝ) := by
  unfold NavFrame.at
  rw [List.getD_eq_getElem?_getD, hc.data j hj k hk]; rfl

theorem elements_el {f : NavFrame} {r : NavItem} (hc : Carries f r) (hh : Handled r.sys) (hg : r.sys ≠ .glonass) : elements f = r.el := by
  have h8 : specLines r.sys = 8 := by rcases hh with h | h | h | h <;> simp_all [specLines]
  have key : ∀ j k, j < 8 → k < specCount r.sys j → f.at j k = ((r.val j k : ℚ) : ℝ) := fun j k hj hk => at_val hc (by omega) hk
  have h0 : specCount r.sys 0 = 3 := by simp [specCount]
  have h1 : ∀ j, j ≠ 0 → j ≠ 5 → j ≠ 7 → specCount r.sys j = 4 := by intro j a b c; simp [specCount, a, b, c]
  have h5 : 3 ≤ specCount r.sys 5 := by unfold specCount; simp; split <;> omega
  unfold elements NavItem.el
  rw [key 0 0 (by omega) (by omega), key 0 1 (by omega) (by omega), key 0 2 (by omega) (by omega),
    key 1 1 (by omega) (by rw [h1] <;> omega), key 1 2 (by omega) (by rw [h1] <;> omega), key 1 3 (by omega) (by rw [h1] <;> omega),
    key 2 0 (by omega) (by rw [h1] <;> omega), key 2 1 (by omega) (by rw [h1] <;> omega), key 2 2 (by omega) (by rw [h1] <;> omega),
    key 2 3 (by omega) (by rw [h1] <;> omega), key 3 0 (by omega) (by rw [h1] <;> omega), key 3 1 (by omega) (by rw [h1] <;> omega),
    key 3 2 (by omega) (by rw [h1] <;> omega), key 3 3 (by omega) (by rw [h1] <;> omega), key 4 0 (by omega) (by rw [h1] <;> omega),
    key 4 1 (by omega) (by rw [h1] <;> omega), key 4 2 (by omega) (by rw [h1] <;> omega), key 4 3 (by omega) (by rw [h1] <;> omega),
    key 5 0 (by omega) (by omega)]

theorem elapsed_secs (mjd ms : Int) (ref : DateTime) :
    elapsed ⟨mjd, (ms : ℝ) / 1000⟩ ref = secsSince (86400000 * mjd + ms) ref.total := by
  unfold elapsed Epoch.secs secsSince
  push_cast; ring

theorem glo_lines {f : NavFrame} {r : NavItem} (hc : Carries f r) (hg : r.sys = .glonass) (j k : Nat) (hj : j < 4) (hk : k < 3) :
    f.at j k = ((r.val j k : ℚ) : ℝ) := by
  refine at_val hc (by rw [hg]; simpa [specLines]) ?_
  have : 3 ≤ specCount r.sys j := by unfold specCount; split_ifs <;> simp_all
  omega

theorem gloFieldOf_item {f : NavFrame} {r : NavItem} (hc : Carries f r) (hg : r.sys = .glonass) : gloFieldOf f = r.gloField := by
  unfold gloFieldOf NavItem.gloField
  rw [glo_lines hc hg 1 2 (by omega) (by omega), glo_lines hc hg 2 2 (by omega) (by omega), glo_lines hc hg 3 2 (by omega) (by omega)]

theorem gloStart_item {f : NavFrame} {r : NavItem} (hc : Carries f r) (hg : r.sys = .glonass) : gloStart f = r.gloStart := by
  unfold Ggnss.gloStart NavItem.gloStart
  rw [glo_lines hc hg 1 0 (by omega) (by omega), glo_lines hc hg 2 0 (by omega) (by omega), glo_lines hc hg 3 0 (by omega) (by omega),
    glo_lines hc hg 1 1 (by omega) (by omega), glo_lines hc hg 2 1 (by omega) (by omega), glo_lines hc hg 3 1 (by omega) (by omega)]

/-- Kepler's equation for the clock is solved too. -/
theorem svClock_converges (k : KeplerConst) (f : NavFrame) (tSec c0 : ℝ) (h0 : 0 ≤ (elements f).e) (h1 : (elements f).e ≤ 0.95) :
    (svClock k f tSec none c0).1 = 0 := by
  have hk := C24_converges k f (tSec - f.tocSec + f.toeSec) ⟨0, 0, 0⟩ h0 h1
  unfold kepler2state at hk
  simp only [add_sub_cancel_right] at hk
  unfold svClock
  simp only
  split at hk
  · simp at hk
  · rename_i h; rw [if_neg h]

/-- C67, the state of one satellite: for a record in force, `stateNclock` gives what it broadcasts. -/
theorem stateNclock_broadcast {dateOf : List Char → Res DateTime} {f : NavFrame} {r : NavItem} (hc : Carries f r) (hr : r.WFV dateOf) {mjd ms : Int}
    (hv : r.ValidAt (86400000 * mjd + ms)) (he : r.sys ≠ .glonass → 0 ≤ r.el.e ∧ r.el.e ≤ 0.95) {fuel : Nat} (hfuel : 720 < fuel) (o : StateClock) :
    ∃ c, stateNclock f fuel ⟨mjd, (ms : ℝ) / 1000⟩ o = .ok c ∧ r.Broadcasts (86400000 * mjd + ms) (pos3 c.state) c.clock := by
  have hh := HealthIs.handled hv.1
  obtain ⟨toe, htoe⟩ := hr.toe
  have hft := hc.toe hh toe htoe
  by_cases hg : r.sys = .glonass
  · have hgf : f.sys = .glonass := by rw [hc.sys, hg]
    obtain ⟨_, fit, hfit, hw⟩ := hv
    rw [if_pos hg] at hw
    obtain ⟨toe', ht', hw1, hw2⟩ := hw
    have e2 : toe' = toe := by rw [← hc.toe hh toe' ht', hft]
    subst e2
    have hf900 : fit = 900 := by unfold FitIs at hfit; rw [hg] at hfit; exact hfit
    subst hf900
    have hel : elapsed ⟨mjd, (ms : ℝ) / 1000⟩ f.toe = secsSince (86400000 * mjd + ms) toe' := by rw [elapsed_secs, hft]
    have hle : |secsSince (86400000 * mjd + ms) toe'| ≤ 900 := by
      have a1 : (1000 * ((toe' : ℝ) - 900)) ≤ ((86400000 * mjd + ms : Int) : ℝ) := by exact_mod_cast hw1
      have a2 : ((86400000 * mjd + ms : Int) : ℝ) < 1000 * ((toe' : ℝ) + 900) := by exact_mod_cast hw2
      unfold secsSince
      rw [abs_le]; constructor <;> linarith
    obtain ⟨c, h1, _, h3⟩ := C28_window f fuel ⟨mjd, (ms : ℝ) / 1000⟩ o hfuel hgf
    rw [hel] at h3
    obtain ⟨h4, h5⟩ := h3 hle
    have hex := C22_toe_exact f ⟨mjd, (ms : ℝ) / 1000⟩
    rw [hel] at hex
    have hN : ⌈|secsSince (86400000 * mjd + ms) toe'| / 60⌉₊ ≤ 15 := by
      rw [Nat.ceil_le, div_le_iff₀ (by norm_num)]; push_cast; linarith
    have h6 := C27_integration f fuel (ref2toe f ⟨mjd, (ms : ℝ) / 1000⟩) o.state (by rw [hex]; linarith) (by rw [hex]; omega)
    rw [hex] at h6
    have hcs : c.state = (rk4 r.gloField (if 0 < secsSince (86400000 * mjd + ms) toe' then 60 else -60))^[⌈|secsSince (86400000 * mjd + ms) toe'| / 60⌉₊]
        r.gloStart := by
      unfold stateNclock at h1
      rw [hgf] at h1
      simp only at h1
      unfold gloStateNclock at h1
      rw [h6, if_neg (by linarith)] at h1
      simp only [Res.bind_ok, ne_eq, not_true_eq_false, if_false, Res.pure_eq, Res.ok.injEq] at h1
      rw [← h1]
      simp only
      rw [gloFieldOf_item hc hg, gloStart_item hc hg]
      have : (ref2toe f ⟨mjd, (ms : ℝ) / 1000⟩ > f.toeSec) ↔ 0 < secsSince (86400000 * mjd + ms) toe' := by
        rw [← hex]; constructor <;> intro h <;> linarith
      simp only [this]
    refine ⟨c, h1, Or.inl ⟨hg, toe', ht', ?_, ?_⟩⟩
    · intro i
      rw [← hcs]
      fin_cases i <;> rfl
    · rw [h5, glo_lines hc hg 0 0 (by omega) (by omega), glo_lines hc hg 0 1 (by omega) (by omega)]
  · obtain ⟨e0, e1⟩ := he hg
    have hel := elements_el hc hh hg
    obtain ⟨s1, s2, s3⟩ := C25_systems f fuel ⟨mjd, (ms : ℝ) / 1000⟩ o
    have hst : stateNclock f fuel ⟨mjd, (ms : ℝ) / 1000⟩ o = .ok (keplerStateNclock (specConst r.sys) f ⟨mjd, (ms : ℝ) / 1000⟩ o) := by
      rcases hh with h | h | h | h
      · rw [s1 (by rw [hc.sys, h]), h]; rfl
      · exact absurd h hg
      · rw [s2 (by rw [hc.sys, h]), h]; rfl
      · rw [s3 (by rw [hc.sys, h]), h]; rfl
    rw [hst]
    generalize hk : specConst r.sys = k
    have hconv := C24_converges k f (ref2toe f ⟨mjd, (ms : ℝ) / 1000⟩) ⟨0, ![o.state 0, o.state 1, o.state 2], 0⟩ (by rw [hel]; exact e0) (by rw [hel]; exact e1)
    have hcl := svClock_converges k f (ref2toc f ⟨mjd, (ms : ℝ) / 1000⟩) o.clock (by rw [hel]; exact e0) (by rw [hel]; exact e1)
    have hks : keplerStateNclock k f ⟨mjd, (ms : ℝ) / 1000⟩ o = ⟨(svClock k f (ref2toc f ⟨mjd, (ms : ℝ) / 1000⟩) none o.clock).1,
        putPos o.state (kepler2state k f (ref2toe f ⟨mjd, (ms : ℝ) / 1000⟩) ⟨0, ![o.state 0, o.state 1, o.state 2], 0⟩).state,
        (svClock k f (ref2toc f ⟨mjd, (ms : ℝ) / 1000⟩) none o.clock).2⟩ := by
      unfold keplerStateNclock
      simp only [hconv, ne_eq, not_true_eq_false, if_false]
    obtain ⟨E, v, p1, p2, p3⟩ := C25_stateNclock k f ⟨mjd, (ms : ℝ) / 1000⟩ o (by rw [hel]; exact e0) (by rw [hel]; linarith) (by rw [hks]; exact hcl)
    obtain ⟨E', q1, q2⟩ := (C26_clock_formula k f (ref2toc f ⟨mjd, (ms : ℝ) / 1000⟩) o.clock).2.1 hcl
    rw [C22_toc_exact, elapsed_secs, hel, hc.toc] at q1 q2
    rw [elapsed_secs, hft, hel] at p1
    rw [elapsed_secs, hft, hel] at p3
    rw [hel] at p2
    refine ⟨_, rfl, Or.inr ⟨hg, toe, E, v, E', htoe, by rw [hk]; exact p1, p2, ?_, by rw [hk]; exact q1, ?_⟩⟩
    · rw [p3, hk]
      funext i
      fin_cases i <;> rfl
    · rw [hks, hk]; exact q2

/-! ## The satellites of an epoch -/

/-- The navigation side of the program between two satellites: the file stands at its first record, no error is pending, the messages kept
are messages of the file. -/
structure NavReady (rs : List NavItem) (s : Stream) (st : PpNav) : Prop where
  strm : st.strm = s
  errno : st.errno = 0
  cache : CacheOK rs st.cache

/-- What the program needs around it: the file and enough steps for the loops. -/
structure NavEnv (E : PpEnv) (rs : List NavItem) (s : Stream) : Prop where
  good : s.good = true
  rest : s.rest = fileText rs
  fresh : E.fresh.data.length = 31
  file : NavFileOK E.strptime rs
  chrono : Chronological rs
  navFuel : rs.length < E.navFuel
  gloFuel : 720 < E.gloFuel

/-- The entries of the observation vector and the satellites with their first values. -/
def Shows (x : SatVals) (q : (SatSys × Int) × Rat) : Prop := x.1 = q.1 ∧ x.2.head? = some q.2

theorem missing_iff (v : Rat) : (v - MISSING > 1 / 1000 ∨ v - MISSING < -1 / 1000) ↔ 1 / 1000 < |v - missingMark| := by
  rw [lt_abs]
  unfold MISSING missingMark
  constructor
  · rintro (h | h)
    · exact Or.inl h
    · right; linarith
  · rintro (h | h)
    · exact Or.inl h
    · right; linarith

open Classical in
/-- One satellite. -/
theorem ppSat_any {E : PpEnv} {rs : List NavItem} {s : Stream} (hE : NavEnv E rs s) {mjd ms : Int} {x : SatVals} {q : (SatSys × Int) × Rat}
    (hx : Shows x q) (hq : Handled q.1.1) (hvis : Visible rs E.site (86400000 * mjd + ms) [q]) {st : PpNav} (hst : NavReady rs s st)
    {rows : List PpRow} (hrows : rows.length ≤ 30) :
    (∃ st' new, ppSat E (86400000 * mjd + ms) ⟨mjd, (ms : ℝ) / 1000⟩ x st rows = .ok (st', rows ++ new) ∧ NavReady rs s st' ∧ new.length ≤ 1 ∧
      (rows ++ new).length ≤ 30 ∧
      ∀ xs rows', RowsOf rs E.site (86400000 * mjd + ms) xs rows' → RowsOf rs E.site (86400000 * mjd + ms) (q :: xs) (new ++ rows')) ∨
    (ppSat E (86400000 * mjd + ms) ⟨mjd, (ms : ℝ) / 1000⟩ x st rows = .ub ∧ rows.length = 30 ∧ ∃ row,
      ∀ xs rows', RowsOf rs E.site (86400000 * mjd + ms) xs rows' → RowsOf rs E.site (86400000 * mjd + ms) (q :: xs) (row :: rows')) := by
  obtain ⟨⟨sys, prn⟩, vals⟩ := x
  obtain ⟨⟨sys', prn'⟩, v⟩ := q
  obtain ⟨hx1, hx2⟩ := hx
  simp only [Prod.mk.injEq] at hx1
  obtain ⟨rfl, rfl⟩ := hx1
  cases vals with
  | nil => simp at hx2
  | cons w vals =>
    simp only [List.head?_cons, Option.some.injEq] at hx2
    subst hx2
    unfold ppSat
    simp only
    by_cases hm : w - MISSING > 1 / 1000 ∨ w - MISSING < -1 / 1000
    · rw [if_pos hm]
      have hm' := (missing_iff w).1 hm
      obtain ⟨o, h1, h2, h3, h4, h5⟩ := getValidMsg_spec E.junk E.navFuel E.endOfHead E.fresh prn (86400000 * mjd + ms) (cache := st.cache) hq
        hE.good hE.rest hE.fresh hE.file hE.navFuel hst.cache
      rw [hst.strm, hst.errno, h1, Res.bind_ok]
      rcases h5 with ⟨h5, f, r, h6, hr, ho, hv, hca⟩ | ⟨h5, _, hn⟩
      · simp only at h5 h6 ho hv
        rw [if_pos h5, h6]
        simp only
        have hne : ¬ (f.sys ≠ sys ∨ f.prn ≠ prn) := by
          have e1 : f.sys = sys := hca.sys.trans ho.1
          have e2 : f.prn = prn := hca.prn.trans ho.2
          rw [e1, e2]; simp
        rw [if_neg hne]
        have hwf := hE.file.handled r hr (by rw [ho.1]; exact hq)
        obtain ⟨hecc, hhor⟩ := hvis ((sys, prn), w) (List.mem_singleton.2 rfl) hm' r hr ho hv
        obtain ⟨c, hc1, hc2⟩ := stateNclock_broadcast hca hwf hv hecc hE.gloFuel ⟨0, st.state, st.clock⟩
        rw [hc1, Res.bind_ok]
        have hz := (C65_zenith E.site (pos3 c.state)).1
        have hle := hhor _ _ _ hc2 hz
        have hsv : svZenAngle E.site (pos3 c.state) = some (ppZenith E.site (pos3 c.state) * 180 / Real.pi) := by
          unfold svZenAngle
          simp only
          rw [if_neg]
          rintro (h | h)
          · linarith [hz.1]
          · linarith
        rw [hsv]
        simp only
        have hdeg : ppZenith E.site (pos3 c.state) * 180 / Real.pi < 80 ↔ ppZenith E.site (pos3 c.state) < deg 80 := by
          unfold deg
          rw [div_lt_iff₀ Real.pi_pos, lt_div_iff₀ (by norm_num)]
        have hat : SatAt rs (sys, prn) (86400000 * mjd + ms) (pos3 c.state) c.clock := ⟨r, hr, ho, hv, hc2⟩
        by_cases h80 : ppZenith E.site (pos3 c.state) * 180 / Real.pi < 80
        · rw [if_pos h80]
          by_cases hmax : rows.length < MAX_SATS
          · left
            rw [if_pos hmax]
            refine ⟨_, [⟨(w : ℝ), pos3 c.state, c.clock⟩], rfl, ⟨h2, h3, h4⟩, by simp, by unfold MAX_SATS at hmax; simp; omega, ?_⟩
            intro xs rows' h
            exact .used hm' hat hz (hdeg.1 h80) h
          · right
            rw [if_neg hmax]
            refine ⟨rfl, by unfold MAX_SATS at hmax; omega, ⟨(w : ℝ), pos3 c.state, c.clock⟩, ?_⟩
            intro xs rows' h
            exact .used hm' hat hz (hdeg.1 h80) h
        · left
          rw [if_neg h80]
          refine ⟨_, [], by simp only [List.append_nil]; rfl, ⟨h2, h3, h4⟩, by simp, by simpa using hrows, ?_⟩
          intro xs rows' h
          exact .low hm' hat hz (not_lt.1 fun hh => h80 (hdeg.2 hh)) h
      · simp only at h5 hn
        rw [if_neg (by rw [h5]; decide)]
        left
        refine ⟨_, [], by simp only [List.append_nil]; rfl, ⟨h2, h3, h4⟩, by simp, by simpa using hrows, ?_⟩
        intro xs rows' h
        exact .unknown hm' ((noneBefore_chronological hE.chrono).1 hn) h
    · rw [if_neg hm]
      left
      refine ⟨st, [], by simp, hst, by simp, by simpa using hrows, ?_⟩
      intro xs rows' h
      exact .missing (not_lt.1 fun hh => hm ((missing_iff w).2 hh)) h

/-- One satellite, with room left. -/
theorem ppSat_spec {E : PpEnv} {rs : List NavItem} {s : Stream} (hE : NavEnv E rs s) {mjd ms : Int} {x : SatVals} {q : (SatSys × Int) × Rat}
    (hx : Shows x q) (hq : Handled q.1.1) (hvis : Visible rs E.site (86400000 * mjd + ms) [q]) {st : PpNav} (hst : NavReady rs s st)
    {rows : List PpRow} (hrows : rows.length < MAX_SATS) :
    ∃ st' new, ppSat E (86400000 * mjd + ms) ⟨mjd, (ms : ℝ) / 1000⟩ x st rows = .ok (st', rows ++ new) ∧ NavReady rs s st' ∧ new.length ≤ 1 ∧
      ∀ xs rows', RowsOf rs E.site (86400000 * mjd + ms) xs rows' → RowsOf rs E.site (86400000 * mjd + ms) (q :: xs) (new ++ rows') := by
  unfold MAX_SATS at hrows
  rcases ppSat_any hE hx hq hvis hst (rows := rows) (by omega) with ⟨st', new, h1, h2, h3, _, h5⟩ | ⟨_, h, _⟩
  · exact ⟨st', new, h1, h2, h3, h5⟩
  · omega

/-- **C67**: for every epoch (`mjd`, `ms` milliseconds of day) and every state the search for messages may have left behind, the
filter is given exactly the satellites that have a value, a message in force and more than 10 degrees elevation, in the order of the file,
each with its value and with the position and clock its message broadcasts. -/
theorem C67_rows_partial {E : PpEnv} {rs : List NavItem} {s : Stream} (hE : NavEnv E rs s) {mjd ms : Int} : ∀ {xs : List SatVals}
    {qs : List ((SatSys × Int) × Rat)}, List.Forall₂ Shows xs qs → (∀ q ∈ qs, Handled q.1.1) → Visible rs E.site (86400000 * mjd + ms) qs →
    ∀ {st : PpNav}, NavReady rs s st → ∀ {rows : List PpRow}, rows.length + xs.length ≤ 30 →
    ∃ st' new, ppSats E (86400000 * mjd + ms) ⟨mjd, (ms : ℝ) / 1000⟩ xs st rows = .ok (st', rows ++ new) ∧ NavReady rs s st' ∧
      new.length ≤ xs.length ∧ RowsOf rs E.site (86400000 * mjd + ms) qs new := by
  intro xs qs h
  induction h with
  | nil => intro _ _ st hst rows _; exact ⟨st, [], by simp [ppSats], hst, by simp, .nil⟩
  | @cons x q xs qs hx _ ih =>
    intro hq hvis st hst rows hlen
    simp only [List.length_cons] at hlen
    obtain ⟨st1, new1, h1, h2, h3, h4⟩ := ppSat_spec hE (mjd := mjd) (ms := ms) hx (hq q (by simp))
      (fun y hy => hvis y (by simp at hy; simp [hy])) hst (rows := rows) (by unfold MAX_SATS; omega)
    obtain ⟨st2, new2, g1, g2, g3, g4⟩ := ih (fun y hy => hq y (by simp [hy])) (fun y hy => hvis y (by simp [hy])) h2 (rows := rows ++ new1)
      (by simp; omega)
    refine ⟨st2, new1 ++ new2, ?_, g2, by simp; omega, h4 qs new2 g4⟩
    unfold ppSats
    rw [h1, Res.bind_ok, g1, List.append_assoc]

/-- For every epoch there are rows. -/
theorem rowsOf_exists {E : PpEnv} {rs : List NavItem} {s : Stream} (hE : NavEnv E rs s) {mjd ms : Int} {st : PpNav} (hst : NavReady rs s st) :
    ∀ {qs : List ((SatSys × Int) × Rat)}, (∀ q ∈ qs, Handled q.1.1) → Visible rs E.site (86400000 * mjd + ms) qs →
    ∃ rows, RowsOf rs E.site (86400000 * mjd + ms) qs rows := by
  intro qs
  induction qs with
  | nil => intro _ _; exact ⟨[], .nil⟩
  | cons q qs ih =>
    intro hq hvis
    obtain ⟨rows, hr⟩ := ih (fun y hy => hq y (by simp [hy])) (fun y hy => hvis y (by simp [hy]))
    obtain ⟨_, new, _, _, _, h4⟩ := ppSat_spec hE (mjd := mjd) (ms := ms) (x := (q.1, [q.2])) ⟨rfl, rfl⟩ (hq q (by simp))
      (fun y hy => hvis y (by simp at hy; simp [hy])) hst (rows := []) (by simp [MAX_SATS])
    exact ⟨_, h4 qs rows hr⟩

/-- **C67** is false for epochs with more than 30 usable satellites: the arrays are written past their end.  Without a limit on the
number of satellites the loop either gives the rows of the epoch, 30 at most, or its behaviour is undefined and the epoch has
more than 30 rows. -/
theorem C67_overflow {E : PpEnv} {rs : List NavItem} {s : Stream} (hE : NavEnv E rs s) {mjd ms : Int} : ∀ {xs : List SatVals}
    {qs : List ((SatSys × Int) × Rat)}, List.Forall₂ Shows xs qs → (∀ q ∈ qs, Handled q.1.1) → Visible rs E.site (86400000 * mjd + ms) qs →
    ∀ {st : PpNav}, NavReady rs s st → ∀ {rows : List PpRow}, rows.length ≤ 30 →
    (∃ st' new, ppSats E (86400000 * mjd + ms) ⟨mjd, (ms : ℝ) / 1000⟩ xs st rows = .ok (st', rows ++ new) ∧ NavReady rs s st' ∧
      rows.length + new.length ≤ 30 ∧ RowsOf rs E.site (86400000 * mjd + ms) qs new) ∨
    (ppSats E (86400000 * mjd + ms) ⟨mjd, (ms : ℝ) / 1000⟩ xs st rows = .ub ∧
      ∃ new, RowsOf rs E.site (86400000 * mjd + ms) qs new ∧ 30 < rows.length + new.length) := by
  intro xs qs h
  induction h with
  | nil => intro _ _ st hst rows hl; exact Or.inl ⟨st, [], by simp [ppSats], hst, by simpa using hl, .nil⟩
  | @cons x q xs qs hx _ ih =>
    intro hq hvis st hst rows hlen
    have hq' : ∀ y ∈ qs, Handled y.1.1 := fun y hy => hq y (by simp [hy])
    have hvis' : Visible rs E.site (86400000 * mjd + ms) qs := fun y hy => hvis y (by simp [hy])
    rcases ppSat_any hE (mjd := mjd) (ms := ms) hx (hq q (by simp)) (fun y hy => hvis y (by simp at hy; simp [hy])) hst hlen with
      ⟨st1, new1, h1, h2, _, h4, h5⟩ | ⟨h1, h2, row, h3⟩
    · rcases ih hq' hvis' h2 (rows := rows ++ new1) h4 with ⟨st2, new2, g1, g2, g3, g4⟩ | ⟨g1, new2, g2, g3⟩
      · left
        refine ⟨st2, new1 ++ new2, ?_, g2, by simp at g3; simp; omega, h5 qs new2 g4⟩
        unfold ppSats
        rw [h1, Res.bind_ok, g1, List.append_assoc]
      · right
        refine ⟨?_, new1 ++ new2, h5 qs new2 g2, by simp at g3; simp; omega⟩
        unfold ppSats
        rw [h1, Res.bind_ok, g1]
    · right
      obtain ⟨new2, hn⟩ := rowsOf_exists hE hst hq' hvis'
      refine ⟨?_, row :: new2, h3 qs new2 hn, by simp; omega⟩
      unfold ppSats
      rw [h1]; rfl

end Ggnss
