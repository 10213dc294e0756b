import Verif.Props.PpEpoch
import Verif.Props.ObsFile
import Verif.Props.Kalman
import Verif.Props.ObsMap
import Verif.Props.Sp3
/-!
# C68: the epoch loop of the positioning program
-/
namespace Ggnss
open NavItem

theorem truncRat_floor {q : Rat} (h : 0 ≤ q) : truncRat q = ⌊q⌋ := by
  have h0 : 0 ≤ q.num := Rat.num_nonneg.2 h
  unfold truncRat
  rw [Int.tdiv_eq_ediv_of_nonneg h0, Rat.floor_def']

theorem castLong_ms {sec : Rat} (h0 : 0 ≤ sec) (h1 : sec < 86400) : castLong (sec * 1000) = .ok ⌊sec * 1000⌋ := by
  rw [castLong_micros (by positivity) (by linarith), truncRat_floor (by positivity)]

theorem RowsOf.low_angles {rs : List NavItem} {site : PpSite} {t : Int} {qs : List ((SatSys × Int) × Rat)} {rows : List PpRow}
    (h : RowsOf rs site t qs rows) : ∀ r ∈ rows, ∃ z, IsZenith site r.pos z ∧ z < deg 80 := by
  induction h with
  | nil => simp
  | missing _ _ ih => exact ih
  | unknown _ _ _ ih => exact ih
  | low _ _ _ _ _ ih => exact ih
  | @used sat v xs rows p clk z _ _ hz h80 _ ih =>
    intro r hr
    rcases List.mem_cons.1 hr with rfl | hr
    · exact ⟨z, hz, h80⟩
    · exact ih r hr

/-- In the rows the program builds the computed angle is below 80 degrees. -/
def LowRows (site : PpSite) (rows : List PpRow) : Prop := ∀ r ∈ rows, ppZenith site r.pos < deg 80

theorem ppSat_lowRows {E : PpEnv} {t : Int} {ep : Epoch} {x : SatVals} {st st' : PpNav} {rows rows' : List PpRow}
    (h : ppSat E t ep x st rows = .ok (st', rows')) (hl : LowRows E.site rows) : LowRows E.site rows' := by
  unfold ppSat at h
  split at h
  · simp at h
  · split at h
    · rw [Res.bind_eq_ok] at h
      obtain ⟨o, _, h⟩ := h
      split at h
      · split at h
        · simp at h
        · split at h
          · simp at h
          · rw [Res.bind_eq_ok] at h
            obtain ⟨c, _, h⟩ := h
            split at h
            · simp at h
            · rename_i z hz
              split at h
              · rename_i h80
                split at h
                · simp only [Res.pure_eq, Res.ok.injEq, Prod.mk.injEq] at h
                  obtain ⟨_, rfl⟩ := h
                  intro r hr
                  rcases List.mem_append.1 hr with hr | hr
                  · exact hl r hr
                  · simp only [List.mem_singleton] at hr
                    subst hr
                    unfold svZenAngle at hz
                    simp only at hz
                    split at hz
                    · simp at hz
                    · cases hz
                      unfold deg
                      rwa [lt_div_iff₀ (by norm_num), ← div_lt_iff₀ Real.pi_pos]
                · simp at h
              · simp only [Res.pure_eq, Res.ok.injEq, Prod.mk.injEq] at h
                obtain ⟨_, rfl⟩ := h
                exact hl
      · simp only [Res.pure_eq, Res.ok.injEq, Prod.mk.injEq] at h
        obtain ⟨_, rfl⟩ := h
        exact hl
    · simp only [Res.pure_eq, Res.ok.injEq, Prod.mk.injEq] at h
      obtain ⟨_, rfl⟩ := h
      exact hl

theorem ppSats_lowRows {E : PpEnv} {t : Int} {ep : Epoch} : ∀ {xs : List SatVals} {st st' : PpNav} {rows rows' : List PpRow},
    ppSats E t ep xs st rows = .ok (st', rows') → LowRows E.site rows → LowRows E.site rows' := by
  intro xs
  induction xs with
  | nil => intro st st' rows rows' h hl; simp [ppSats] at h; rw [← h.2]; exact hl
  | cons x xs ih =>
    intro st st' rows rows' h hl
    unfold ppSats at h
    rw [Res.bind_eq_ok] at h
    obtain ⟨r, h1, h2⟩ := h
    exact ih h2 (ppSat_lowRows (st' := r.1) (rows' := r.2) h1 hl)

theorem deg80_lt : deg 80 < Real.pi / 2 := by unfold deg; linarith [Real.pi_pos]

/-- The update made from rows the mask let pass: never given up, exactly as specified. -/
theorem ppUpdate_spec {site : PpSite} (hh : -1000 ≤ site.hgt ∧ site.hgt ≤ 2500) {rows : List PpRow} (hne : rows ≠ []) (hl : LowRows site rows) (sec : Rat)
    (filter : Option Kalman) :
    ∃ u, ppUpdate site rows (sec : ℝ) filter = .ok (filter.bind fun k => kalUpdate k u, some u) ∧ IsUpdate site sec rows u := by
  refine ⟨ppInput site rows (sec : ℝ), ?_, ⟨rfl, ?_, ?_, rfl⟩⟩
  · unfold ppUpdate
    rw [if_neg (by simpa using hne), if_neg]
    rintro ⟨r, hr, h | h⟩
    · linarith [((C65_zenith site r.pos).1).1]
    · linarith [hl r hr, deg80_lt]
  · intro i
    refine ⟨rows.get i, ppZenith site (rows.get i).pos, ?_, (C65_zenith site _).1, ?_, rfl⟩
    · exact List.getElem?_eq_getElem i.isLt
    · have := C66_dry_partial site.hgt (ppZenith site (rows.get i).pos) hh.1 hh.2
      simp only [ppInput]
      rw [← abs_neg] at this
      refine le_of_eq_of_le ?_ this
      congr 1; ring
  · refine ⟨_, rfl, fun i => C66_weight _ ?_⟩
    have h1 := hl (rows.get i) (List.get_mem _ _)
    have h2 := ((C65_zenith site (rows.get i).pos).1).1
    exact (Real.cos_pos_of_mem_Ioo ⟨by linarith [Real.pi_pos], by linarith [deg80_lt]⟩).ne'

theorem shows_firstValues {ov ov' out : List SatVals} (hh : Holds ov ov' out) (hv : ∀ o ∈ out, o.2 ≠ []) :
    List.Forall₂ Shows (ov'.take out.length) (firstValues out) := by
  have hlen : out.length ≤ ov'.length := by
    by_contra hc
    push Not at hc
    obtain ⟨e, _, he⟩ := hh.slots ov'.length out[ov'.length] (List.getElem?_eq_getElem hc)
    simp at he
  rw [List.forall₂_iff_get]
  refine ⟨by simp [firstValues, hlen], ?_⟩
  intro i h1 h2
  have hi : i < out.length := by simpa [firstValues] using h2
  obtain ⟨e, _, he⟩ := hh.slots i out[i] (List.getElem?_eq_getElem hi)
  have hne := hv out[i] (List.getElem_mem hi)
  have e1 : (ov'.take out.length).get ⟨i, h1⟩ = (out[i].1, out[i].2 ++ e.2.drop out[i].2.length) := by
    have : (ov'.take out.length)[i]? = some (out[i].1, out[i].2 ++ e.2.drop out[i].2.length) := by
      rw [List.getElem?_take_of_lt hi, he]
    simpa using List.getElem_of_getElem? this |>.2
  have e2 : (firstValues out).get ⟨i, h2⟩ = (out[i].1, out[i].2.headD 0) := by simp [firstValues]
  rw [e1, e2]
  refine ⟨rfl, ?_⟩
  generalize out[i].2 = l at hne
  cases l with
  | nil => exact absurd rfl hne
  | cons a l => simp

/-- The variables of the loop, between two epochs. -/
structure LoopReady (E : PpEnv) (rs : List NavItem) (s : Stream) (m : PpMem) : Prop where
  nav : NavReady rs s m.nav
  room : Room E.mmap m.ov
  size : 30 ≤ m.ov.length
  buf : 1 ≤ m.buf.length
  good : m.obsStrm.good = true

/-- One epoch. -/
theorem ppEpoch_spec {E : PpEnv} {rs : List NavItem} {s : Stream} (hE : NavEnv E rs s) (hh : -1000 ≤ E.site.hgt ∧ E.site.hgt ≤ 2500) {m : PpMem}
    (hm : LoopReady E rs s m) {b : ObsEpochBlock} {h : EpochHead} {out : List SatVals} (hb : BlockSees E.mjdOf E.mmap m.buf.length b h out)
    (hok : EpochOK rs E.site ⟨h.mjd, h.sec, out⟩) {t : List Char} (hr : m.obsStrm.rest = b.text ++ t) :
    (ppEpoch E m = .terminate ∧ 4 < out.length ∧ RowsOf rs E.site (epochMs h.mjd h.sec) (firstValues out) []) ∨
    ∃ m' u, ppEpoch E m = .ok (0, m', u) ∧ LoopReady E rs s m' ∧ m'.time = some (h.mjd, h.sec) ∧ m'.buf.length = m.buf.length ∧
      m'.obsStrm = m.obsStrm.past (b.head.line :: b.lines) ∧
      ((out.length ≤ 4 ∧ u = none ∧ m'.filter = m.filter) ∨
       (4 < out.length ∧ ∃ rows v, RowsOf rs E.site (epochMs h.mjd h.sec) (firstValues out) rows ∧ rows ≠ [] ∧ IsUpdate E.site h.sec rows v ∧
        u = some v ∧ m'.filter = m.filter.bind fun k => kalUpdate k v)) := by
  have hcnt := hok.count
  simp only at hcnt
  obtain ⟨ov', buf', e1, e2, e3⟩ := C57_exact E.raw0 hb hm.buf hm.good hr (le_trans hcnt hm.size) hm.room
  have hcast := castLong_ms hok.sec0 hok.sec1
  simp only at hcast
  unfold ppEpoch
  rw [hm.nav.errno, e1, Res.bind_ok]
  simp only [timeAfter]
  rw [hcast, Res.bind_ok]
  have hnav : NavReady rs s { m.nav with errno := 0 } := ⟨hm.nav.strm, rfl, hm.nav.cache⟩
  have hroom : Room E.mmap ov' := e2.room hm.room hb.gives.width
  by_cases h4 : out.length > 4
  · rw [if_pos h4]
    have hsh := shows_firstValues e2 hok.values
    have hqh : ∀ q ∈ firstValues out, Handled q.1.1 := by
      intro q hq
      simp only [firstValues, List.mem_map] at hq
      obtain ⟨o, ho, rfl⟩ := hq
      exact hok.handled o ho
    obtain ⟨st', rows, g1, g2, _, g4⟩ := C67_rows_partial hE (mjd := h.mjd) (ms := ⌊h.sec * 1000⌋) hsh hqh hok.visible hnav (rows := [])
      (by simp; omega)
    rw [g1, Res.bind_ok]
    simp only [List.nil_append]
    by_cases hne : rows = []
    · left
      subst hne
      refine ⟨?_, h4, g4⟩
      unfold ppUpdate
      rw [if_pos (by simp)]
      rfl
    · right
      have hl := ppSats_lowRows g1 (by intro r hr; simp at hr)
      rw [List.nil_append] at hl
      obtain ⟨u, hu1, hu2⟩ := ppUpdate_spec hh hne hl h.sec m.filter
      rw [hu1, Res.bind_ok]
      exact ⟨_, _, rfl, ⟨g2, hroom, by rw [e2.length]; exact hm.size, by rw [e3]; exact hm.buf, hm.good⟩, rfl, e3, rfl,
        Or.inr ⟨h4, rows, u, g4, hne, hu2, rfl, rfl⟩⟩
  · right
    rw [if_neg h4]
    exact ⟨_, _, rfl, ⟨hnav, hroom, by rw [e2.length]; exact hm.size, by rw [e3]; exact hm.buf, hm.good⟩, rfl, e3, rfl,
      Or.inl ⟨by omega, rfl, rfl⟩⟩

/-- The end of the file. -/
theorem ppEpoch_end {E : PpEnv} {rs : List NavItem} {s : Stream} {m : PpMem} (hm : LoopReady E rs s m) (hr : m.obsStrm.rest = []) {mjd : Int} {sec : Rat}
    (ht : m.time = some (mjd, sec)) (h0 : 0 ≤ sec) (h1 : sec < 86400) : ppEpoch E m = .ok (-1, m, none) := by
  unfold ppEpoch
  rw [C58_eof E.mjdOf E.raw0 E.mmap m.ov m.buf m.obsStrm m.nav.errno hm.good hr, Res.bind_ok]
  simp only [timeAfter, ht]
  rw [castLong_ms h0 h1, Res.bind_ok]
  simp only [gt_iff_lt, not_lt_zero, if_false, Res.pure_eq]
  cases m
  simp only at ht
  rw [ht]

/-- **C68**, partial: a run over any number of epochs ends with -1 at the end of the file; by then the filter has been updated once for every epoch
of more than four satellites, in the order of the file, with the rows of C67 — or the program was stopped by an `assert` at an epoch of more
than four satellites none of which can be used.  Missing: the length of the filter's step is the second of day (see `C68_dt_wrong`), the
tropospheric correction lacks the wet part (C66); the pseudoranges are what the code makes of the fields of the observation file (`BlockSees`, see C39,
C40). -/
theorem C68_run_partial {E : PpEnv} {rs : List NavItem} {s : Stream} (hE : NavEnv E rs s) (hh : -1000 ≤ E.site.hgt ∧ E.site.hgt ≤ 2500) :
    ∀ (bs : List ObsEpochBlock) (exp : List (EpochHead × List SatVals)) (m : PpMem) (fuel : Nat), LoopReady E rs s m →
    List.Forall₂ (fun b x => BlockSees E.mjdOf E.mmap m.buf.length b x.1 x.2) bs exp →
    (∀ x ∈ exp, EpochOK rs E.site ⟨x.1.mjd, x.1.sec, x.2⟩) → m.obsStrm.rest = (bs.map ObsEpochBlock.text).flatten → bs.length < fuel →
    (bs = [] → ∃ mjd sec, m.time = some (mjd, sec) ∧ 0 ≤ sec ∧ sec < 86400) →
    (ppLoop E fuel m = .terminate ∧ ∃ x ∈ exp, 4 < x.2.length ∧ RowsOf rs E.site (epochMs x.1.mjd x.1.sec) (firstValues x.2) []) ∨
    ∃ m' us, ppLoop E fuel m = .ok (-1, m', us) ∧ UpdatesOf rs E.site (exp.map fun x => ⟨x.1.mjd, x.1.sec, x.2⟩) us ∧
      m'.filter = m.filter.bind fun k => kalRun k us := by
  intro bs
  induction bs with
  | nil =>
    intro exp m fuel hm hx _ hr hf ht
    cases hx
    right
    obtain ⟨mjd, sec, t1, t2, t3⟩ := ht rfl
    have e := ppEpoch_end hm (by simpa using hr) t1 t2 t3
    refine ⟨m, [], ?_, .nil, ?_⟩
    · cases fuel with
      | zero => simp at hf
      | succ fuel => unfold ppLoop; rw [e]; rfl
    · cases m.filter <;> rfl
  | cons b bs ih =>
    intro exp m fuel hm hx hoks hr hf _
    obtain ⟨⟨h, out⟩, exp, hb, hx', rfl⟩ := List.forall₂_cons_left_iff.1 hx
    simp only at hb
    have hr' : m.obsStrm.rest = b.text ++ (bs.map ObsEpochBlock.text).flatten := by simpa using hr
    have hok := hoks (h, out) (by simp)
    simp only at hok
    cases fuel with
    | zero => simp at hf
    | succ fuel =>
      simp only [List.length_cons] at hf
      rcases ppEpoch_spec hE hh hm hb hok hr' with ⟨g1, g2, g3⟩ | ⟨m1, u, g1, g2, g3, g4, g5, g6⟩
      · left
        refine ⟨by unfold ppLoop; rw [g1]; rfl, (h, out), by simp, g2, g3⟩
      · have hloop : ∀ r, ppLoop E fuel m1 = r → ppLoop E (fuel + 1) m = (r >>= fun q => pure (q.1, q.2.1, u.toList ++ q.2.2)) := by
          intro r hr
          conv_lhs => unfold ppLoop
          rw [g1, Res.bind_ok]
          simp only [if_true]
          rw [hr]
        rcases ih exp m1 fuel g2 (by rw [g4]; exact hx') (fun x hxm => hoks x (by simp [hxm])) (by rw [g5]; exact Stream.past_rest (by rw [hr']; rfl))
            (by omega) (fun _ => ⟨h.mjd, h.sec, g3, hok.sec0, hok.sec1⟩) with ⟨i1, x, i2, i3⟩ | ⟨m2, us, i1, i2, i3⟩
        · left
          exact ⟨by rw [hloop _ i1]; rfl, x, by simp [i2], i3⟩
        · right
          refine ⟨m2, u.toList ++ us, by rw [hloop _ i1]; rfl, ?_, ?_⟩
          · rcases g6 with ⟨k1, k2, _⟩ | ⟨k1, rows, v, k2, k3, k4, k5, _⟩
            · rw [k2]; exact .few k1 i2
            · rw [k5]; exact .update k1 k2 k3 k4 i2
          · rw [i3]
            rcases g6 with ⟨_, k2, k3⟩ | ⟨_, rows, v, _, _, _, k5, k6⟩
            · rw [k2, k3]; rfl
            · rw [k5, k6]
              cases m.filter with
              | none => rfl
              | some k => rfl

theorem UpdatesOf.varPos {rs : List NavItem} {site : PpSite} {es : List PpObs} {us : List KalInput} (h : UpdatesOf rs site es us) :
    ∀ u ∈ us, VarPos u := by
  induction h with
  | nil => simp
  | few _ _ ih => exact ih
  | update _ _ _ hu _ ih =>
    intro v hv
    rcases List.mem_cons.1 hv with rfl | hv
    · obtain ⟨w, h1, h2⟩ := hu.weights
      exact ⟨w, h1, fun i => by rw [h2 i]; norm_num⟩
    · exact ih v hv

/-- **C68**: the covariance the program prints is symmetric and positive definite after every run that made an update and whose
satellites were never at the estimated place of the receiver (the filter holds numbers): the square roots printed exist. -/
theorem C68_covariance {rs : List NavItem} {site : PpSite} {es : List PpObs} {us : List KalInput} (h : UpdatesOf rs site es us) (hne : us ≠ [])
    {x : Fin 5 → ℝ} {P0 : Matrix (Fin 5) (Fin 5) ℝ} {c : ℝ} {k : Kalman} (hk : kalRun (kalNew x P0 c) us = some k) :
    SymPd k.P ∧ ∀ i, 0 < k.P i i :=
  C44_definite h.varPos hne hk

/-- … and an update is possible as long as no satellite is at the estimated place of the receiver. -/
theorem C68_defined {rs : List NavItem} {site : PpSite} {es es' : List PpObs} {us : List KalInput} {u : KalInput}
    (h : UpdatesOf rs site es us) (hu : UpdatesOf rs site es' [u]) {x : Fin 5 → ℝ} {P0 : Matrix (Fin 5) (Fin 5) ℝ} {c : ℝ} {k : Kalman}
    (hk : kalRun (kalNew x P0 c) us = some k) (ha : ∀ i, Apart (u.sv i) (moved u.dt k.state)) : ∃ k', kalUpdate k u = some k' :=
  C44_defined (fun v hv => (h.varPos v hv).nonneg) hk (hu.varPos u (by simp)) ha

/-- **C68** is false for the length of the filter's steps: for two epochs of more than four satellites of one day the second update is made
with the second of day, which is not the time since the first unless that was at midnight. -/
theorem C68_dt_wrong {rs : List NavItem} {site : PpSite} {e1 e2 : PpObs} {us : List KalInput} (h : UpdatesOf rs site [e1, e2] us)
    (h1 : 4 < e1.out.length) (h2 : 4 < e2.out.length) (hday : e1.mjd = e2.mjd) (h0 : e1.sec ≠ 0) :
    ∃ u1 u2, us = [u1, u2] ∧ u2.dt ≠ ((86400 * e2.mjd + e2.sec - (86400 * e1.mjd + e1.sec) : ℚ) : ℝ) := by
  cases h with
  | few h _ => omega
  | update _ _ _ _ h =>
    cases h with
    | few h _ => omega
    | update _ _ _ hu h =>
      cases h
      refine ⟨_, _, rfl, ?_⟩
      rw [hu.dt, hday]
      intro hc
      have : e2.sec = 86400 * e2.mjd + e2.sec - (86400 * e2.mjd + e1.sec) := by exact_mod_cast hc
      apply h0
      linarith

/-- **C68**: a file without any epoch (or whose first epoch cannot be read) leaves the second of day unassigned: undefined behaviour. -/
theorem C68_no_epoch {E : PpEnv} {m : PpMem} (hg : m.obsStrm.good = true) (hr : m.obsStrm.rest = []) (ht : m.time = none) (fuel : Nat) :
    ppLoop E (fuel + 1) m = .ub := by
  unfold ppLoop ppEpoch
  rw [C58_eof E.mjdOf E.raw0 E.mmap m.ov m.buf m.obsStrm m.nav.errno hg hr, Res.bind_ok]
  simp only [timeAfter, ht]
  rfl

/-- **C68**: with the request the program makes (a GLONASS observable with a GPS part) it returns 100 for every observation file and
never computes anything. -/
theorem C68_request_refused (E : PpEnv) (obst : ObsTypes) (fuel : Nat) (obs nav : Stream) (buf : List Char) (errno : Int) (st0 : Fin 6 → ℝ)
    (clk0 : ℝ) (P0 : Matrix (Fin 5) (Fin 5) ℝ) : ppMain E obst ppRequest fuel obs nav buf errno st0 clk0 P0 = .ok (100, []) := by
  obtain ⟨req', h⟩ := C38_missing_refused obst ppRequest (by simp [ppRequest]) (by
    refine ⟨_, List.mem_singleton.2 rfl, _, List.mem_singleton.2 rfl, ?_⟩
    intro hs
    have := (hs _ (by simp; exact Or.inr rfl)).1
    simp at this)
  unfold ppMain
  rw [h, Res.bind_ok]
  rfl

/-- **C68**, partial, the whole program from the read map on: for a request all of whose observables the file has, and any observation and navigation file as in
`C68_run_partial`, `main` returns -1 after one update per epoch of more than four satellites, or is stopped by the `assert`. -/
theorem C68_main_partial (E : PpEnv) (obst : ObsTypes) (req : ReqMap) (hreq : ∀ e ∈ req, ∀ o ∈ e.2, o.vec ≠ [])
    (hs : ∀ e ∈ req, ∀ o ∈ e.2, Satisfiable (codesOf obst e.1) e.1 o) (hne : ∃ e ∈ req, e.2 ≠ []) :
    ∃ mmap, MapFor obst req mmap ∧ ∀ {rs : List NavItem} {nav : Stream}, NavEnv E rs nav → -1000 ≤ E.site.hgt ∧ E.site.hgt ≤ 2500 →
    ∀ (b : ObsEpochBlock) (bs : List ObsEpochBlock) (exp : List (EpochHead × List SatVals)) (fuel : Nat) (obs : Stream) (buf : List Char) (st0 : Fin 6 → ℝ) (clk0 : ℝ)
      (P0 : Matrix (Fin 5) (Fin 5) ℝ), 1 ≤ buf.length → obs.good = true → obs.rest = ((b :: bs).map ObsEpochBlock.text).flatten →
      List.Forall₂ (fun b x => BlockSees E.mjdOf mmap buf.length b x.1 x.2) (b :: bs) exp →
      (∀ x ∈ exp, EpochOK rs E.site ⟨x.1.mjd, x.1.sec, x.2⟩) → bs.length + 1 < fuel →
      (ppMain E obst req fuel obs nav buf 0 st0 clk0 P0 = .terminate ∧
        ∃ x ∈ exp, 4 < x.2.length ∧ RowsOf rs E.site (epochMs x.1.mjd x.1.sec) (firstValues x.2) []) ∨
      ∃ us, ppMain E obst req fuel obs nav buf 0 st0 clk0 P0 = .ok (-1, us) ∧
        UpdatesOf rs E.site (exp.map fun x => ⟨x.1.mjd, x.1.sec, x.2⟩) us := by
  obtain ⟨mmap, h1, h2⟩ := C38_all_present obst req false hreq hs
  have hnil : mmap ≠ [] := by
    rintro rfl
    unfold MapFor at h2
    rw [List.forall₂_nil_right_iff, List.filter_eq_nil_iff] at h2
    obtain ⟨e, he, hee⟩ := hne
    exact h2 e he (by simpa using hee)
  refine ⟨mmap, h2, ?_⟩
  intro rs nav hE hh b bs exp fuel obs buf st0 clk0 P0 hb hg hr hx hok hf
  have hE' : NavEnv { E with mmap := mmap } rs nav := ⟨hE.good, hE.rest, hE.fresh, hE.file, hE.chrono, hE.navFuel, hE.gloFuel⟩
  set x0 : Fin 5 → ℝ := ![E.site.x + 1.321, E.site.y - 2.987, E.site.z - 1.568, 0.5e6, 0] with hx0
  set m0 : PpMem := ⟨⟨nav, 0, [], st0, clk0⟩, some (kalNew x0 P0 1), none, obs, buf, initEpochVector mmap⟩ with hm0
  have hm : LoopReady { E with mmap := mmap } rs nav m0 :=
    ⟨⟨rfl, rfl, ⟨by simp [hm0], by simp [hm0]⟩⟩, (C42_initial mmap).2.1, by simp only [hm0]; rw [(C42_initial mmap).1]; decide, hb, hg⟩
  have hmain : ppMain E obst req fuel obs nav buf 0 st0 clk0 P0 = (ppLoop { E with mmap := mmap } fuel m0 >>= fun r => pure (r.1, r.2.2)) := by
    unfold ppMain
    rw [h1, Res.bind_ok]
    simp only
    rw [if_neg hnil]
  rcases C68_run_partial hE' hh (b :: bs) exp m0 fuel hm hx hok hr (by simpa using hf) (by intro h; cases h) with ⟨g1, g2⟩ | ⟨m', us, g1, g2, _⟩
  · left; exact ⟨by rw [hmain, g1]; rfl, g2⟩
  · right; exact ⟨us, by rw [hmain, g1]; rfl, g2⟩

end Ggnss
