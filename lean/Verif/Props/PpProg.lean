import Verif.Spec.PpProg
import Verif.Props.PpLoop
import Verif.Props.NavHead
import Verif.Props.AntexHist
import Verif.Props.AntexOpen
import Verif.Props.AntexAny
import Verif.Props.ObsWhole
/-!
# C70: the positioning program from the command line on
-/
namespace Ggnss

/-- **C70**: with fewer than two file names the program returns 1 and does nothing else. -/
theorem C70_usage (W : PpWorld) (req : ReqMap) (argv : List (List Char)) (h : argv.length < 3) : ppProgram W req argv = .ok ⟨1, [], []⟩ := by
  unfold ppProgram
  match argv, h with
  | [], _ => rfl
  | [_], _ => rfl
  | [_, _], _ => rfl
  | _ :: _ :: _ :: _, h => simp at h; omega

theorem ppRest_shipped (W : PpWorld) (o : ObsFileObj) (obs : Stream) (buf : List Char) (nav : NavFile) :
    ppRest W ppRequest o obs buf nav = .ok (100, []) := by
  unfold ppRest
  split
  · obtain ⟨req', h⟩ := C38_missing_refused o.obst ppRequest (by simp [ppRequest]) (by
      refine ⟨_, List.mem_singleton.2 rfl, _, List.mem_singleton.2 rfl, ?_⟩
      intro hs
      have := (hs _ (by simp; exact Or.inr rfl)).1
      simp at this)
    rw [h, Res.bind_ok]; rfl
  · exact C68_request_refused _ _ _ _ _ _ _ _ _ _

/-- **C70** is false of the program as it is: whatever the files hold, a run that ends makes no filter update, and its exit code is 1
(too few arguments) or 100 (the request is refused). -/
theorem C70_shipped_computes_nothing (W : PpWorld) (argv : List (List Char)) (r : PpOutcome) (h : ppShipped W argv = .ok r) :
    r.updates = [] ∧ r.code = if argv.length < 3 then 1 else 100 := by
  by_cases h3 : argv.length < 3
  · unfold ppShipped at h
    rw [C70_usage W _ argv h3] at h
    cases h
    simp [h3]
  · match argv, h3 with
    | [], h3 => simp at h3
    | [_], h3 => simp at h3
    | [_, _], h3 => simp at h3
    | a0 :: a1 :: a2 :: more, h3 =>
      unfold ppShipped ppProgram at h
      have h := Res.noexcept_eq_ok.1 h
      obtain ⟨c1, _, h⟩ := Res.bind_eq_ok.1 h
      obtain ⟨o, _, h⟩ := Res.bind_eq_ok.1 h
      obtain ⟨c2, _, h⟩ := Res.bind_eq_ok.1 h
      obtain ⟨nav, _, h⟩ := Res.bind_eq_ok.1 h
      obtain ⟨sats, _, h⟩ := Res.bind_eq_ok.1 h
      rw [ppRest_shipped, Res.bind_ok] at h
      cases h
      exact ⟨rfl, by rw [if_neg h3]⟩

/-- **C70**: a file that does not exist stops the program by an uncaught exception. -/
theorem C70_missing_file (W : PpWorld) (req : ReqMap) (a0 a1 a2 : List Char) (more : List (List Char))
    (h : W.files a1 = none ∨ (∃ c r, W.files a1 = some c ∧ obsOpen W.obsDate W.gAnt false W.g0 W.junkObs W.buf0 c = .ok r) ∧ W.files a2 = none) :
    ppProgram W req (a0 :: a1 :: a2 :: more) = .terminate := by
  unfold ppProgram ppFile
  rcases h with h | ⟨⟨c, r, h1, h2⟩, h3⟩
  · simp only [h]; rfl
  · simp only [h1, Res.bind_ok, h2, h3]; rfl

theorem ppAntex_ok (W : PpWorld) (hJ : W.J.WF) {bs : List AtxBlock} (hne : bs ≠ []) (hw : ∀ b ∈ bs, b.WF W.atxDate)
    (hnul : ∀ p, NUL ∈ (W.J.head p).drop 60) (dt : DateTime) : ∀ (n : Nat) (i : Int) (f : AtxFile), AtxOn bs f → f.strm.content.length < W.fuel →
    ∃ l, ppAntex W dt n i f = .ok l ∧ (l.map (·.prn)).Pairwise (· < ·) ∧
      (∀ k, k ∈ l.map (·.prn) ↔ (i ≤ k ∧ k < i + n) ∧ ∃ b ∈ bs, b.For k .glonass dt) ∧
      ∀ s ∈ l, s.sys = .glonass ∧ ∃ i b id, FirstIdx bs (AtxBlock.For s.prn .glonass dt) i b ∧ b.sat = some id ∧
        satAntText s.ant = .ok b.model ∧ (∀ n, id.svn = some n → s.svn = n) ∧ ∀ c, id.cospar = some c → cstrOf s.cospar = .ok c
  | 0, i, f, _, _ => by
      refine ⟨[], rfl, by simp, ?_, by simp⟩
      intro k
      simp only [List.map_nil, List.not_mem_nil, false_iff]
      rintro ⟨⟨h1, h2⟩, _⟩
      push_cast at h2
      omega
  | n + 1, i, f, hf, hfuel => by
      obtain ⟨st, sv, f', e1, e2, e3, e4⟩ := C37_satellite_partial hJ hne hw hf hnul (W.cospar i) i .glonass dt hfuel
      obtain ⟨l, g1, g2, g3, g4⟩ := ppAntex_ok W hJ hne hw hnul dt n (i + 1) f' e2 (by rw [e3]; exact hfuel)
      have hgt : ∀ k ∈ l.map (·.prn), i < k := by
        intro k hk
        have := ((g3 k).1 hk).1.1
        omega
      unfold ppAntex
      simp only [e1, Res.bind_ok, g1]
      rcases e4 with ⟨j, b, s, h1, rfl, rfl, h4, h5, h6⟩ | ⟨h1, rfl, rfl⟩
      · refine ⟨s :: l, rfl, ?_, ?_, ?_⟩
        · simp only [List.map_cons, List.pairwise_cons]
          exact ⟨by rw [h5]; exact hgt, g2⟩
        · intro k
          simp only [List.map_cons, List.mem_cons, g3 k, h5]
          push_cast
          constructor
          · rintro (rfl | ⟨⟨h, h'⟩, h''⟩)
            · exact ⟨⟨le_refl _, by omega⟩, b, h1.mem, h1.2.1⟩
            · exact ⟨⟨by omega, by omega⟩, h''⟩
          · rintro ⟨⟨h, h'⟩, h''⟩
            rcases eq_or_ne k i with rfl | hk
            · exact Or.inl rfl
            · exact Or.inr ⟨⟨by omega, by omega⟩, h''⟩
        · intro x hx
          rcases List.mem_cons.1 hx with rfl | hx
          · refine ⟨h4, ?_⟩
            obtain ⟨id, hid, _⟩ := h1.2.1
            obtain ⟨sv, f'', q1, q2, q3⟩ := C51_satellite_own_partial hJ hne hw hf hnul (W.cospar i) i .glonass dt hfuel h1 hid
            rw [e1] at q1
            cases q1
            exact ⟨j, b, id, by rw [h5]; exact h1, hid, h6, q2, q3⟩
          · exact g4 x hx
      · refine ⟨l, rfl, g2, ?_, g4⟩
        intro k
        rw [g3 k]
        push_cast
        constructor
        · rintro ⟨⟨h, h'⟩, h''⟩
          exact ⟨⟨by omega, by omega⟩, h''⟩
        · rintro ⟨⟨h, h'⟩, h''⟩
          refine ⟨⟨?_, by omega⟩, h''⟩
          rcases eq_or_ne k i with rfl | hk
          · obtain ⟨b, hb, hbf⟩ := h''
            exact absurd hbf (h1 b hb)
          · omega

/-- Assumptions about memory: the arrays have their sizes, and (for the ANTEX file) the uninitialised line array has a terminator in its last 25
bytes — without it the search is undefined, `C37_uninitialised_read`. -/
structure PpWorld.OK (W : PpWorld) : Prop where
  gAnt : ∀ k, (W.gAnt k).length = 41
  g0 : W.g0.length = 41
  buf : ∀ n, (W.buf0 n).length = n
  J : W.J.WF
  nul : ∀ p, NUL ∈ (W.J.head p).drop 60

/-- The list of satellites. -/
theorem ppSatList_ok {W : PpWorld} (hW : W.OK) {a : List Char} {ah : AtxHeader} (hah : ah.WF) {bs : List AtxBlock} (hne : bs ≠ [])
    (hw : ∀ b ∈ bs, b.WF W.atxDate) (hfile : W.files a = some (atxText ah bs)) (hfuel : (atxText ah bs).length < W.fuel) (o : ObsFileObj) :
    ∃ l, ppSatList W o (some a) = .ok l ∧ SatsListed bs (W.firstDate o.firstObs) l := by
  obtain ⟨f, h1, _, h3, h4, _⟩ := C52_open W.J hah bs
  obtain ⟨l, g1, g2, g3, g4⟩ := ppAntex_ok W hW.J hne hw hW.nul (W.firstDate o.firstObs) 32 1 f h4 (by rw [h3]; exact hfuel)
  refine ⟨l, ?_, ⟨g2, ?_, g4⟩⟩
  · unfold ppSatList ppFile
    simp only [hfile, Res.bind_ok, h1, g1]
  · intro k
    rw [g3 k]
    constructor
    · rintro ⟨⟨h, h'⟩, h''⟩; exact ⟨⟨h, by push_cast at h'; omega⟩, h''⟩
    · rintro ⟨⟨h, h'⟩, h''⟩; exact ⟨⟨h, by push_cast; omega⟩, h''⟩

/-- **C70**, the list of satellites: for well formed files the program as it is lists exactly the satellites of GLONASS slots 1 to 32 with a
record in force at the time of first observation, and returns 100. -/
theorem C70_shipped_satellites {W : PpWorld} (hW : W.OK) {oh : ObsHeader} (ho : oh.Seen W.obsDate)
    (hsup : ∀ t ∈ oh.items.filterMap ObsItem.types?, t.2.length % 13 ≠ 0) {nh : NavHeader} (hn : nh.WF) {ah : AtxHeader} (hah : ah.WF)
    {bs : List AtxBlock} (hne : bs ≠ []) (hw : ∀ b ∈ bs, b.WF W.atxDate) (a0 a1 a2 a3 otail ntail : List Char)
    (h1 : W.files a1 = some (linesText oh.lines ++ otail)) (h2 : W.files a2 = some (linesText nh.lines ++ ntail))
    (h3 : W.files a3 = some (atxText ah bs)) (hfuel : (atxText ah bs).length < W.fuel) :
    ∃ sats, ppShipped W [a0, a1, a2, a3] = .ok ⟨100, sats, []⟩ ∧
      SatsListed bs (W.firstDate (lastOf ObsItem.firstObs? oh.items)) sats := by
  obtain ⟨o, s, e1, e2, _⟩ := C60_open_exact_partial (gAnt := W.gAnt) hW.gAnt hW.g0 W.junkObs W.buf0 ho hsup otail
  obtain ⟨nav, e, g1, _⟩ := C56_open W.junkNav hn ntail
  obtain ⟨l, l1, l2⟩ := ppSatList_ok hW hah hne hw h3 hfuel o
  refine ⟨l, ?_, by rw [← e2.firstObs]; exact l2⟩
  unfold ppShipped ppProgram ppFile
  simp only [h1, h2, e1, g1, Res.bind_ok, List.head?_cons, l1, ppRest_shipped]
  rfl

/-- The files of a run: observation file (header `oh`, epochs `b :: bs` that say `exp` under the read map `m` of the request), navigation file (header `nh`,
records `rs`). -/
structure RunFiles (W : PpWorld) (req : ReqMap) (oh : ObsHeader) (b : ObsEpochBlock) (bs : List ObsEpochBlock) (exp : List (EpochHead × List SatVals))
    (nh : NavHeader) (rs : List NavItem) (site : PpSite) : Prop where
  obsHead : oh.Seen W.obsDate
  few : ∀ t ∈ oh.items.filterMap ObsItem.types?, t.2.length % 13 ≠ 0
  navHead : nh.WF
  navFile : NavFileOK W.navDate rs
  chrono : Chronological rs
  fresh : W.fresh.data.length = 31
  fuelNav : rs.length < W.fuel
  fuelGlo : 720 < W.fuel
  fuelObs : bs.length + 1 < W.fuel
  siteEq : site = siteOf W.car2ell ((lastOf ObsItem.position? oh.items).getD [0, 0, 0])
  height : -1000 ≤ site.hgt ∧ site.hgt ≤ 2500
  reqParts : ∀ e ∈ req, ∀ o ∈ e.2, o.vec ≠ []
  reqTypes : ∀ e ∈ req, ∀ o ∈ e.2, Satisfiable (codesOf (oh.items.filterMap ObsItem.types?) e.1) e.1 o
  reqSome : ∃ e ∈ req, e.2 ≠ []
  epochs : ∃ (m : ReadMap) (types : SatSys × List ObsCode), MapFor (oh.items.filterMap ObsItem.types?) req m ∧ (oh.items.filterMap ObsItem.types?).lookup types.1 = some types.2 ∧
    List.Forall₂ (fun b x => BlockSees W.mjdOf m (16 * types.2.length + 4) b x.1 x.2) (b :: bs) exp
  ok : ∀ x ∈ exp, EpochOK rs site ⟨x.1.mjd, x.1.sec, x.2⟩

theorem ppProgram_run {W : PpWorld} (hW : W.OK) {req : ReqMap} {oh : ObsHeader} {b : ObsEpochBlock} {bs : List ObsEpochBlock}
    {exp : List (EpochHead × List SatVals)} {nh : NavHeader} {rs : List NavItem} {site : PpSite} (h : RunFiles W req oh b bs exp nh rs site)
    {a0 a1 a2 : List Char} {more : List (List Char)} (h1 : W.files a1 = some (linesText oh.lines ++ ((b :: bs).map ObsEpochBlock.text).flatten))
    (h2 : W.files a2 = some (linesText nh.lines ++ fileText rs)) {P : List AtxSat → Prop}
    (hl : ∀ o : ObsFileObj, o.firstObs = lastOf ObsItem.firstObs? oh.items → ∃ l, ppSatList W o more.head? = .ok l ∧ P l) :
    (ppProgram W req (a0 :: a1 :: a2 :: more) = .terminate ∧
      ∃ x ∈ exp, 4 < x.2.length ∧ RowsOf rs site (epochMs x.1.mjd x.1.sec) (firstValues x.2) []) ∨
    ∃ sats us, ppProgram W req (a0 :: a1 :: a2 :: more) = .ok ⟨-1, sats, us⟩ ∧ P sats ∧
      UpdatesOf rs site (exp.map fun x => ⟨x.1.mjd, x.1.sec, x.2⟩) us := by
  obtain ⟨o, s, e1, e2, _, e4, e5, _⟩ := C60_open_exact_partial (gAnt := W.gAnt) hW.gAnt hW.g0 W.junkObs W.buf0 h.obsHead h.few
    ((b :: bs).map ObsEpochBlock.text).flatten
  obtain ⟨nav, e, g1, _, _, g4, _, g6, g7, _⟩ := C56_open W.junkNav h.navHead (fileText rs)
  obtain ⟨l, l1, l2⟩ := hl o e2.firstObs
  obtain ⟨m, types, hm, ht, hbs⟩ := h.epochs
  have hsite : ppSite W o = site := by rw [h.siteEq, ← e2.position]; rfl
  have hprog : ppProgram W req (a0 :: a1 :: a2 :: more) =
      Res.noexcept (ppMain ⟨W.navDate, W.navJunk, W.fuel, W.fuel, e, W.fresh, W.mjdOf, W.raw0, [], site⟩ o.obst req W.fuel s nav.strm
        (W.buf0 (obsBufSize o.obst)) 0 W.state0 W.clock0 W.P0 >>= fun r => pure ⟨r.1, l, r.2⟩) := by
    unfold ppProgram ppFile ppRest
    simp only [h1, h2, e1, g1, Res.bind_ok, l1, g4, hsite]
  obtain ⟨mm, k1, k2⟩ := C68_main_partial ⟨W.navDate, W.navJunk, W.fuel, W.fuel, e, W.fresh, W.mjdOf, W.raw0, [], site⟩ o.obst req h.reqParts
    (fun e he x hx => by rw [codesOf_congr e2.types]; exact h.reqTypes e he x hx) h.reqSome
  have hmm : mm = m := C38_unique k1 (mapFor_congr (fun q => (e2.types q).symm) hm)
  subst hmm
  have hsz := obsBufSize_ge (obst := o.obst) (q := types.1) (codes := types.2) (by rw [e2.types]; exact ht)
  rcases k2 (rs := rs) (nav := nav.strm) ⟨g6, g7, h.fresh, h.navFile, h.chrono, h.fuelNav, h.fuelGlo⟩ h.height b bs exp W.fuel s
      (W.buf0 (obsBufSize o.obst)) W.state0 W.clock0 W.P0 (by rw [hW.buf]; omega) e4 e5
      (hbs.imp (fun b x hb => by rw [hW.buf]; exact hb.mono hsz)) h.ok h.fuelObs with ⟨k3, k4⟩ | ⟨us, k3, k4⟩
  · left
    refine ⟨?_, k4⟩
    rw [hprog, k3]; rfl
  · right
    refine ⟨l, us, ?_, l2, k4⟩
    rw [hprog, k3]; rfl

/-- **C70**, partial, with an observable that the file has in place of the one in the source: run with well formed observation, navigation and ANTEX files, the
program lists the satellites of the ANTEX file, makes one filter update per epoch of more than four satellites, in file order, and returns -1 at the end of the
observation file; or it is stopped by an `assert` at an epoch without any usable satellite.  Missing: the exit code, which is not 0, the
length of the filter's steps (see C68), and the observable in the source, which is refused for every file (`C70_shipped_computes_nothing`). -/
theorem C70_run_partial {W : PpWorld} (hW : W.OK) {req : ReqMap} {oh : ObsHeader} {b : ObsEpochBlock} {bs : List ObsEpochBlock}
    {exp : List (EpochHead × List SatVals)} {nh : NavHeader} {rs : List NavItem} {site : PpSite} (h : RunFiles W req oh b bs exp nh rs site)
    {ah : AtxHeader} (hah : ah.WF) {ants : List AtxBlock} (hne : ants ≠ []) (hw : ∀ b ∈ ants, b.WF W.atxDate)
    (hfuel : (atxText ah ants).length < W.fuel) (a0 a1 a2 a3 : List Char)
    (h1 : W.files a1 = some (linesText oh.lines ++ ((b :: bs).map ObsEpochBlock.text).flatten))
    (h2 : W.files a2 = some (linesText nh.lines ++ fileText rs)) (h3 : W.files a3 = some (atxText ah ants)) :
    (ppProgram W req [a0, a1, a2, a3] = .terminate ∧
      ∃ x ∈ exp, 4 < x.2.length ∧ RowsOf rs site (epochMs x.1.mjd x.1.sec) (firstValues x.2) []) ∨
    ∃ sats us, ppProgram W req [a0, a1, a2, a3] = .ok ⟨-1, sats, us⟩ ∧
      SatsListed ants (W.firstDate (lastOf ObsItem.firstObs? oh.items)) sats ∧
      UpdatesOf rs site (exp.map fun x => ⟨x.1.mjd, x.1.sec, x.2⟩) us :=
  ppProgram_run hW h h1 h2 (fun o ho => by
    obtain ⟨l, l1, l2⟩ := ppSatList_ok hW hah hne hw h3 hfuel o
    exact ⟨l, l1, by rw [← ho]; exact l2⟩)

/-- **C70**, partial, without an ANTEX file. -/
theorem C70_run_two_files_partial {W : PpWorld} (hW : W.OK) {req : ReqMap} {oh : ObsHeader} {b : ObsEpochBlock} {bs : List ObsEpochBlock}
    {exp : List (EpochHead × List SatVals)} {nh : NavHeader} {rs : List NavItem} {site : PpSite} (h : RunFiles W req oh b bs exp nh rs site)
    (a0 a1 a2 : List Char) (h1 : W.files a1 = some (linesText oh.lines ++ ((b :: bs).map ObsEpochBlock.text).flatten))
    (h2 : W.files a2 = some (linesText nh.lines ++ fileText rs)) :
    (ppProgram W req [a0, a1, a2] = .terminate ∧
      ∃ x ∈ exp, 4 < x.2.length ∧ RowsOf rs site (epochMs x.1.mjd x.1.sec) (firstValues x.2) []) ∨
    ∃ us, ppProgram W req [a0, a1, a2] = .ok ⟨-1, [], us⟩ ∧ UpdatesOf rs site (exp.map fun x => ⟨x.1.mjd, x.1.sec, x.2⟩) us := by
  rcases ppProgram_run hW h (a0 := a0) (more := []) h1 h2 (P := fun l => l = []) (fun o _ => ⟨[], rfl, rfl⟩) with h | ⟨sats, us, k1, rfl, k2⟩
  · exact Or.inl h
  · exact Or.inr ⟨us, k1, k2⟩

end Ggnss
