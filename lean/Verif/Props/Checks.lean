import Verif.Model.Checks
import Verif.Props.Sp3HeadWhole
import Verif.Props.ObsWhole
import Verif.Props.NavTabProg
/-!
# C91: the counts reported by the check programs
-/
namespace Ggnss

/-! ## SP3 -/

theorem sp3Count_of_reads {junk : Nat → List Char} {fuel : Nat} : ∀ (k n : Nat) (t : Sp3Epoch) (vec : List Sp3Rec) (sr : Int) (s : Stream)
    (errno : Int) (c : Nat) (outs : List Sp3Out) (m : Nat) (x : Int), k ≤ n → readEpochs junk fuel k t vec sr s errno = .ok outs →
    outs.map Sp3Out.status = List.replicate m 0 ++ [x] → x ≠ 0 →
    sp3Count junk fuel n t vec sr s errno c = .ok (c + outs.length, x) := by
  intro k
  induction k with
  | zero =>
    intro n t vec sr s errno c outs m x _ h1 h2
    rw [show readEpochs junk fuel 0 t vec sr s errno = .ok [] from rfl] at h1
    cases h1
    simp at h2
  | succ k ih =>
    intro n t vec sr s errno c outs m x hn h1 h2 hx
    obtain ⟨n, rfl⟩ : ∃ n', n = n' + 1 := ⟨n - 1, by omega⟩
    unfold readEpochs at h1
    obtain ⟨o, ho, h1⟩ := bind_ok_inv h1
    unfold sp3Count
    rw [ho, Res.bind_ok]
    by_cases hs : o.status = 0
    · rw [if_neg (by simpa using hs)] at h1
      obtain ⟨r, hr, h1⟩ := bind_ok_inv h1
      cases h1
      rw [if_pos hs]
      obtain ⟨m, rfl⟩ : ∃ m', m = m' + 1 := by
        cases m with
        | zero => simp at h2; exact absurd (h2.1 ▸ hs) hx
        | succ m => exact ⟨m, rfl⟩
      rw [ih n _ _ _ _ _ (c + 1) r m x (by omega) hr (by simpa [hs, List.replicate_succ] using h2) hx]
      simp; omega
    · rw [if_pos (by simpa using hs)] at h1
      cases h1
      rw [if_neg hs]
      have : m = 0 ∧ o.status = x := by
        cases m with
        | zero => simpa using h2
        | succ m => simp [List.replicate_succ] at h2
      rw [this.2]; rfl

/-- **C91** (SP3).  For every file of a well formed header and any number (at least one) of epochs closed by "EOF",
`test_sp3` reports exactly the number of epochs of the file, end of file as last status, and exits with 0. -/
theorem C91_sp3 (W : Sp3World) {prog name : List Char} {h : Sp3Header} (hw : h.WF) {d : MicroTime}
    (hd : ∀ t, h.StartIs t → W.L.date t = .ok d) (hwk : W.L.sameWeek d h.week h.sow.value = true)
    (hmj : W.L.sameMjd d h.mjd h.dayFraction.value = true) (hj : ∀ k, (W.junk k).length = 128)
    {e tail : List Char} (hok : LineOK e) (heof : e.take 3 = c!"EOF") (htail : tail = [] ∨ ∃ r, tail = '\n' :: r)
    {bs : List EpochBlock} (hne : bs ≠ []) (hbs : ∀ b ∈ bs, b.WF h.satellites W.fuel) (hcalls : bs.length ≤ W.fuel)
    (hfile : W.files name = some (linesText h.lines ++ ((bs.map EpochBlock.text).flatten ++ (e ++ tail)))) :
    sp3Check W [prog, name] = .ok (0, some (bs.length, -1)) := by
  obtain ⟨f, vec, outs, h1, _, h3, h4, h5, h6⟩ := C61_file W.junk0 hw hd hwk hmj W.junk hj W.fuel e tail hok heof htail bs hne hbs W.t0
    W.nsats0 W.fuel hcalls
  have h7 := sp3Count_of_reads W.fuel W.fuel W.t0 vec W.nsats0 f.strm 0 0 outs _ _ (le_refl _) h4 h6 (by decide)
  have h8 : outs.length = bs.length := h5.length_eq.symm
  unfold sp3Check
  simp only [hfile, h1, h3, h7, h8, Res.bind_ok, Res.pure_eq, Res.noexcept_ok]
  simp

/-- **C91** (SP3, exit status): a run that ends at all exits with 0 whatever it found in the file, or with 1 when not
called with one argument: the exit status does not tell a damaged file from a good one. -/
theorem C91_sp3_exit (W : Sp3World) (argv : List (List Char)) {c : Int} {r : Option (Nat × Int)} (h : sp3Check W argv = .ok (c, r)) :
    (argv.length = 2 ∧ c = 0 ∧ r.isSome = true) ∨ (argv.length ≠ 2 ∧ c = 1 ∧ r = none) := by
  unfold sp3Check at h
  have h := Res.noexcept_eq_ok.1 h
  split at h
  · left
    split at h
    · simp at h
    · obtain ⟨f, _, h⟩ := bind_ok_inv h
      obtain ⟨v, _, h⟩ := bind_ok_inv h
      obtain ⟨x, _, h⟩ := bind_ok_inv h
      cases h; simp
  · right
    rename_i hn
    cases h
    refine ⟨?_, rfl, rfl⟩
    intro hl
    match argv, hl with
    | [a, b], _ => exact hn a b rfl

/-! ## Observation files -/

/-- The lines `test_obsrnx` should print for epochs with these headers and values. -/
def linesE12 (exp : List (EpochHead × List SatVals)) : List (Rat × List Rat) :=
  exp.flatMap fun x => (x.2.filter fun o => o.1 = (.galileo, 12)).map fun o => (x.1.sec, o.2)

theorem obsPrint_holds {hm : Nat} {sec : Rat} : ∀ {vs out : List SatVals}, vs.length = out.length →
    (∀ (j : Nat) (o : SatVals), out[j]? = some o → ∃ t, vs[j]? = some (o.1, o.2 ++ t)) → (∀ o ∈ out, o.1.1 = .galileo → o.2.length = hm) →
    obsPrint hm sec vs = .ok ((out.filter fun o => o.1 = (.galileo, 12)).map fun o => (sec, o.2)) := by
  intro vs
  induction vs with
  | nil =>
    intro out hl _ _
    cases out with
    | nil => rfl
    | cons _ _ => simp at hl
  | cons v vs ih =>
    intro out hl hh hw
    cases out with
    | nil => simp at hl
    | cons o out =>
      obtain ⟨t, ht⟩ := hh 0 o rfl
      simp at ht
      have ih := ih (out := out) (by simpa using hl) (fun j o' hj => by simpa using hh (j + 1) o' (by simpa using hj))
        (fun o' ho' => hw o' (by simp [ho']))
      subst ht
      unfold obsPrint
      by_cases he : o.1 = (.galileo, 12)
      · have hlen := hw o (by simp) (by rw [he])
        rw [if_pos he, if_pos (by simp [hlen]), ih, Res.bind_ok]
        simp [he, ← hlen]
      · rw [if_neg he, ih]
        simp [he]

theorem obsCount_of_reads {W : ObsWorld} {m : ReadMap} {hm : Nat} (hroom : ∀ o : SatSys × List IdPairs, o ∈ m → o.1 = .galileo → o.2.length = hm) :
    ∀ (bs : List ObsEpochBlock) (exp : List (EpochHead × List SatVals)) (n : Nat) (ov : List SatVals) (sec : Rat) (buf : List Char) (s : Stream) (c : Nat),
    List.Forall₂ (fun b x => BlockSees W.mjdOf m buf.length b x.1 x.2) bs exp → 1 ≤ buf.length → s.good = true →
    s.rest = (bs.map ObsEpochBlock.text).flatten → (∀ x ∈ exp, x.2.length ≤ ov.length) → Room m ov → bs.length + 1 ≤ n →
    obsCount W m hm n ov sec buf s 0 c = .ok (c + bs.length + 1, -1, linesE12 exp) := by
  intro bs
  induction bs with
  | nil =>
    intro exp n ov sec buf s c hx _ hg hr _ _ hn
    cases hx
    obtain ⟨n, rfl⟩ : ∃ n', n = n' + 1 := ⟨n - 1, by simp at hn; omega⟩
    unfold obsCount
    rw [C58_eof W.mjdOf W.raw0 m ov buf s 0 hg (by simpa using hr), Res.bind_ok]
    simp only [Nat.zero_le, if_true, List.take_zero]
    rw [show obsPrint hm sec [] = .ok [] from rfl, Res.bind_ok]
    simp [linesE12, Res.pure_eq]
  | cons b bs ih =>
    intro exp n ov sec buf s c hx hn hg hr hlen hrm hfu
    obtain ⟨⟨h, out⟩, exp, hb, hx', rfl⟩ := List.forall₂_cons_left_iff.1 hx
    simp only at hb
    obtain ⟨n, rfl⟩ : ∃ n', n = n' + 1 := ⟨n - 1, by omega⟩
    have hr' : s.rest = b.text ++ (bs.map ObsEpochBlock.text).flatten := by simpa using hr
    obtain ⟨ov1, buf1, e1, e2, e3⟩ := C57_exact W.raw0 hb hn hg hr' (hlen (h, out) (by simp)) hrm
    have ih := ih exp n ov1 h.sec buf1 (s.past (b.head.line :: b.lines)) (c + 1) (by rw [e3]; exact hx') (by omega) hg
      (Stream.past_rest (by rw [hr']; rfl)) (fun x hxm => by rw [e2.length]; exact hlen x (by simp [hxm])) (e2.room hrm hb.gives.width)
      (by simp at hfu; omega)
    have hol : out.length ≤ ov1.length := by rw [e2.length]; exact hlen (h, out) (by simp)
    have hp := obsPrint_holds (hm := hm) (sec := h.sec) (vs := ov1.take out.length) (out := out) (by simp; omega)
      (by
        intro j o hj
        obtain ⟨e, _, he⟩ := e2.slots j o hj
        have hjl : j < out.length := by
          rcases Nat.lt_or_ge j out.length with hl | hl
          · exact hl
          · rw [List.getElem?_eq_none hl] at hj; simp at hj
        exact ⟨_, by rw [List.getElem?_take, if_pos hjl]; exact he⟩)
      (by
        intro o ho hsys
        obtain ⟨k, hk, hw⟩ := hb.gives.width o ho
        rw [hw]; exact hroom _ hk hsys)
    unfold obsCount
    rw [e1, Res.bind_ok]
    simp only
    rw [if_pos hol, hp, Res.bind_ok]
    simp only [if_true]
    rw [ih, Res.bind_ok]
    simp [linesE12, Res.pure_eq]
    omega

theorem check_width {obst : ObsTypes} {m : ReadMap} (hm : MapFor obst (keptRequests obst obsCheckRequest) m) {o : SatSys × List IdPairs} (ho : o ∈ m)
    (hs : o.1 = .galileo) : o.2.length = (((keptRequests obst obsCheckRequest).lookup .galileo).getD []).length := by
  obtain ⟨j, hj⟩ := List.mem_iff_getElem?.1 ho
  obtain ⟨e, he, h1, h2⟩ : ∃ e ∈ keptRequests obst obsCheckRequest, e.1 = o.1 ∧ e.2.length = o.2.length := by
    unfold MapFor at hm
    have hjl : j < m.length := by
      rcases Nat.lt_or_ge j m.length with h | h
      · exact h
      · rw [List.getElem?_eq_none h] at hj; simp at hj
    have hjr := hm.length_eq ▸ hjl
    have := (List.forall₂_iff_get.1 hm).2 j hjr hjl
    have hoe : m.get ⟨j, hjl⟩ = o := by
      rw [List.getElem?_eq_getElem hjl] at hj; simpa using hj
    rw [hoe] at this
    exact ⟨_, List.mem_of_mem_filter (List.get_mem _ _), this.1, this.2.length_eq⟩
  rw [← h2]
  have key : ∀ r : ReqMap, r.map (·.1) = [.gps, .glonass, .galileo] → e ∈ r → e.1 = .galileo → (r.lookup .galileo).getD [] = e.2 := by
    intro r hr hmem hg
    match r, hr with
    | [(a, x), (b, y), (c, z)], hr =>
      simp at hr
      obtain ⟨rfl, rfl, rfl⟩ := hr
      simp at hmem
      rcases hmem with rfl | rfl | rfl
      · simp at hg
      · simp at hg
      · rfl
  rw [key (keptRequests obst obsCheckRequest) rfl he (h1.trans hs)]

/-- **C91** (observation files).  For every file of a header (names and antennas of any kind, no list with a multiple of 13 types)
and any number of epochs of well formed fields, `test_obsrnx` prints one line for each epoch with data of E12, with the second of day
and what the code makes of the requested observables that the header lists; exits with 0 and reports end of file; but the number of
epochs it reports is **one more** than the file has.  (`exp`: what the epochs give for the part `m` of the request that can be formed.) -/
theorem C91_obs_one_too_many (W : ObsWorld) {prog name : List Char} (hgA : ∀ k, (W.gAnt k).length = 41) (hg0 : W.g0.length = 41)
    (hbuf : ∀ n, (W.buf0 n).length = n) {h : ObsHeader} (hw : h.Seen W.obsDate)
    (hsup : ∀ t ∈ h.items.filterMap ObsItem.types?, t.2.length % 13 ≠ 0) {m : ReadMap}
    (hm : MapFor (h.items.filterMap ObsItem.types?) (keptRequests (h.items.filterMap ObsItem.types?) obsCheckRequest) m)
    {types : SatSys × List ObsCode} (ht : (h.items.filterMap ObsItem.types?).lookup types.1 = some types.2)
    {bs : List ObsEpochBlock} {exp : List (EpochHead × List SatVals)}
    (hbs : List.Forall₂ (fun b x => BlockSees W.mjdOf m (16 * types.2.length + 4) b x.1 x.2) bs exp) (h80 : ∀ x ∈ exp, x.2.length ≤ 80)
    (hfuel : bs.length + 1 ≤ W.fuel) (hfile : W.files name = some (linesText h.lines ++ (bs.map ObsEpochBlock.text).flatten)) :
    obsCheck W [prog, name] = .ok (0, some (bs.length + 1, -1, linesE12 exp)) := by
  obtain ⟨o, s, h1, h2, h3, h4, h5, h6⟩ := C60_open_exact_partial (gAnt := W.gAnt) hgA hg0 W.junkObs W.buf0 hw hsup (bs.map ObsEpochBlock.text).flatten
  have hkept : keptRequests o.obst obsCheckRequest = keptRequests (h.items.filterMap ObsItem.types?) obsCheckRequest := by
    unfold keptRequests
    simp only [codesOf_congr h2.types]
  obtain ⟨m', e1, e2⟩ := C38_skip_missing o.obst obsCheckRequest (by
    intro e he x hx
    simp [obsCheckRequest] at he
    rcases he with rfl | rfl | rfl <;> simp at hx <;> rcases hx with rfl | rfl | rfl | rfl <;> simp) (by
    intro e he x hx p hp
    simp [obsCheckRequest] at he
    rcases he with rfl | rfl | rfl <;> simp at hx
    · rcases hx with rfl | rfl <;> simp at hp <;> aesop
    · rcases hx with rfl | rfl <;> simp at hp <;> aesop
    · rcases hx with rfl | rfl | rfl | rfl <;> simp at hp <;> aesop)
  rw [hkept] at e1 e2
  have hmm : m' = m := C38_unique (mapFor_congr h2.types e2) hm
  subst hmm
  have hsz := obsBufSize_ge (obst := o.obst) (q := types.1) (codes := types.2) (by rw [h2.types]; exact ht)
  have hc := obsCount_of_reads (W := W) (m := m') (hm := (((keptRequests (h.items.filterMap ObsItem.types?) obsCheckRequest).lookup .galileo).getD []).length)
    (fun o ho hs => check_width hm ho hs) bs exp W.fuel (initEpochVector m') W.sec0 (W.buf0 (obsBufSize o.obst)) s 0
    (hbs.imp (fun b x hb => by rw [hbuf]; exact hb.mono hsz)) (by rw [hbuf]; omega) h4 h5 (by rw [(C42_initial m').1]; exact h80) (C42_initial m').2.1 hfuel
  unfold obsCheck
  simp only [hfile, h1, e1, Res.bind_ok]
  rw [hc, Res.bind_ok]
  simp [Res.pure_eq, Res.noexcept_ok]

/-! ## Navigation files -/

/-- How often `read_next_record` leaves a frame of the satellite when the file is read to its end: once for each of its records, and
once more at the end of the file when the last record is one of them. -/
def framesSeen (sys : SatSys) (prn : Int) (rs : List NavItem) : Nat :=
  (rs.filter fun r => r.sys = sys ∧ r.prn = prn).length +
    (match rs.getLast? with
     | some r => if r.sys = sys ∧ r.prn = prn then 1 else 0
     | none => 0)

theorem navShow_ok {p : NavProg} {f : NavFrame} {dateOf : List Char → Res DateTime} {r : NavItem} (hc : Carries f r) (hv : p = .G → r.sys = .gps → r.WFV dateOf) :
    navShow p f = .ok () := by
  unfold navShow
  split
  · rename_i hp
    have hv := hv hp.1 (hc.sys ▸ hp.2)
    obtain ⟨h, hh⟩ := hv.health
    obtain ⟨fit, hf⟩ := hv.fit
    rw [svHealth_spec hc hh, fitInterval_spec hc hf]
    have : ∃ v, dataAt f.data 23 = .ok v := by
      unfold dataAt
      rw [List.getElem?_eq_getElem (by rw [hc.len]; omega)]
      exact ⟨_, rfl⟩
    obtain ⟨v, hv⟩ := this
    rw [hv]; rfl
  · rfl

/-- The first loop from a frame of record `q0`. -/
theorem navCount_rest {W : TabWorld} {p : NavProg} {prn : Int} : ∀ (rs : List NavItem) (q0 : NavItem) (n : Nat) (f : NavFrame) (s : Stream) (b k : Nat),
    Carries f q0 → (p = .G → q0.sys = .gps → q0.WFV W.navDate) → s.good = true → s.rest = fileText rs →
    (∀ r ∈ rs, r.WF W.navDate) → (p = .G → ∀ r ∈ rs, r.sys = .gps → r.WFV W.navDate) → rs.length + 1 ≤ n →
    ∃ g s', navCount W p prn n f s 0 b k = .ok ⟨g, s', 0, b + rs.length + 1,
        k + (rs.filter fun r => r.sys = p.sys ∧ r.prn = prn).length +
          (if ((q0 :: rs).getLastD q0).sys = p.sys ∧ ((q0 :: rs).getLastD q0).prn = prn then 1 else 0), -1⟩ ∧
      Carries g ((q0 :: rs).getLastD q0) ∧ s'.good = true ∧ s'.rest = [] ∧ s'.content = s.content := by
  intro rs
  induction rs with
  | nil =>
    intro q0 n f s b k hc hv hg hr _ _ hn
    obtain ⟨n, rfl⟩ : ∃ n', n = n' + 1 := ⟨n - 1, by simp at hn; omega⟩
    refine ⟨f, s, ?_, by simpa using hc, hg, by simpa [fileText] using hr, rfl⟩
    unfold navCount
    rw [C55_read_eof W.navDate _ f s 0 hg (by simpa [fileText] using hr), Res.bind_ok]
    simp only
    rw [navShow_ok hc hv, Res.bind_ok, if_neg (by decide), hc.sys, hc.prn]
    simp only [Res.pure_eq, List.getLastD_cons, List.getLastD_nil, List.filter_nil, List.length_nil, Nat.add_zero]
    by_cases h1 : q0.prn = prn <;> by_cases h2 : q0.sys = p.sys <;> simp [h1, h2]
  | cons r rs ih =>
    intro q0 n f s b k hc hv hg hr hw hwg hn
    obtain ⟨n, rfl⟩ : ∃ n', n = n' + 1 := ⟨n - 1, by omega⟩
    obtain ⟨g, h1, h2, _⟩ := C17_record W.navDate (W.navJunk s.pos) f s r (fileText rs) (hw r (by simp)) hg
      (by rw [hr, fileText_cons]) hc.len
    have hr' : (s.adv r.text.length).rest = fileText rs := Stream.adv_rest_append (by rw [hr, fileText_cons])
    obtain ⟨g', s', e1, e2, e3, e4, e5⟩ := ih r n g (s.adv r.text.length) (b + 1)
      (if g.prn = prn ∧ g.sys = p.sys then k + 1 else k) h2 (fun hp => hwg hp r (by simp)) hg hr'
      (fun x hx => hw x (by simp [hx])) (fun hp x hx => hwg hp x (by simp [hx])) (by simp at hn; omega)
    refine ⟨g', s', ?_, ?_, e3, e4, e5⟩
    · unfold navCount
      rw [h1, Res.bind_ok]
      simp only
      rw [navShow_ok h2 (fun hp => hwg hp r (by simp)), Res.bind_ok, if_pos trivial, e1]
      have hl : ((r :: rs).getLastD r) = ((q0 :: r :: rs).getLastD q0) := by simp only [List.getLastD_cons]
      rw [hl, h2.sys, h2.prn]
      congr 2
      · simp; omega
      · by_cases a1 : r.prn = prn <;> by_cases a2 : r.sys = p.sys <;> simp [a1, a2] <;> omega
    · have hl : ((r :: rs).getLastD r) = ((q0 :: r :: rs).getLastD q0) := by simp only [List.getLastD_cons]
      rw [← hl]; exact e2

/-- The arguments behind the file name give the satellite number: none (then it is 1), or one unsigned number. -/
def PrnArg (more : List (List Char)) (prn : Int) : Prop :=
  (more = [] ∧ prn = 1) ∨ ∃ ds, more = [ds] ∧ allDigits ds ∧ ds ≠ [] ∧ (Nat.ofDigitChars 10 ds 0 : Int) = prn ∧ prn < 2147483648

theorem navPrn_arg {a0 a1 : List Char} {more : List (List Char)} {prn : Int} (h : PrnArg more prn) :
    more.length ≤ 1 ∧ navPrn (a0 :: a1 :: more) = .ok (prn, 0) := by
  rcases h with ⟨rfl, rfl⟩ | ⟨ds, rfl, h2, h3, h4, h5⟩
  · exact ⟨by simp, rfl⟩
  · refine ⟨by simp, ?_⟩
    obtain ⟨r, hr⟩ := strtol_nat (tail := []) (l := ds) (off := 0) (v := Nat.ofDigitChars 10 ds 0)
      ⟨Nat.zero_le _, 0, ds, [], by simp, h2, h3, by simp, rfl, by omega⟩
    rw [h4] at hr
    have hr : strtolA (ds ++ [NUL]) = .ok (some (prn, r, false)) := by simpa using hr
    simp only [navPrn]
    rw [hr, Res.bind_ok]
    simp [strtolVal, strtolErr, Res.pure_eq, toInt32_small (show (-2147483648 : Int) ≤ prn by omega) h5]

/-- **C91** (navigation files).  For every file of a well formed header and well formed records (any number of them, at least one), the
check programs for GPS, Galileo, BeiDou and GLONASS files read through the whole file and report end of file; but the number of data
blocks they report is **one more** than the file has, and the number of blocks of the chosen GLONASS satellite is one too
many exactly when the last record of the file is one of them.  They can then rewind the file. -/
theorem C91_nav_one_too_many (W : TabWorld) (p : NavProg) {a0 name : List Char} {more : List (List Char)} {prn : Int} (hp : PrnArg more prn)
    (hfr : W.fresh.data.length = 31) {nh : NavHeader} (hh : nh.WF) {rs : List NavItem} (hne : rs ≠ []) (hw : ∀ r ∈ rs, r.WF W.navDate)
    (hwg : p = .G → ∀ r ∈ rs, r.sys = .gps → r.WFV W.navDate) (hfuel : rs.length + 1 ≤ W.fuel)
    (hfile : W.files name = some (linesText nh.lines ++ fileText rs)) :
    ∃ nav r e, navThrough W p (a0 :: name :: more) = .ok (.inr (nav, prn, r)) ∧ r.blocks = rs.length + 1 ∧ r.status = -1 ∧
      r.ofSat = framesSeen p.sys prn rs ∧ r.errno = 0 ∧ r.frame.data.length = 31 ∧
      nav.endOfHead = some e ∧ (navRewind e r.strm none).good = true ∧ (navRewind e r.strm none).rest = fileText rs := by
  obtain ⟨q, qs, rfl⟩ : ∃ q qs, rs = q :: qs := by
    cases rs with
    | nil => exact absurd rfl hne
    | cons q qs => exact ⟨q, qs, rfl⟩
  obtain ⟨hlen, hprn⟩ := navPrn_arg (a0 := a0) (a1 := name) hp
  obtain ⟨nav, e, h1, _, _, h4, h5, h6, h7, h8⟩ := C56_open W.junkNav hh (fileText (q :: qs))
  obtain ⟨n, hn⟩ : ∃ n, W.fuel = n + 1 := ⟨W.fuel - 1, by omega⟩
  obtain ⟨g, g1, g2, _⟩ := C17_record W.navDate (W.navJunk nav.strm.pos) W.fresh nav.strm q (fileText qs) (hw q (by simp)) h6
    (by rw [h7, fileText_cons]) hfr
  have hr' : (nav.strm.adv q.text.length).rest = fileText qs := Stream.adv_rest_append (by rw [h7, fileText_cons])
  obtain ⟨g', s', e1, e2, e3, e4, e5⟩ := navCount_rest (W := W) (p := p) (prn := prn) qs q n g (nav.strm.adv q.text.length) 1
    (if g.prn = prn ∧ g.sys = p.sys then 0 + 1 else 0) g2 (fun hp => hwg hp q (by simp)) h6 hr'
    (fun x hx => hw x (by simp [hx])) (fun hp x hx => hwg hp x (by simp [hx])) (by simp at hfuel; omega)
  generalize hk : ((if g.prn = prn ∧ g.sys = p.sys then 0 + 1 else 0) + (qs.filter fun r => r.sys = p.sys ∧ r.prn = prn).length +
    (if ((q :: qs).getLastD q).sys = p.sys ∧ ((q :: qs).getLastD q).prn = prn then 1 else 0)) = k at e1
  have hc : navCount W p prn W.fuel W.fresh nav.strm 0 0 0 = .ok ⟨g', s', 0, 1 + qs.length + 1, k, -1⟩ := by
    rw [hn]
    unfold navCount
    rw [g1, Res.bind_ok]
    simp only
    rw [navShow_ok g2 (fun hp => hwg hp q (by simp)), Res.bind_ok, if_pos trivial]
    exact e1
  have hrw := h8 s' (by rw [e5]; rfl) (by have := (Stream.good_iff s').1 e3; exact this.2)
  refine ⟨nav, ⟨g', s', 0, 1 + qs.length + 1, k, -1⟩, e, ?_, ?_, ?_, ?_, ?_, e2.len, h4, ?_, ?_⟩
  · unfold navThrough
    simp only [if_pos hlen, hprn, Res.bind_ok]
    unfold tabFile
    simp only [hfile, Res.bind_ok, h1]
    rw [hc, Res.bind_ok]
    rfl
  · simp; omega
  · rfl
  · show k = framesSeen p.sys prn (q :: qs)
    rw [← hk]
    unfold framesSeen
    rw [g2.sys, g2.prn, List.getLastD_cons, List.getLast?_cons]
    have hl : qs.getLastD q = (qs.getLast?).getD q := by
      rw [List.getLastD_eq_getLast?]
    rw [hl]
    by_cases a1 : q.prn = prn <;> by_cases a2 : q.sys = p.sys <;> simp [a1, a2] <;> omega
  · rfl
  · rw [hrw]; exact h6
  · rw [hrw]; exact h7

end Ggnss
