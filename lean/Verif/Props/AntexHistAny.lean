import Verif.Props.AntexHist
import Verif.Props.AntexAny
import Verif.Props.AntexOffsets
/-!
# C36 on arbitrary bytes: which histories change which answers
-/
namespace Ggnss

theorem tellg_content (s : Stream) : s.tellg.2.content = s.content := by
  unfold Stream.tellg; split <;> rfl

theorem matchEnd_strm {st : Int} {st2 : Option Int} {best : List Char} {bp : Option Nat} {s : Stream} {m : AtxMatch} (h : atxMatchEnd st st2 best bp s = .ok m) : m.strm = s := by
  unfold atxMatchEnd at h
  split at h
  · cases h; rfl
  · split at h
    · cases h
    · split at h <;> (cases h; rfl)

theorem matchLoop_content {J : AtxJunk} {antIn : List Char} : ∀ (fuel : Nat) (cur best : List Char) (bp : Option Nat) (st2 : Option Int) (s : Stream) (m : AtxMatch),
    atxMatchLoop J antIn fuel cur best bp st2 s = .ok m → m.strm.content = s.content := by
  intro fuel
  induction fuel with
  | zero => intro cur best bp st2 s m h; cases h
  | succ fuel ih =>
    intro cur best bp st2 s m h
    rw [atxMatchLoop] at h
    obtain ⟨r, hr, h⟩ := Res.bind_eq_ok.1 h
    have hr := readType_content hr
    split at h
    · rw [matchEnd_strm h]; exact hr
    · obtain ⟨same, _, h⟩ := Res.bind_eq_ok.1 h
      split at h
      · cases h; exact (tellg_content _).trans hr
      · obtain ⟨cm, _, h⟩ := Res.bind_eq_ok.1 h
        obtain ⟨hs, _, h⟩ := Res.bind_eq_ok.1 h
        simp only at h
        obtain ⟨k, hk, h⟩ := Res.bind_eq_ok.1 h
        have hk := skipLoop_content _ _ _ _ hk
        have hb : (if (cm && !hs) = true then (r.ant, r.strm.tellg) else (best, (bp, r.strm))).2.2.content = r.strm.content := by
          split
          · exact tellg_content _
          · rfl
        rw [hb] at hk
        split at h
        · rw [matchEnd_strm h]; exact hk.trans hr
        · exact (ih _ _ _ _ _ _ h).trans (hk.trans hr)

theorem satEnd_strm {st : Int} {st2 : Option Int} {pos : Option Nat} {sat : AtxSat} {s : Stream} {m : AtxSatOut} (h : atxSatEnd st st2 pos sat s = .ok m) : m.strm = s := by
  unfold atxSatEnd at h
  split at h
  · cases h; rfl
  · split at h
    · cases h
    · split at h <;> (cases h; rfl)

theorem satLoop_content {strptime : List Char → Res DateTime} {J : AtxJunk} {prn : Int} {ss : SatSys} {eph : DateTime} :
    ∀ (fuel : Nat) (cur c : List Char) (sat : AtxSat) (pos : Option Nat) (st2 : Option Int) (s : Stream) (m : AtxSatOut),
    atxSatLoop strptime J prn ss eph fuel cur c sat pos st2 s = .ok m → m.strm.content = s.content := by
  intro fuel
  induction fuel with
  | zero => intro cur c sat pos st2 s m h; cases h
  | succ fuel ih =>
    intro cur c sat pos st2 s m h
    rw [atxSatLoop] at h
    obtain ⟨r, hr, h⟩ := Res.bind_eq_ok.1 h
    have hr := readType_content hr
    split at h
    · rw [satEnd_strm h]; exact hr
    · simp only at h
      obtain ⟨t, ht, h⟩ := Res.bind_eq_ok.1 h
      have ht := (satTest_content ht).trans ((tellg_content _).trans hr)
      split at h
      · cases h; exact ht
      · obtain ⟨k, hk, h⟩ := Res.bind_eq_ok.1 h
        have hk := (skipLoop_content _ _ _ _ hk).trans ht
        split at h
        · rw [satEnd_strm h]; exact hk
        · exact (ih _ _ _ _ _ _ _ h).trans hk

theorem scanTo_content {n : Nat} {pat : List Char} : ∀ (fuel : Nat) (buf : List Char) (s : Stream) (r : List Char × Stream), atxScanTo n pat fuel buf s = .ok r →
    r.2.content = s.content := by
  intro fuel
  induction fuel with
  | zero => intro buf s r h; cases h
  | succ fuel ih =>
    intro buf s r h
    rw [atxScanTo] at h
    split at h
    · cases h; exact Stream.getline_content rfl
    · obtain ⟨e, _, h⟩ := Res.bind_eq_ok.1 h
      split at h
      · cases h; exact Stream.getline_content rfl
      · exact (ih _ _ _ h).trans (Stream.getline_content rfl)

theorem pcoAtFreq_content {fuel : Nat} {hline gline : List Char} {s : Stream} {r : (List Char × List Char × Stream) ⊕ (Int × Stream)}
    (h : pcoAtFreq fuel hline gline s = .ok r) : (∀ x, r = .inl x → x.2.2.content = s.content) ∧ ∀ x, r = .inr x → x.2.content = s.content := by
  unfold pcoAtFreq at h
  obtain ⟨a, _, h⟩ := Res.bind_eq_ok.1 h
  split at h
  · cases h; exact ⟨fun x hx => (by cases hx; rfl), fun x hx => (by cases hx)⟩
  · obtain ⟨b, _, h⟩ := Res.bind_eq_ok.1 h
    split at h
    · obtain ⟨u, hu, h⟩ := Res.bind_eq_ok.1 h
      have hu := scanTo_content _ _ _ _ hu
      obtain ⟨e, he, h⟩ := Res.bind_eq_ok.1 h
      have he := (expect_content he).trans hu
      split at h
      · cases h; exact ⟨fun x hx => (by cases hx; exact he), fun x hx => (by cases hx)⟩
      · cases h; exact ⟨fun x hx => (by cases hx), fun x hx => (by cases hx; exact he)⟩
    · cases h; exact ⟨fun x hx => (by cases hx), fun x hx => (by cases hx; rfl)⟩

theorem pcoLoop_content {fuel : Nat} : ∀ (n : Nat) (hline gline : List Char) (list : List Pco) (s : Stream) (r : Int × List Pco × Stream),
    pcoLoop fuel n hline gline list s = .ok r → r.2.2.content = s.content := by
  intro n
  induction n with
  | zero => intro hline gline list s r h; cases h; rfl
  | succ n ih =>
    intro hline gline list s r h
    rw [pcoLoop] at h
    obtain ⟨x, hx, h⟩ := Res.bind_eq_ok.1 h
    obtain ⟨h1, h2⟩ := pcoAtFreq_content hx
    rcases x with ⟨hl, gl, s1⟩ | ⟨st, s1⟩
    · have h1 := h1 _ rfl
      simp only at h h1
      obtain ⟨y, _, h⟩ := Res.bind_eq_ok.1 h
      rcases y with _ | ⟨sys, bn⟩
      · cases h; exact h1
      · simp only at h
        obtain ⟨a, ha, h⟩ := Res.bind_eq_ok.1 h
        have ha := (expect_content ha).trans h1
        split at h
        · cases h; exact ha
        · obtain ⟨_, _, h⟩ := Res.bind_eq_ok.1 h
          obtain ⟨_, _, h⟩ := Res.bind_eq_ok.1 h
          obtain ⟨_, _, h⟩ := Res.bind_eq_ok.1 h
          obtain ⟨e, he, h⟩ := Res.bind_eq_ok.1 h
          have he := (scanTo_content _ _ _ _ he).trans ha
          exact (ih _ _ _ _ _ h).trans ((Stream.getline_content rfl).trans he)
    · cases h; exact h2 _ rfl

theorem collectPco_content {J : AtxJunk} {fuel : Nat} {list : List Pco} {s : Stream} {r : Int × List Pco × Stream} (h : collectPco J fuel list s = .ok r) :
    r.2.2.content = s.content := by
  unfold collectPco at h
  have h := Res.noexcept_eq_ok.1 h
  obtain ⟨a, ha, h⟩ := Res.bind_eq_ok.1 h
  have ha := expect_content ha
  split at h
  · cases h; exact ha
  obtain ⟨b, hb, h⟩ := Res.bind_eq_ok.1 h
  have hb := (expect_content hb).trans ha
  split at h
  · cases h; exact hb
  obtain ⟨c, hc, h⟩ := Res.bind_eq_ok.1 h
  have hc := (expect_content hc).trans hb
  split at h
  · cases h; exact hc
  obtain ⟨d, hd, h⟩ := Res.bind_eq_ok.1 h
  have hd := (expect_content hd).trans hc
  split at h
  · cases h; exact hd
  split at h
  · obtain ⟨e, he, h⟩ := Res.bind_eq_ok.1 h
    exact (pcoLoop_content _ _ _ _ _ _ h).trans ((scanTo_content _ _ _ _ he).trans hd)
  · cases h; exact hd

/-- A query leaves the bytes of the file and the position of the first record alone. -/
theorem AtxQuery.run_keeps {strptime : List Char → Res DateTime} {J : AtxJunk} {cospar : List Char} {fuel : Nat} {f : AtxFile} {q : AtxQuery}
    {a : (Int × List (SatSys × Int × Rat × Rat × Rat) × Option (SatSys × Int × Int × List Char)) × AtxFile} (h : q.run strptime J cospar fuel f = .ok a) :
    a.2.endOfHead = f.endOfHead ∧ a.2.sys = f.sys ∧ a.2.strm.content = f.strm.content := by
  cases q with
  | receiver ant k ss must =>
    simp only [AtxQuery.run] at h
    obtain ⟨r, hr, h⟩ := Res.bind_eq_ok.1 h
    cases h
    unfold atxPcoReceiver at hr
    obtain ⟨m, hm, hr⟩ := Res.bind_eq_ok.1 hr
    have hm : m.strm.content = f.strm.content := by
      unfold atxFindMatch at hm
      have hm := Res.noexcept_eq_ok.1 hm
      simp only at hm
      obtain ⟨c, _, hm⟩ := Res.bind_eq_ok.1 hm
      exact (matchLoop_content _ _ _ _ _ _ _ hm).trans (atxSeek_content _ _)
    split at hr
    · cases hr; exact ⟨rfl, rfl, hm⟩
    · split at hr
      · cases hr; exact ⟨rfl, rfl, hm⟩
      · obtain ⟨c, hc, hr⟩ := Res.bind_eq_ok.1 hr
        cases hr
        exact ⟨rfl, rfl, (collectPco_content hc).trans ((atxSeek_content _ _).trans hm)⟩
  | satPco prn ss eph =>
    simp only [AtxQuery.run] at h
    obtain ⟨r, hr, h⟩ := Res.bind_eq_ok.1 h
    cases h
    unfold atxPcoSatellite at hr
    obtain ⟨m, hm, hr⟩ := Res.bind_eq_ok.1 hr
    have hm : m.strm.content = f.strm.content := by
      unfold atxFindSat at hm
      have hm := Res.noexcept_eq_ok.1 hm
      simp only at hm
      obtain ⟨c, _, hm⟩ := Res.bind_eq_ok.1 hm
      exact (satLoop_content _ _ _ _ _ _ _ _ hm).trans (atxSeek_content _ _)
    split at hr
    · cases hr; exact ⟨rfl, rfl, hm⟩
    · obtain ⟨c, hc, hr⟩ := Res.bind_eq_ok.1 hr
      cases hr
      exact ⟨rfl, rfl, (collectPco_content hc).trans ((atxSeek_content _ _).trans hm)⟩
  | satInfo prn ss eph =>
    simp only [AtxQuery.run] at h
    obtain ⟨r, hr, h⟩ := Res.bind_eq_ok.1 h
    cases h
    unfold atxSatInfo at hr
    obtain ⟨m, hm, hr⟩ := Res.bind_eq_ok.1 hr
    cases hr
    unfold atxFindSat at hm
    have hm := Res.noexcept_eq_ok.1 hm
    simp only at hm
    obtain ⟨c, _, hm⟩ := Res.bind_eq_ok.1 hm
    exact ⟨rfl, rfl, (satLoop_content _ _ _ _ _ _ _ _ hm).trans (atxSeek_content _ _)⟩

/-- Objects on the same bytes, both without a failbit: the next query starts from the same state. -/
theorem atxSeek_same {s t : Stream} (h : s.content = t.content) (hs : s.fail = false) (ht : t.fail = false) {p : Option Nat} (hp : p ≠ none) : atxSeek s p = atxSeek t p := by
  obtain ⟨c, q, e, b⟩ := s
  obtain ⟨c', q', e', b'⟩ := t
  simp only at h hs ht
  subst h hs ht
  cases p with
  | none => exact absurd rfl hp
  | some p => rfl

/-- ... and gives the same in every respect. -/
theorem AtxQuery.run_same {strptime : List Char → Res DateTime} {J : AtxJunk} {cospar : List Char} {fuel : Nat} {f g : AtxFile} {q : AtxQuery}
    (h1 : g.endOfHead = f.endOfHead) (h2 : g.sys = f.sys) (h3 : g.strm.content = f.strm.content) (hf : f.strm.fail = false) (hg : g.strm.fail = false) (hp : f.endOfHead ≠ none) :
    q.run strptime J cospar fuel g = q.run strptime J cospar fuel f := by
  obtain ⟨p, sy, s⟩ := f
  obtain ⟨p', sy', t⟩ := g
  simp only at h1 h2 h3 hf hg hp
  subst h1 h2
  have e : atxSeek t p' = atxSeek s p' := atxSeek_same h3 hg hf hp
  cases q with
  | receiver ant k ss must => simp only [AtxQuery.run, atxPcoReceiver, atxFindMatch, e]
  | satPco prn ss eph => simp only [AtxQuery.run, atxPcoSatellite, atxFindSat, e]
  | satInfo prn ss eph => simp only [AtxQuery.run, atxSatInfo, atxFindSat, e]

theorem seek_failed {s : Stream} (h : s.fail = true) (p : Option Nat) : (atxSeek s p).fail = true ∧ (atxSeek s p).eof = false := by
  obtain ⟨c, q, e, b⟩ := s
  simp only at h
  subst h
  cases p with
  | none => exact ⟨rfl, rfl⟩
  | some p => exact ⟨rfl, rfl⟩

/-- A failed stream gives no record. -/
theorem readType_failed {J : AtxJunk} {cur c : List Char} {s : Stream} (h : s.fail = true) (he : s.eof = false) :
    ∃ s', s'.fail = true ∧ atxReadType J cur c s = .ok ⟨10, cur, c, s'⟩ := by
  have hg : s.getline ATX_HEADER_CHARS = ([], { s with fail := true }) := by
    unfold Stream.getline
    rw [if_neg (by rw [Stream.good_iff]; simp [h])]
  refine ⟨{ s with fail := true }, rfl, ?_⟩
  unfold atxReadType atxExpect
  simp only [hg, if_true, Res.pure_eq, Res.bind_ok, he]
  rfl

/-- A failed object answers every query with status 1 and stays failed. -/
theorem AtxQuery.run_failed {strptime : List Char → Res DateTime} {c : AtxCall} (hc : c.OK) {fuel : Nat} {g : AtxFile} (hg : g.strm.fail = true) :
    ∃ g', g'.strm.fail = true ∧ c.q.run strptime c.J c.cospar (fuel + 1) g = .ok ((1, [], none), g') := by
  obtain ⟨h1, h2⟩ := seek_failed hg g.endOfHead
  have hinit : ∀ p, ∃ a, antInit (c.J.ant p) = .ok a := fun p => ⟨_, antInit_eq _ (hc.J.ant p)⟩
  obtain ⟨a, ha⟩ := hinit (atxSeek g.strm g.endOfHead).pos
  have hsat : ∀ prn ss eph, ∃ m, m.status = 1 ∧ m.strm.fail = true ∧ atxFindSat strptime c.J c.cospar (fuel + 1) g prn ss eph = .ok m := by
    intro prn ss eph
    obtain ⟨s', f', e'⟩ := readType_failed (J := c.J) (cur := a) (c := c.J.head (atxSeek g.strm g.endOfHead).pos) h1 h2
    refine ⟨⟨1, some 0, ⟨.mixed, -1, -1, List.replicate 21 NUL, c.cospar⟩, s'⟩, rfl, f', ?_⟩
    unfold atxFindSat
    simp only [ha, Res.bind_ok]
    rw [atxSatLoop, e', Res.bind_ok]
    rfl
  cases hq : c.q with
  | receiver ant k ss must =>
    obtain ⟨s', f', e'⟩ := readType_failed (J := c.J) (cur := a) (c := c.J.head (atxSeek g.strm g.endOfHead).pos) h1 h2
    refine ⟨{ g with strm := s' }, f', ?_⟩
    have hm : atxFindMatch c.J (fuel + 1) g ant = .ok ⟨1, a, some 0, s'⟩ := by
      unfold atxFindMatch
      simp only [ha, Res.bind_ok]
      rw [atxMatchLoop, e', Res.bind_ok]
      rfl
    simp only [AtxQuery.run, atxPcoReceiver, hm, Res.bind_ok]
    rfl
  | satPco prn ss eph =>
    obtain ⟨m, m1, m2, m3⟩ := hsat prn ss eph
    refine ⟨{ g with strm := m.strm }, m2, ?_⟩
    simp only [AtxQuery.run, atxPcoSatellite, m3, Res.bind_ok]
    rw [if_pos (by omega), m1]
    rfl
  | satInfo prn ss eph =>
    obtain ⟨m, m1, m2, m3⟩ := hsat prn ss eph
    refine ⟨{ g with strm := m.strm }, m2, ?_⟩
    simp only [AtxQuery.run, atxSatInfo, m3, Res.bind_ok, Res.pure_eq, m1]
    rfl

/-- The query, made on the object as it was opened, leaves it with a failbit. -/
def Spoils (strptime : List Char → Res DateTime) (fuel : Nat) (f : AtxFile) (c : AtxCall) : Prop :=
  ∃ a g, c.q.run strptime c.J c.cospar fuel f = .ok (a, g) ∧ g.strm.fail = true

/-- **C36** (arbitrary bytes).  After any history of queries that returned, made on an object just opened: if none of these queries spoils the object, every
query does exactly what it does on the object just opened; if one of them does, every query answers with status 1, no offsets and no satellite, for ever after. -/
theorem C36_history_iff {strptime : List Char → Res DateTime} {f g : AtxFile} (hf : f.strm.fail = false) (hp : f.endOfHead ≠ none) {fuel : Nat} {history : List AtxCall}
    (hok : ∀ c ∈ history, c.OK) (hrun : atxHistory strptime (fuel + 1) history f = .ok g) :
    ((∀ c ∈ history, ¬ Spoils strptime (fuel + 1) f c) ∧ ∀ c : AtxCall, c.q.run strptime c.J c.cospar (fuel + 1) g = c.q.run strptime c.J c.cospar (fuel + 1) f) ∨
    ((∃ c ∈ history, Spoils strptime (fuel + 1) f c) ∧ ∀ more : List AtxCall, (∀ c ∈ more, c.OK) → ∃ g', atxHistory strptime (fuel + 1) more g = .ok g' ∧
      ∀ c : AtxCall, c.OK → ∃ g'', c.q.run strptime c.J c.cospar (fuel + 1) g' = .ok ((1, [], none), g'')) := by
  have dead : ∀ (more : List AtxCall) (g : AtxFile), g.strm.fail = true → (∀ c ∈ more, c.OK) → ∃ g', g'.strm.fail = true ∧ atxHistory strptime (fuel + 1) more g = .ok g' := by
    intro more
    induction more with
    | nil => intro g hg _; exact ⟨g, hg, rfl⟩
    | cons c cs ih =>
      intro g hg hmo
      obtain ⟨g1, h1, h2⟩ := AtxQuery.run_failed (strptime := strptime) (hmo c (by simp)) (fuel := fuel) hg
      obtain ⟨g2, h3, h4⟩ := ih g1 h1 (fun x hx => hmo x (by simp [hx]))
      exact ⟨g2, h3, by rw [atxHistory, h2, Res.bind_ok, h4]⟩
  have key : ∀ (history : List AtxCall) (f1 : AtxFile), f1.endOfHead = f.endOfHead → f1.sys = f.sys → f1.strm.content = f.strm.content → f1.strm.fail = false →
      (∀ c ∈ history, c.OK) → atxHistory strptime (fuel + 1) history f1 = .ok g →
      ((∀ c ∈ history, ¬ Spoils strptime (fuel + 1) f c) ∧ g.endOfHead = f.endOfHead ∧ g.sys = f.sys ∧ g.strm.content = f.strm.content ∧ g.strm.fail = false) ∨
      ((∃ c ∈ history, Spoils strptime (fuel + 1) f c) ∧ g.strm.fail = true) := by
    intro history
    induction history with
    | nil => intro f1 a1 a2 a3 a4 _ h; cases h; exact Or.inl ⟨by simp, a1, a2, a3, a4⟩
    | cons c cs ih =>
      intro f1 a1 a2 a3 a4 hok h
      rw [atxHistory] at h
      obtain ⟨⟨a, f2⟩, hr, h⟩ := Res.bind_eq_ok.1 h
      obtain ⟨k1, k2, k3⟩ := AtxQuery.run_keeps hr
      have hr0 := hr
      rw [AtxQuery.run_same a1 a2 a3 hf a4 hp] at hr0
      simp only at h k1 k2 k3
      cases hfail : f2.strm.fail with
      | true =>
        right
        refine ⟨⟨c, by simp, a, f2, hr0, hfail⟩, ?_⟩
        obtain ⟨g', h1, h2⟩ := dead cs f2 hfail (fun x hx => hok x (by simp [hx]))
        rw [h2] at h
        cases h
        exact h1
      | false =>
        have hc : ¬ Spoils strptime (fuel + 1) f c := by
          rintro ⟨a', g', e1, e2⟩
          rw [hr0] at e1
          cases e1
          rw [hfail] at e2
          cases e2
        rcases ih f2 (k1.trans a1) (k2.trans a2) (k3.trans a3) hfail (fun x hx => hok x (by simp [hx])) h with ⟨i1, i2⟩ | ⟨⟨x, hx, hx'⟩, i2⟩
        · left
          refine ⟨fun x hx => ?_, i2⟩
          rcases List.mem_cons.1 hx with rfl | hx
          · exact hc
          · exact i1 x hx
        · exact Or.inr ⟨⟨x, by simp [hx], hx'⟩, i2⟩
  rcases key history f rfl rfl rfl hf hok hrun with ⟨h1, h2, h3, h4, h5⟩ | ⟨h1, h2⟩
  · exact Or.inl ⟨h1, fun c => AtxQuery.run_same h2 h3 h4 hf h5 hp⟩
  · refine Or.inr ⟨h1, fun more hm => ?_⟩
    obtain ⟨g', h3, h4⟩ := dead more g h2 hm
    refine ⟨g', h4, fun c hc => ?_⟩
    obtain ⟨g'', _, h⟩ := AtxQuery.run_failed (strptime := strptime) hc (fuel := fuel) h3
    exact ⟨g'', h⟩

end Ggnss
