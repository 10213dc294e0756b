import Verif.Props.AntexOpen
/-!
# C52, C53: ANTEX files with arbitrary content
-/
namespace Ggnss

/-- No undefined behaviour, and the call ends. -/
def Sane {α : Type} (x : Res α) : Prop := x ≠ .ub ∧ x ≠ .diverge

theorem Sane.ok {α : Type} (a : α) : Sane (Res.ok a) := ⟨by simp, by simp⟩
theorem Sane.pure {α : Type} (a : α) : Sane (Pure.pure a : Res α) := Sane.ok a

theorem Sane.bind {α β : Type} {x : Res α} {f : α → Res β} (hx : Sane x) (hf : ∀ a, x = .ok a → Sane (f a)) : Sane (x >>= f) := by
  cases x with
  | ok a => exact hf a rfl
  | ub => exact absurd rfl hx.1
  | diverge => exact absurd rfl hx.2
  | throw e => exact ⟨by simp, by simp⟩
  | terminate => exact ⟨by simp, by simp⟩

theorem Sane.noexcept {α : Type} {x : Res α} (h : Sane x) : Sane x.noexcept := by
  cases x with
  | ok a => exact h
  | ub => exact absurd rfl h.1
  | diverge => exact absurd rfl h.2
  | throw e => exact ⟨by simp, by simp⟩
  | terminate => exact ⟨by simp, by simp⟩

theorem noexcept_ne_throw {α : Type} (x : Res α) (e : Exc) : x.noexcept ≠ .throw e := by
  cases x <;> simp

theorem fill_length {n : Nat} {buf l : List Char} (hb : buf.length = n + 1) (hl : l.length ≤ n) : (fillLine buf l).length = n + 1 := by
  simp [fillLine, hb]; omega

theorem strncmpEq_room {pat : List Char} : ∀ {a : List Char}, pat.length ≤ a.length → ∃ b, strncmpEq pat.length a (cArr pat) = .ok b := by
  induction pat with
  | nil => intro a _; exact ⟨true, by simp [strncmpEq]⟩
  | cons p ps ih =>
    intro a h
    cases a with
    | nil => simp at h
    | cons x xs =>
      simp only [List.length_cons, cArr, List.cons_append, strncmpEq]
      split
      · split
        · exact ⟨_, rfl⟩
        · exact ih (by simpa using h)
      · exact ⟨_, rfl⟩

theorem atxLabel_any {buf pat : List Char} (h : 60 + pat.length ≤ buf.length) : ∃ b, atxLabel buf pat = .ok b :=
  strncmpEq_room (by simp; omega)

theorem atxSkipHeader_any : ∀ (left : Nat) (buf : List Char) (s : Stream), buf.length = 85 →
    ∃ r, atxSkipHeader left buf s = .ok r := by
  intro left
  induction left with
  | zero => intro buf s _; exact ⟨_, rfl⟩
  | succ left ih =>
    intro buf s h
    obtain ⟨b, hb⟩ := atxLabel_any (buf := buf) (pat := c!"END OF HEADER") (by rw [h]; decide)
    unfold atxSkipHeader
    rw [hb, Res.bind_ok]
    split
    · exact ⟨_, rfl⟩
    · exact ih _ _ (fill_length h (by simpa [ATX_HEADER_CHARS] using getline_lenN s ATX_HEADER_CHARS))

/-- **C52** (any file).  Opening a file, whatever it contains, ends with an object or with
`std::runtime_error`. -/
theorem C52_open_any {J : AtxJunk} (hJ : J.WF) (content : List Char) :
    (∃ f, atxOpen J content = .ok f) ∨ atxOpen J content = .throw .runtime_error := by
  have key : ∃ r, atxReadHeader J ⟨content, 0, false, false⟩ = .ok r := by
    unfold atxReadHeader
    generalize (⟨content, 0, false, false⟩ : Stream).seekg 0 = s
    have hf : ∀ (buf : List Char) (s : Stream), buf.length = 85 → (fillLine buf (s.getline ATX_HEADER_CHARS).1).length = 85 :=
      fun buf s h => fill_length h (by simpa [ATX_HEADER_CHARS] using getline_lenN s ATX_HEADER_CHARS)
    have h1 := hf (J.head s.pos) s (hJ.head _)
    have hset : ∃ b, setAt (fillLine (J.head s.pos) (s.getline ATX_HEADER_CHARS).1) 15 NUL = .ok b ∧ b.length = 85 ∧ NUL ∈ b := by
      unfold setAt
      rw [memcpyAt_ok (by rw [h1]; decide)]
      exact ⟨_, rfl, by simp [h1], by simp⟩
    obtain ⟨b, e1, e2, e3⟩ := hset
    simp only [e1, Res.bind_ok]
    have hv : strtodA b = .ok (strtod b) := by unfold strtodA; rw [if_pos e3]
    rw [hv, Res.bind_ok]
    have rest : ∀ fv : Rat, ∃ r, (if ¬(|fv - 14 / 10| < 1 / 1000 ∨ |fv - 13 / 10| < 1 / 1000) then
          pure (10, some 0, SatSys.mixed, (s.getline ATX_HEADER_CHARS).2)
        else do
          match charToSatsys (← getAt b 20) with
            | Res.ok sys => do
              if (← getAt (fillLine b ((s.getline ATX_HEADER_CHARS).2.getline ATX_HEADER_CHARS).1) 0) ≠ 'A' then
                pure (12, some 0, sys, ((s.getline ATX_HEADER_CHARS).2.getline ATX_HEADER_CHARS).2)
              else do
                let r ← atxSkipHeader 1000
                    (fillLine (fillLine b ((s.getline ATX_HEADER_CHARS).2.getline ATX_HEADER_CHARS).1)
                      (((s.getline ATX_HEADER_CHARS).2.getline ATX_HEADER_CHARS).2.getline ATX_HEADER_CHARS).1)
                    (((s.getline ATX_HEADER_CHARS).2.getline ATX_HEADER_CHARS).2.getline ATX_HEADER_CHARS).2
                if r.1 = 0 then pure (20, some 0, sys, r.2) else pure (0, r.2.tellg.1, sys, r.2.tellg.2)
            | _ => pure (11, some 0, SatSys.mixed, (s.getline ATX_HEADER_CHARS).2) : Res (Int × Option Nat × SatSys × Stream)) = .ok r := by
      intro fv
      split
      · exact ⟨_, rfl⟩
      · rw [getAt_lt (by omega : 20 < b.length), Res.bind_ok]
        split
        · have h2 := hf b (s.getline ATX_HEADER_CHARS).2 e2
          rw [getAt_lt (by omega : 0 < (fillLine b ((s.getline ATX_HEADER_CHARS).2.getline ATX_HEADER_CHARS).1).length), Res.bind_ok]
          split
          · exact ⟨_, rfl⟩
          · obtain ⟨r, hr⟩ := atxSkipHeader_any 1000 _ ((((s.getline ATX_HEADER_CHARS).2).getline ATX_HEADER_CHARS).2.getline ATX_HEADER_CHARS).2
              (hf _ (((s.getline ATX_HEADER_CHARS).2).getline ATX_HEADER_CHARS).2 h2)
            rw [hr, Res.bind_ok]
            split
            · exact ⟨_, rfl⟩
            · exact ⟨_, rfl⟩
        · exact ⟨_, rfl⟩
    split
    · rename_i x _
      obtain ⟨r, hr⟩ := rest x.1
      exact ⟨r, congrArg Res.noexcept hr⟩
    · obtain ⟨r, hr⟩ := rest 0
      exact ⟨r, congrArg Res.noexcept hr⟩
  obtain ⟨r, hr⟩ := key
  unfold atxOpen
  rw [hr, Res.bind_ok]
  split
  · exact Or.inr rfl
  · exact Or.inl ⟨_, rfl⟩

/-! ## The receiver query on arbitrary files -/

/-- Every array on the stack happens to end with a zero byte. -/
structure AtxJunk.Term (J : AtxJunk) : Prop where
  head : ∀ p, TermN 84 (J.head p)
  grid : ∀ p, TermN 511 (J.grid p)
  ant : ∀ p, (J.ant p).length = 41

theorem rest_le (s : Stream) : s.rest.length ≤ s.content.length := by simp [Stream.rest]

theorem getline_le {s : Stream} (n : Nat) : (s.getline n).2.rest.length ≤ s.rest.length := by
  unfold Stream.getline
  split
  · simp only
    split
    · split
      · simp [Stream.rest]; omega
      · simp [Stream.rest]; omega
    · simp [Stream.rest]; omega
  · exact Nat.le_refl _

theorem expect_any {n : Nat} {pat buf : List Char} (hp : 60 + pat.length ≤ n + 1) (hb : TermN n buf) (s : Stream) :
    ∃ r, atxExpect (n + 1) pat buf s = .ok r ∧ TermN n r.2.1 ∧ r.2.2.rest.length ≤ s.rest.length ∧ r.2.2.content = s.content ∧
      (r.1 = true → r.2.2.rest.length < s.rest.length) ∧ (r.1 = true → r.2.2.fail = false) := by
  unfold atxExpect
  have hf := hb.fill s
  simp only
  split
  · rename_i h
    exact ⟨_, rfl, hf, getline_le _, Stream.getline_content rfl, by simp, by simp⟩
  · rename_i h
    obtain ⟨b, e⟩ := atxLabel_any (buf := fillLine buf (s.getline (n + 1)).1) (pat := pat) (by rw [hf.1]; exact hp)
    rw [e, Res.bind_ok]
    refine ⟨_, rfl, hf, getline_le _, Stream.getline_content rfl, fun _ => ?_, fun _ => by simpa using h⟩
    exact Stream.getline_progress (s := s) (s' := (s.getline (n + 1)).2) (l := (s.getline (n + 1)).1) rfl (by simpa using h)

theorem atxSerial_any {buf ant : List Char} (hb : TermN 84 buf) {k : AntCtor} (ha : AntReach ant k []) :
    ∀ (n i : Nat), i + n ≤ 84 → ∃ a ss, atxSerial buf ant n i = .ok a ∧ AntReach a k ss := by
  intro n
  induction n with
  | zero => intro i _; exact ⟨_, [], rfl, ha⟩
  | succ n ih =>
    intro i hi
    unfold atxSerial
    obtain ⟨c, hc⟩ := hb.getAt (k := i) (by omega)
    rw [hc, Res.bind_ok]
    split
    · obtain ⟨x, y, hxy, hx⟩ := nul_split (hb.nul (k := 20) (by omega))
      rw [hxy, cstrOf_append hx, Res.bind_ok]
      obtain ⟨b, e⟩ := antSetSerial_ok (c := x) ha
      exact ⟨b, _, e, ha.set hx e⟩
    · exact ih (i + 1) (by omega)

theorem readType_any {J : AtxJunk} (hJ : J.Term) (ant : List Char) {c : List Char} (hc : 60 ≤ c.length) (s : Stream) :
    ∃ r, atxReadType J ant c s = .ok r ∧ r.c.length = c.length ∧ r.strm.rest.length ≤ s.rest.length ∧ r.strm.content = s.content ∧
      (r.status = 0 → (∃ k ss, AntReach r.ant k ss) ∧ r.strm.rest.length < s.rest.length) ∧
      (r.status = -1 → ((s.getline ATX_HEADER_CHARS).2.eof = true)) ∧ -1 ≤ r.status := by
  unfold atxReadType
  obtain ⟨r1, e1, t1, l1, c1, p1, f1⟩ := expect_any (n := 84) (pat := c!"START OF ANTENNA") (by decide) (hJ.head s.pos) s
  rw [show ATX_HEADER_CHARS = 84 + 1 from rfl, e1, Res.bind_ok]
  split
  · rename_i hf
    split
    · rename_i he
      refine ⟨_, rfl, rfl, l1, c1, by simp, fun _ => ?_, by simp⟩
      unfold atxExpect at e1
      simp only at e1
      split at e1
      · injection e1 with e1; subst e1; exact he
      · obtain ⟨b, _, e1⟩ := Res.bind_eq_ok.1 e1
        injection e1 with e1; subst e1; exact he
    · exact ⟨_, rfl, rfl, l1, c1, by simp, by simp, by simp⟩
  · rename_i ht
    obtain ⟨r2, e2, t2, l2, c2, p2, f2⟩ := expect_any (n := 84) (pat := c!"TYPE / SERIAL NO") (by decide) t1 r1.2.2
    rw [e2, Res.bind_ok]
    split
    · exact ⟨_, rfl, rfl, by simp only; omega, by simp only; rw [c2, c1], by simp, by simp, by simp⟩
    · rename_i ht2
      have hnul : NUL ∈ r2.2.1 := by have := t2.nul (k := 0) (by omega); rwa [List.drop_zero] at this
      obtain ⟨x, y, hxy, hx⟩ := nul_split hnul
      have hs : cstrOf r2.2.1 = .ok x := by rw [hxy]; exact cstrOf_append hx y
      have hnew := antNew_eq (J.ant s.pos) (hJ.ant s.pos) (.fromCStr x)
      have hreach : AntReach (specModel (.fromCStr x) ++ NUL :: (J.ant s.pos).drop 21) (.fromCStr x) [] :=
        ⟨J.ant s.pos, hJ.ant _, hx, by simp, by unfold antRun; rw [hnew]; rfl⟩
      have hnew' : antOfCStr (J.ant s.pos) x = .ok (specModel (.fromCStr x) ++ NUL :: (J.ant s.pos).drop 21) := hnew
      simp only [hs, Res.bind_ok, hnew']
      obtain ⟨a, ss, ea, ha⟩ := atxSerial_any t2 hreach 20 20 (by omega)
      have hl := t2.1
      rw [ea, Res.bind_ok, memcpyAt_ok (by simp [hl]; omega), Res.bind_ok]
      refine ⟨_, rfl, by simp [hl]; omega, by simp only; omega, by simp only; rw [c2, c1], fun _ => ⟨⟨_, _, ha⟩, ?_⟩, by simp, by simp⟩
      have := p1 (by simpa using ht)
      simp only
      omega

theorem atxSkipLoop_any : ∀ (left : Nat) (buf : List Char) (s : Stream), TermN 511 buf →
    ∃ r, atxSkipLoop left buf s = .ok r ∧ r.2.rest.length ≤ s.rest.length ∧ r.2.content = s.content := by
  intro left
  induction left with
  | zero => intro buf s _; exact ⟨_, rfl, Nat.le_refl _, rfl⟩
  | succ left ih =>
    intro buf s h
    have hf := h.fill s
    obtain ⟨b, e⟩ := atxLabel_any (buf := fillLine buf (s.getline ATX_GRID_CHARS).1) (pat := c!"END OF ANTENNA") (by rw [show (fillLine buf (s.getline ATX_GRID_CHARS).1).length = 512 from hf.1]; decide)
    unfold atxSkipLoop
    simp only [e, Res.bind_ok]
    split
    · exact ⟨_, rfl, getline_le _, Stream.getline_content rfl⟩
    · obtain ⟨r, e1, e2, e3⟩ := ih _ (s.getline ATX_GRID_CHARS).2 hf
      exact ⟨r, e1, e2.trans (getline_le _), e3.trans (Stream.getline_content rfl)⟩

/-- The search ends with a result, unless it never read a record (then it is undefined). -/
theorem matchLoop_any {J : AtxJunk} (hJ : J.Term) {antIn : List Char} {k : AntCtor} {ss : List (List Char)} (hi : AntReach antIn k ss) :
    ∀ (fuel : Nat) (cur best : List Char) (bp : Option Nat) (st2 : Option Int) (s : Stream), s.rest.length < fuel →
      (st2 = none → (s.getline ATX_HEADER_CHARS).2.eof = false) →
      ∃ m, atxMatchLoop J antIn fuel cur best bp st2 s = .ok m ∧ m.strm.content = s.content := by
  intro fuel
  induction fuel with
  | zero => intro _ _ _ _ _ h; omega
  | succ fuel ih =>
    intro cur best bp st2 s hf hst
    obtain ⟨r, e, hc, hl, hcon, hz, hm1, hge⟩ := readType_any hJ cur (c := J.head s.pos) (by rw [(hJ.head s.pos).1]; decide) s
    unfold atxMatchLoop
    rw [e, Res.bind_ok]
    split
    · rename_i hs
      unfold atxMatchEnd
      split
      · exact ⟨_, rfl, hcon⟩
      · cases st2 with
        | none =>
          have := hm1 (by omega)
          rw [hst rfl] at this
          cases this
        | some v => simp only; split <;> exact ⟨_, rfl, hcon⟩
    · rename_i hs
      obtain ⟨⟨k', ss', hr⟩, hlt⟩ := hz (by simpa using hs)
      obtain ⟨b, eb, _⟩ := C13_is_same_iff hr hi
      rw [eb, Res.bind_ok]
      split
      · refine ⟨_, rfl, ?_⟩
        simp only [Stream.tellg]
        split <;> exact hcon
      · rw [C13_compare_model hr hi, Res.bind_ok]
        have hhs : ∃ h, (if (decide (specModel k' = specModel k)) = true then antHasSerial r.ant else pure true : Res Bool) = .ok h := by
          split
          · obtain ⟨_, _, _, x, hx, _⟩ := hr.shape; exact ⟨x, hx⟩
          · exact ⟨_, rfl⟩
        obtain ⟨h, eh⟩ := hhs
        rw [eh, Res.bind_ok]
        generalize hbb : (if (decide (specModel k' = specModel k) && !h) = true then (r.ant, r.strm.tellg) else (best, (bp, r.strm))) = bb
        have hb2 : bb.2.2.rest = r.strm.rest ∧ bb.2.2.content = r.strm.content := by
          rw [← hbb]
          split
          · simp only [Stream.tellg]; split <;> exact ⟨rfl, rfl⟩
          · exact ⟨rfl, rfl⟩
        obtain ⟨q, eq, hq1, hq2⟩ := atxSkipLoop_any 5000 (J.grid bb.2.2.pos) bb.2.2 (hJ.grid _)
        unfold atxSkip
        simp only [eq, Res.bind_ok]
        split
        · rename_i hne
          unfold atxMatchEnd
          rw [if_neg (by omega)]
          simp only
          rw [if_pos hne]
          exact ⟨_, rfl, by simp only; rw [hq2, hb2.2, hcon]⟩
        · obtain ⟨m, em, hm⟩ := ih r.ant bb.1 bb.2.1 (some q.1) q.2 (by rw [hb2.1] at hq1; omega) (by simp)
          exact ⟨m, em, by rw [hm, hq2, hb2.2, hcon]⟩

theorem stod_sane (t : List Char) : Sane (stod t) := by
  unfold stod
  split
  · exact ⟨by simp, by simp⟩
  · split <;> exact ⟨by simp, by simp⟩

theorem stoi_sane (t : List Char) : Sane (stoi t) := by
  unfold stoi; split
  · exact ⟨by simp, by simp⟩
  · split <;> exact ⟨by simp, by simp⟩

theorem scanTo_any {n : Nat} {pat : List Char} (hp : 60 + pat.length ≤ n + 1) : ∀ (fuel : Nat) (buf : List Char) (s : Stream),
    TermN n buf → s.rest.length < fuel → ∃ r, atxScanTo (n + 1) pat fuel buf s = .ok r ∧ TermN n r.1 ∧ r.2.rest.length ≤ s.rest.length := by
  intro fuel
  induction fuel with
  | zero => intro _ _ _ h; omega
  | succ fuel ih =>
    intro buf s hb hf
    have ht := hb.fill s
    unfold atxScanTo
    simp only
    split
    · exact ⟨_, rfl, ht, getline_le _⟩
    · rename_i hnf
      obtain ⟨b, e⟩ := atxLabel_any (buf := fillLine buf (s.getline (n + 1)).1) (pat := pat) (by rw [ht.1]; exact hp)
      rw [e, Res.bind_ok]
      split
      · exact ⟨_, rfl, ht, getline_le _⟩
      · have hlt := Stream.getline_progress (s := s) (n := n + 1) (s' := (s.getline (n + 1)).2) (l := (s.getline (n + 1)).1) rfl (by simpa using hnf)
        obtain ⟨r, e1, e2, e3⟩ := ih _ (s.getline (n + 1)).2 ht (by omega)
        exact ⟨r, e1, e2, by omega⟩

theorem pcoAtFreq_any {fuel : Nat} {hline gline : List Char} {s : Stream} (hh : TermN 84 hline) (hg : TermN 511 gline)
    (hf : s.rest.length < fuel) :
    ∃ r, pcoAtFreq fuel hline gline s = .ok r ∧
      ∀ a b c, r = .inl (a, b, c) → TermN 84 a ∧ TermN 511 b ∧ c.rest.length ≤ s.rest.length := by
  unfold pcoAtFreq
  obtain ⟨b1, e1⟩ := atxLabel_any (buf := hline) (pat := c!"START OF FREQUENCY") (by rw [hh.1]; decide)
  obtain ⟨b2, e2⟩ := atxLabel_any (buf := hline) (pat := c!"START OF FREQ RMS") (by rw [hh.1]; decide)
  have h0 : ∃ x, (if s.fail then pure false else atxLabel hline c!"START OF FREQUENCY" : Res Bool) = .ok x := by
    split
    · exact ⟨_, rfl⟩
    · exact ⟨_, e1⟩
  obtain ⟨x, ex⟩ := h0
  rw [ex, Res.bind_ok]
  split
  · exact ⟨_, rfl, by intro a b c h; injection h with h; injection h with h1 h2; injection h2 with h2 h3; subst h1 h2 h3; exact ⟨hh, hg, Nat.le_refl _⟩⟩
  · rw [e2, Res.bind_ok]
    split
    · obtain ⟨r, e3, t3, l3⟩ := scanTo_any (n := 511) (pat := c!"END OF FREQ RMS") (by decide) fuel gline s hg hf
      rw [show ATX_GRID_CHARS = 511 + 1 from rfl, e3, Res.bind_ok]
      obtain ⟨q, e4, t4, l4, _⟩ := expect_any (n := 84) (pat := c!"START OF FREQUENCY") (by decide) hh r.2
      rw [show ATX_HEADER_CHARS = 84 + 1 from rfl, e4, Res.bind_ok]
      split
      · exact ⟨_, rfl, by intro a b c h; injection h with h; injection h with h1 h2; injection h2 with h2 h3; subst h1 h2 h3; exact ⟨t4, t3, by omega⟩⟩
      · exact ⟨_, rfl, by intro a b c h; cases h⟩
    · exact ⟨_, rfl, by intro a b c h; cases h⟩

theorem pcoBand_any {hline : List Char} (hh : TermN 84 hline) : ∃ r, pcoBand hline = .ok r := by
  unfold pcoBand
  obtain ⟨c, hc⟩ := hh.getAt (k := 3) (by omega)
  rw [hc, Res.bind_ok]
  split
  · split <;> exact ⟨_, rfl⟩
  · exact ⟨_, rfl⟩

theorem pcoLoop_any {fuel : Nat} : ∀ (n : Nat) (hline gline : List Char) (list : List Pco) (s : Stream), TermN 84 hline → TermN 511 gline →
    s.rest.length < fuel → Sane (pcoLoop fuel n hline gline list s) := by
  intro n
  induction n with
  | zero => intro _ _ _ _ _ _ _; exact Sane.ok _
  | succ n ih =>
    intro hline gline list s hh hg hf
    unfold pcoLoop
    obtain ⟨r, e, hr⟩ := pcoAtFreq_any hh hg hf
    rw [e, Res.bind_ok]
    split
    · exact Sane.pure _
    · rename_i a b c
      obtain ⟨ha, hb, hc⟩ := hr _ _ _ rfl
      obtain ⟨q, eq⟩ := pcoBand_any ha
      rw [eq, Res.bind_ok]
      split
      · exact Sane.pure _
      · obtain ⟨u, eu, tu, lu, _⟩ := expect_any (n := 84) (pat := c!"NORTH / EAST / UP") (by decide) ha c
        rw [show ATX_HEADER_CHARS = 84 + 1 from rfl, eu, Res.bind_ok]
        split
        · exact Sane.pure _
        · refine Sane.bind (stod_sane _) (fun _ _ => Sane.bind (stod_sane _) (fun _ _ => Sane.bind (stod_sane _) (fun _ _ => ?_)))
          obtain ⟨v, ev, tv, lv⟩ := scanTo_any (n := 511) (pat := c!"END OF FREQUENCY") (by decide) fuel b u.2.2 hb (by omega)
          rw [show ATX_GRID_CHARS = 511 + 1 from rfl]
          simp only [ev, Res.bind_ok]
          refine ih _ _ _ _ (tu.fill _) tv ?_
          have := getline_le (s := v.2) (84 + 1)
          omega

theorem collectPco_any {J : AtxJunk} (hJ : J.Term) {fuel : Nat} {s : Stream} (hf : s.rest.length < fuel) (list : List Pco) :
    Sane (collectPco J fuel list s) := by
  unfold collectPco
  apply Sane.noexcept
  obtain ⟨r1, e1, t1, l1, _⟩ := expect_any (n := 84) (pat := c!"METH / BY / # / DATE") (by decide) (hJ.head s.pos) s
  rw [show ATX_HEADER_CHARS = 84 + 1 from rfl, e1, Res.bind_ok]
  split
  · exact Sane.pure _
  obtain ⟨r2, e2, t2, l2, _⟩ := expect_any (n := 84) (pat := c!"DAZI") (by decide) t1 r1.2.2
  rw [e2, Res.bind_ok]
  split
  · exact Sane.pure _
  obtain ⟨r3, e3, t3, l3, _⟩ := expect_any (n := 84) (pat := c!"ZEN1 / ZEN2 / DZEN") (by decide) t2 r2.2.2
  rw [e3, Res.bind_ok]
  split
  · exact Sane.pure _
  obtain ⟨r4, e4, t4, l4, _⟩ := expect_any (n := 84) (pat := c!"# OF FREQUENCIES") (by decide) t3 r3.2.2
  rw [e4, Res.bind_ok]
  split
  · exact Sane.pure _
  split
  · obtain ⟨u, eu, tu, lu⟩ := scanTo_any (n := 84) (pat := c!"START OF FREQUENCY") (by decide) fuel r4.2.1 r4.2.2 t4 (by omega)
    rw [eu, Res.bind_ok]
    exact pcoLoop_any _ _ _ _ _ tu (hJ.grid _) (by omega)
  · exact Sane.pure _

theorem atxSeek_content (s : Stream) (p : Option Nat) : (atxSeek s p).content = s.content := by
  cases p with
  | none => rfl
  | some p => simp only [atxSeek, Stream.seekg]; split <;> rfl

/-- **C53**.  For a file with arbitrary content, opened in whatever state, the query for a receiver
antenna ends, and without undefined behaviour, if something follows the header (or the object has
been spoilt) and the arrays on the stack happen to end with a zero byte. -/
theorem C53_receiver_ends_partial {J : AtxJunk} (hJ : J.Term) (f : AtxFile) {ant : List Char} {k : AntCtor} {ss : List (List Char)}
    (ha : AntReach ant k ss) (must : Bool) {fuel : Nat} (hfuel : f.strm.content.length < fuel)
    (hsome : ((atxSeek f.strm f.endOfHead).getline ATX_HEADER_CHARS).2.eof = false) :
    (∃ r, atxPcoReceiver J fuel f ant must = .ok r) ∨ atxPcoReceiver J fuel f ant must = .terminate := by
  have hs : Sane (atxPcoReceiver J fuel f ant must) ∧ ∀ e, atxPcoReceiver J fuel f ant must ≠ .throw e := by
    unfold atxPcoReceiver atxFindMatch
    have hrl : (atxSeek f.strm f.endOfHead).rest.length < fuel := by
      have := rest_le (atxSeek f.strm f.endOfHead)
      rw [atxSeek_content] at this
      omega
    simp only [antInit_eq _ (hJ.ant _), Res.bind_ok]
    obtain ⟨m, em, hm⟩ := matchLoop_any hJ ha fuel (List.replicate 20 ' ' ++ NUL :: (J.ant (atxSeek f.strm f.endOfHead).pos).drop 21)
      (List.replicate 20 ' ' ++ NUL :: (J.ant (atxSeek f.strm f.endOfHead).pos).drop 21) (some 0) none _ hrl (fun _ => hsome)
    have hm' : m.strm.content = f.strm.content := by rw [hm, atxSeek_content]
    have hrl2 : (atxSeek m.strm m.pos).rest.length < fuel := by
      have := rest_le (atxSeek m.strm m.pos)
      rw [atxSeek_content, hm'] at this
      omega
    rw [em, Res.noexcept_ok, Res.bind_ok]
    split
    · exact ⟨Sane.pure _, by intro e; simp⟩
    · split
      · exact ⟨Sane.pure _, by intro e; simp⟩
      · have hc := collectPco_any hJ hrl2 []
        have hnt : ∀ e, collectPco J fuel [] (atxSeek m.strm m.pos) ≠ .throw e := by
          intro e; unfold collectPco
          exact noexcept_ne_throw _ e
        generalize collectPco J fuel [] (atxSeek m.strm m.pos) = X at hc hnt
        cases X with
        | ok a => exact ⟨Sane.pure _, by intro e; simp⟩
        | ub => exact absurd rfl hc.1
        | diverge => exact absurd rfl hc.2
        | throw e => exact absurd rfl (hnt e)
        | terminate => exact ⟨⟨by simp, by simp⟩, by intro e; simp⟩
  generalize atxPcoReceiver J fuel f ant must = X at hs
  cases X with
  | ok a => exact Or.inl ⟨a, rfl⟩
  | ub => exact absurd rfl hs.1.1
  | diverge => exact absurd rfl hs.1.2
  | throw e => exact absurd rfl (hs.2 e)
  | terminate => exact Or.inr rfl

theorem seekg_self {s : Stream} (h : s.good = true) : s.seekg s.pos = s := by
  obtain ⟨c, p, e, f⟩ := s
  have := (Stream.good_iff _).1 h
  simp only at this
  obtain ⟨rfl, rfl⟩ := this
  rfl

/-- **C53, why partial.**  A record whose first `NORTH / EAST / UP` line has no number in its first ten
columns: asking for that antenna ends the program (`std::stod` throws inside a `noexcept` function). -/
theorem C53_bad_number_terminates {strptime : List Char → Res DateTime} {J : AtxJunk} (hJ : J.WF) {b : AtxBlock} (h : b.WF strptime)
    {q : AtxFreq} {qs : List AtxFreq} (hfs : b.freqs = q :: qs) {neu t : List Char} (hn : Labelled neu c!"NORTH / EAST / UP")
    (hbad : strtod (neu.take 10) = none) {f : AtxFile} {p : Nat} (hp : f.endOfHead = some p) (hfail : f.strm.fail = false)
    (hc : f.strm.content.drop p = linesText [b.start, b.type, b.meth, b.dazi, b.zen, b.num, q.start, neu] ++ t)
    {ant : List Char} {k : AntCtor} {ss : List (List Char)} (ha : AntReach ant k ss) (hx : b.Exact k ss) (must : Bool) (fuel : Nat) :
    atxPcoReceiver J (fuel + 1) f ant must = .terminate := by
  have hq : q.WF := h.freqs q (by rw [hfs]; simp)
  obtain ⟨hg, hcc, hpos, hr⟩ := seekg_good hfail p
  rw [hc] at hr
  obtain ⟨an, he, hreach⟩ := readType_block hJ h.named (cur := List.replicate 20 ' ' ++ NUL :: (J.ant p).drop 21) (c := J.head (f.strm.seekg p).pos)
    (by rw [hJ.head]; decide) hg hr
  have hg2 : ((f.strm.seekg p).past [b.start, b.type]).good = true := hg
  have hr2 := rest_cons (rest_cons hr)
  rw [Stream.past_past, show [b.start] ++ [b.type] = [b.start, b.type] from rfl] at hr2
  have hfail2 : ((f.strm.seekg p).past [b.start, b.type]).fail = false := ((Stream.good_iff _).1 hg2).2
  obtain ⟨same, hs1, hs2⟩ := same_iff h.named hreach ha
  have hsame : same = true := hs2.2 hx
  have hpp := seekg_self hg2
  generalize hs0 : (f.strm.seekg p).past [b.start, b.type] = s at *
  have r1 := rest_cons hr2
  have r2 := rest_cons r1
  have r3 := rest_cons r2
  have r4 := rest_cons r3
  have r5 := rest_cons r4
  have hn60 := h.num.2.long (by decide)
  have hm1 := expect_labelled (buf := J.head s.pos) hg2 hr2 h.meth (by decide) (by decide)
  have hm2 := expect_labelled (buf := fillLine (J.head s.pos) b.meth) (s := s.past [b.meth]) hg2 r1 h.dazi (by decide) (by decide)
  have hm3 := expect_labelled (buf := fillLine (fillLine (J.head s.pos) b.meth) b.dazi) (s := (s.past [b.meth]).past [b.dazi]) hg2 r2
    h.zen (by decide) (by decide)
  have hm4 := expect_labelled (buf := fillLine (fillLine (fillLine (J.head s.pos) b.meth) b.dazi) b.zen)
    (s := ((s.past [b.meth]).past [b.dazi]).past [b.zen]) hg2 r3 h.num (by decide) (by decide)
  have hg4 : ((((s.past [b.meth]).past [b.dazi]).past [b.zen]).past [b.num]).good = true := hg2
  generalize hs4 : (((s.past [b.meth]).past [b.dazi]).past [b.zen]).past [b.num] = s4 at *
  obtain ⟨hb, hsc⟩ := scanTo_lines (n := ATX_HEADER_CHARS) (pat := c!"START OF FREQUENCY") (by decide) (last := q.start)
      (t := linesText [neu] ++ t) ⟨hq.start.1, Nat.le_of_lt (hq.start.2.long (by decide)), hq.start.2⟩ [] (by simp) (fuel + 1)
      (fillLine (fillLine (fillLine (fillLine (J.head s.pos) b.meth) b.dazi) b.zen) b.num) s4 hg4 (by rw [r4]; simp [linesText]) (by simp)
  have hneu := expect_labelled (buf := fillLine hb q.start) (s := s4.past [q.start]) hg4 r5 hn (by decide) (by decide)
  have hat : pcoAtFreq (fuel + 1) (fillLine hb q.start) (J.grid s.pos) (s4.past [q.start]) = .ok (.inl (fillLine hb q.start, J.grid s.pos, s4.past [q.start])) := by
    unfold pcoAtFreq
    have hf4 : (s4.past [q.start]).fail = false := ((Stream.good_iff s4).1 hg4).2
    rw [hf4]
    simp only [Bool.false_eq_true, if_false]
    rw [atxLabel_line hq.start.1.2.1 (Nat.le_of_lt (hq.start.2.long (by decide))) (by decide), decide_eq_true hq.start.2, Res.bind_ok]
    simp
  have hstod : stod ((fillLine (fillLine hb q.start) neu).take 10) = .throw .invalid_argument := by
    have := hn.2.long (by decide)
    unfold stod
    rw [take_fill (by omega), hbad]
  have hcol : collectPco J (fuel + 1) [] s = .terminate := by
    unfold collectPco
    rw [hm1, Res.bind_ok]
    simp only [Bool.true_eq_false, if_false]
    rw [hm2, Res.bind_ok]
    simp only [Bool.true_eq_false, if_false]
    rw [hm3, Res.bind_ok]
    simp only [Bool.true_eq_false, if_false]
    rw [hm4, Res.bind_ok]
    simp only [Bool.true_eq_false, if_false]
    rw [take_fill (by omega), stoi_nat h.numVal, hfs]
    simp only [hsc, Res.bind_ok, List.length_cons, Int.toNat_natCast, List.nil_append]
    unfold pcoLoop
    simp only [hat, Res.bind_ok, pcoBand_freq hq, hneu, Bool.true_eq_false, if_false, hstod]
    rfl
  unfold atxPcoReceiver atxFindMatch
  simp only [hp, atxSeek, antInit_eq _ (hJ.ant _), Res.bind_ok]
  unfold atxMatchLoop
  rw [hpos] at he ⊢
  simp only [he, Res.bind_ok, ne_eq, not_true_eq_false, if_false, hs1, hsame, if_true, tellg_good hg2, Res.pure_eq, Res.noexcept_ok, atxSeek,
    hpp, hcol]
  rfl

end Ggnss
