import Verif.Props.ObsBad
import Verif.Props.AntexCut
import Verif.Spec.ObsCut
/-!
# C83: observation files that end early
-/
namespace Ggnss

/-! ## Header -/

/-- The header line up to the number of satellites, followed by anything: the clock may be wrong or refused,
the rest is right. -/
theorem resolve_tail {mjdOf : Int → Int → Int → Res Int} {e : EpochText} {y mo d h mi flag nsat : Nat} {sec : Rat}
    (hs : ({ e with tail := [] } : EpochText).Says y mo d h mi sec flag nsat none) {mjd : Int} (hm : mjdOf y mo d = .ok mjd) (tail : List Char)
    (hb : ∀ c, e.tail.head? = some c → c = ' ') (hnul : NUL ∉ e.tail) :
    resolveEpoch mjdOf (e.line ++ NUL :: tail) 0 = .ok (.inl (5, 0)) ∨
    ∃ clock, resolveEpoch mjdOf (e.line ++ NUL :: tail) 0 = .ok (.inr ⟨mjd, (h : Rat) * 3600 + mi * 60 + sec, flag, nsat, clock⟩) := by
  have mk : ∀ clock, ClockIs e.tail clock → e.Says y mo d h mi sec flag nsat clock := fun clock hc =>
    ⟨hs.year, hs.month, hs.day, hs.hour, hs.min, hs.seconds, hs.flagDigit, hs.flagIs, hs.nsatIs, hb, hc, hnul⟩
  by_cases h6 : e.tail.length ≤ 6
  · exact Or.inr ⟨none, C43_header (mk _ (.absent h6)) hm tail⟩
  · by_cases hbl : ∀ c ∈ e.tail.drop 6, c = ' '
    · exact Or.inr ⟨some 0, C43_header (mk _ (.blank (by omega) hbl)) hm tail⟩
    · have h1 : e.tail.head? = some ' ' := by
        cases ht : e.tail with
        | nil => rw [ht] at h6; simp at h6
        | cons a as => rw [hb a (by rw [ht]; rfl)]; rfl
      rw [resolveEpoch_clock hs hm tail (by omega) h1 hnul hbl rfl]
      split
      · exact Or.inl rfl
      · exact Or.inr ⟨_, rfl⟩

theorem EpochText.Says.cut {e : EpochText} {y mo d h mi flag nsat : Nat} {sec : Rat} {clock : Option Rat} (hs : e.Says y mo d h mi sec flag nsat clock) :
    ({ e with tail := [] } : EpochText).Says y mo d h mi sec flag nsat none :=
  ⟨hs.year, hs.month, hs.day, hs.hour, hs.min, hs.seconds, hs.flagDigit, hs.flagIs, hs.nsatIs, by simp, .absent (by simp), by simp⟩

theorem EpochText.Says.length {e : EpochText} {y mo d h mi flag nsat : Nat} {sec : Rat} {clock : Option Rat} (hs : e.Says y mo d h mi sec flag nsat clock) :
    e.line.length = 35 + e.tail.length := by
  obtain ⟨n, hn1, hn2, hn3, hn4⟩ := hs.seconds
  have lsec : e.sec.length = 10 := by rw [← hn2]; exact hn3
  unfold EpochText.line
  simp only [List.length_cons, List.length_append, hs.year.1, hs.month.1, hs.day.1, hs.hour.1, hs.min.1, hs.nsatIs.1, lsec]
  omega

theorem line_tail (e : EpochText) : e.line = ({ e with tail := [] } : EpochText).line ++ e.tail := by simp [EpochText.line]

/-- The cut header line. -/
theorem resolve_cut {mjdOf : Int → Int → Int → Res Int} {e : EpochText} {y mo d h mi flag nsat : Nat} {sec : Rat} {clock : Option Rat}
    (hs : e.Says y mo d h mi sec flag nsat clock) {mjd : Int} (hm : mjdOf y mo d = .ok mjd) {p : List Char} (hp : p <+: e.line) (hnul : NUL ∉ e.line)
    (tail : List Char) :
    resolveEpoch mjdOf (p ++ NUL :: tail) 0 = .ok (.inl (1, 0)) ∨ resolveEpoch mjdOf (p ++ NUL :: tail) 0 = .ok (.inl (5, 0)) ∨
    ∃ clock, resolveEpoch mjdOf (p ++ NUL :: tail) 0 = .ok (.inr ⟨mjd, (h : Rat) * 3600 + mi * 60 + sec, flag, nsat, clock⟩) := by
  have hpn : NUL ∉ p := fun hx => hnul (hp.subset hx)
  by_cases h35 : p.length < 35
  · exact Or.inl (C43_not_a_header hpn (Or.inr h35) tail 0)
  · right
    have hlen : ({ e with tail := [] } : EpochText).line.length = 35 := by rw [hs.cut.length]; rfl
    have h1 : ({ e with tail := [] } : EpochText).line <+: p :=
      List.prefix_of_prefix_length_le (l₃ := e.line) ⟨e.tail, (line_tail e).symm⟩ hp (by omega)
    obtain ⟨t', ht'⟩ := h1
    have hp' : p = ({ e with tail := t' } : EpochText).line := by rw [line_tail]; exact ht'.symm
    have hpre : t' <+: e.tail := by
      rw [← ht', line_tail e] at hp
      exact (List.prefix_append_right_inj _).1 hp
    rw [hp']
    refine resolve_tail (e := { e with tail := t' }) hs.cut hm tail ?_ (fun hx => hs.cstr (hpre.subset hx))
    intro c hc
    obtain ⟨u, hu⟩ := hpre
    apply hs.tailBlank c
    rw [← hu]
    cases t' with
    | nil => simp at hc
    | cons a as => simpa using hc

/-! ## Data lines -/

theorem collectObs_cut {q buf : List Char} (hq : NUL ∉ q) (hne : q ≠ []) {prn : Nat} (hp : NatAt ((q.drop 1).take 2) 0 prn) (h1 : 1 ≤ prn)
    (h99 : prn ≤ 99) {sysobs : List IdPairs} {xss : List (List (Option Rat × Rat))}
    (hx : List.Forall₂ (GotAll q) sysobs xss) (vals : List Rat) (hv : sysobs.length ≤ vals.length) (raw0 : RawRnxObs) :
    ∃ st, st ≤ 0 ∧ satEpochCollect raw0 (fillLine buf q) sysobs vals 0 =
      .ok (st, prn, xss.map (codeSum · 0) ++ vals.drop sysobs.length, 0) := by
  match q, hne with
  | [a], _ =>
    obtain ⟨_, k, ds, rest, e, _, hd, _⟩ := hp
    simp at e
    exact absurd e.2.1 hd
  | [a, b], _ =>
    simp only [List.drop_succ_cons, List.drop_zero, List.take_succ_cons, List.take_nil] at hp
    obtain ⟨r, hr⟩ := strtol_nat (tail := List.replicate 15 NUL) hp
    obtain ⟨st, hst, e⟩ := collectObs_got (buf := buf) hq sysobs xss hx 0 vals 0 (b :: NUL :: List.replicate 15 NUL) raw0
      ⟨by simp, by simp⟩ (by omega)
    refine ⟨st, hst, ?_⟩
    have hr' : strtolA (b :: NUL :: List.replicate 15 NUL) = .ok (some ((prn : Int), r, false)) := hr
    have := satEpochCollect_eq (buf := fillLine buf [a, b]) (c1 := b) (c2 := NUL) rfl rfl hr'
      (errno := 0) (e' := 0) (prn := prn) rfl (toInt32_nat (by omega)) (by simp; omega) (cstrOf_fill hq) e
    simpa using this
  | a :: b :: c :: l', _ => exact satEpochCollect_got hq hp h1 h99 (by simp) hx vals hv raw0

theorem GotAll.cut {l p : List Char} (h : p <+: l) {prs : List (Nat × Rat)} {xs : List (Option Rat × Rat)} (hx : GotAll l prs xs) :
    ∃ xs', GotAll p prs xs' ∧ List.Forall₂ (fun (x' x : Option Rat × Rat) => x' = x ∨ x' = (none, x.2)) xs' xs := by
  unfold GotAll at hx
  induction hx with
  | nil => exact ⟨[], .nil, .nil⟩
  | @cons pr x prs xs h1 _ ih =>
    obtain ⟨xs', a, b⟩ := ih
    obtain ⟨⟨d, hd, hg⟩, hc⟩ := h1
    obtain ⟨x, c⟩ := x
    simp only at hc hg
    subst hc
    by_cases hf : 3 + 16 * pr.1 + 16 ≤ p.length
    · refine ⟨(x, pr.2) :: xs', .cons ⟨⟨d, hd, ?_⟩, rfl⟩ a, .cons (Or.inl rfl) b⟩
      have hcols : fieldCols p pr.1 = fieldCols l pr.1 := by
        obtain ⟨u, rfl⟩ := h
        unfold fieldCols
        rw [List.drop_append_of_le_length (by omega), List.take_append_of_le_length (by simp; omega)]
      have hle := h.length_le
      cases hg with
      | short hs => omega
      | blank h1 h2 => exact .blank hf (by rw [hcols]; exact h2)
      | marker f h1 h2 h3 => exact .marker f h1 (by rw [hcols]; exact h2) h3
      | value f h1 h2 h3 => exact .value f h1 (by rw [hcols]; exact h2) h3
    · exact ⟨(none, pr.2) :: xs', .cons ⟨⟨0, by decide, .short (by omega)⟩, rfl⟩ a, .cons (Or.inr rfl) b⟩

theorem GotAll.cut_all {l p : List Char} (h : p <+: l) {sysobs : List (List (Nat × Rat))} {xss : List (List (Option Rat × Rat))}
    (hx : List.Forall₂ (GotAll l) sysobs xss) :
    ∃ xss', List.Forall₂ (GotAll p) sysobs xss' := by
  induction hx with
  | nil => exact ⟨[], .nil⟩
  | cons h1 _ ih =>
    obtain ⟨xss', a⟩ := ih
    obtain ⟨xs', b, _⟩ := h1.cut h
    exact ⟨_, .cons b a⟩

/-- What is seen of the beginning of a good data line. -/
theorem cutLine_total {mmap : ReadMap} {l q : List Char} {o : List SatVals} (h : EpochGot mmap [l] o) (hq : q <+: l) :
    ∃ o', CutLine mmap q o' ∧ o'.length ≤ o.length := by
  cases q with
  | nil => exact ⟨[], .empty rfl, by simp⟩
  | cons a as =>
    have hhead : (a :: as).head? = l.head? := by obtain ⟨u, rfl⟩ := hq; rfl
    cases h with
    | skip sys h1 h2 _ => exact ⟨[], .skip sys (by rw [hhead]; exact h1) h2, by simp⟩
    | @sat _ _ out sys prn sysobs xss h1 h2 h3 h4 h5 h6 h7 _ =>
      rw [h1] at hhead
      obtain ⟨xss', hx'⟩ := GotAll.cut_all hq h7
      cases as with
      | nil => exact ⟨[], .number sys sysobs hhead h2 (by simp) (Or.inl rfl), by simp⟩
      | cons b bs =>
        cases bs with
        | cons c cs =>
          have hnum : (((a :: b :: c :: cs).drop 1).take 2) = ((l.drop 1).take 2) := by obtain ⟨u, rfl⟩ := hq; rfl
          exact ⟨_, .sat sys prn sysobs xss' hhead h2 (by rw [hnum]; exact h3) h4 h5 hx', by simp⟩
        | nil =>
          obtain ⟨u, rfl⟩ := hq
          obtain ⟨_, k, ds, rest, e, hd, hne, _, hv, _⟩ := h3
          simp only [List.cons_append, List.nil_append, List.drop_succ_cons, List.drop_zero, List.take_succ_cons] at e
          cases k with
          | succ k =>
            simp only [List.replicate_succ, List.cons_append, List.cons.injEq] at e
            exact ⟨[], .number sys sysobs hhead h2 (by simp) (Or.inr (Or.inl (by rw [e.1]; rfl))), by simp⟩
          | zero =>
            obtain ⟨x, xs, rfl⟩ := List.exists_cons_of_ne_nil hne
            simp only [List.replicate_zero, List.nil_append, List.cons_append, List.cons.injEq] at e
            obtain ⟨rfl, -⟩ := e
            have hb : b.isDigit = true := hd b (by simp)
            by_cases h0 : b = '0'
            · exact ⟨[], .number sys sysobs hhead h2 (by simp) (Or.inr (Or.inr (by rw [h0]; rfl))), by simp⟩
            · have hlt := ofDigitChars_lt [b] 0 (by intro x hx; rw [List.mem_singleton.1 hx]; exact hb)
              have hN : Nat.ofDigitChars 10 [b] 0 = b.toNat - 48 := by simp [Nat.ofDigitChars_cons]
              have hpos : 1 ≤ Nat.ofDigitChars 10 [b] 0 := by
                rw [hN]
                have h48 : b.toNat ≠ 48 := fun hh => h0 (Char.toNat_inj.1 hh)
                have := (Char.isDigit_iff_toNat.1 hb).1
                rw [show '0'.toNat = 48 from rfl] at this
                omega
              simp only [List.length_singleton, Nat.pow_one, Nat.zero_add, Nat.one_mul] at hlt
              exact ⟨_, .sat sys _ sysobs xss' hhead h2
                ⟨by simp, 0, [b], [], by simp, by intro x hx; rw [List.mem_singleton.1 hx]; exact hb, by simp, by simp, rfl, by omega⟩
                hpos (by omega) hx', by simp⟩

/-! ## The loop -/

theorem fill_len {buf l : List Char} (h : l.length ≤ buf.length - 1) (hn : 1 ≤ buf.length) : (fillLine buf l).length = buf.length := by
  simp [fillLine]; omega

/-- The file has been read to its end. -/
def AtEnd (s : Stream) : Prop := s.rest = [] ∧ (s.eof = true ∨ s.good = true)

theorem AtEnd.last {s : Stream} {q : List Char} (hr : s.rest = q) (f : Bool) :
    AtEnd { s with pos := s.pos + q.length, eof := true, fail := f } := by
  refine ⟨?_, Or.inl rfl⟩
  have := congrArg List.length hr
  unfold Stream.rest at this ⊢
  simp only [List.length_drop] at this
  apply List.drop_eq_nil_of_le
  simp only
  omega

theorem AtEnd.clear {s : Stream} (h : AtEnd s) : AtEnd s.clear := ⟨h.1, Or.inr rfl⟩

theorem getline_atEnd {s : Stream} (h : AtEnd s) (n : Nat) :
    ∃ s', s.getline n = ([], s') ∧ AtEnd s' ∧ s'.eof = true ∧ s'.content = s.content := by
  by_cases hg : s.good = true
  · exact ⟨_, Stream.getline_last hg h.1 (by simp) (by simp), AtEnd.last h.1 _, rfl, rfl⟩
  · have he := h.2.resolve_right hg
    exact ⟨_, Stream.getline_bad (by simpa using hg), ⟨h.1, Or.inl he⟩, he, rfl⟩

/-- There the loop stops with status 1. -/
theorem collectLoop_atEnd {raw0 : RawRnxObs} {mmap : ReadMap} {i : Nat} {ov : List SatVals} {buf : List Char} {s : Stream} (hs : AtEnd s)
    (hn : 1 ≤ buf.length) (m : Nat) :
    ∃ buf' s', collectLoop raw0 mmap (m + 1) i ov buf s 0 = .ok ⟨1, i, ov, buf', s', 0⟩ ∧ AtEnd s' ∧ s'.content = s.content ∧
      buf'.length = buf.length := by
  obtain ⟨s', hg, hf, _, hc⟩ := getline_atEnd hs buf.length
  refine ⟨fillLine buf [], s', ?_, hf, hc, fill_len (by simp) hn⟩
  unfold collectLoop
  rw [hg]
  simp only
  rfl

/-- The loop on a line in which the file ends. -/
theorem collectLoop_cut {raw0 : RawRnxObs} {mmap : ReadMap} {i m : Nat} {ov : List SatVals} {buf q : List Char} {s : Stream} {o : List SatVals}
    (ho : CutLine mmap q o) (hq : LineFits (buf.length - 1) q) (hg : s.good = true) (hr : s.rest = q) (hn : 3 ≤ buf.length)
    (hnext : i < ov.length ∨ q = [] ∨ ∃ sys, q.head? = some (satsysToChar sys) ∧ mmap.lookup sys = none) (hroom : Room mmap ov) :
    ∃ st ov' buf' s', collectLoop raw0 mmap (m + 1) i ov buf s 0 = .ok ⟨st, i + o.length, ov', buf', s', 0⟩ ∧
      ((st = 1 ∧ (m ≠ 0 ∨ o = [])) ∨ (st = 0 ∧ m = 0 ∧ s'.eof = true)) ∧ AtEnd s' ∧ s'.content = s.content ∧ buf'.length = buf.length ∧ ov'.length = ov.length ∧
      (∀ (j : Nat) (x : SatVals), o[j]? = some x → ∃ e, ov[i + j]? = some e ∧ ov'[i + j]? = some (x.1, x.2 ++ e.2.drop x.2.length)) ∧
      (∀ j, j < i ∨ i + o.length ≤ j → ov'[j]? = ov[j]?) := by
  have hgl := Stream.getline_last (n := buf.length) hg hr hq.1 hq.2.2
  have hbl := fill_len hq.2.2 (show 1 ≤ buf.length by omega)
  -- what remains after this line
  have go : ∀ (i' : Nat) (ov1 : List SatVals), ∃ st buf' s',
      collectLoop raw0 mmap m i' ov1 (fillLine buf q) { s with pos := s.pos + q.length, eof := true, fail := q.isEmpty } 0 =
        .ok ⟨st, i', ov1, buf', s', 0⟩ ∧ ((st = 1 ∧ m ≠ 0) ∨ (st = 0 ∧ m = 0 ∧ s'.eof = true)) ∧ AtEnd s' ∧ s'.content = s.content ∧ buf'.length = buf.length := by
    intro i' ov1
    cases m with
    | zero => exact ⟨0, _, _, rfl, Or.inr ⟨rfl, rfl, rfl⟩, AtEnd.last hr _, rfl, hbl⟩
    | succ m =>
      obtain ⟨buf', s', a, b, c, d⟩ := collectLoop_atEnd (raw0 := raw0) (mmap := mmap) (i := i') (ov := ov1) (buf := fillLine buf q)
        (s := { s with pos := s.pos + q.length, eof := true, fail := q.isEmpty }) (AtEnd.last hr _) (by omega) m
      exact ⟨1, buf', s', a, Or.inl ⟨rfl, by simp⟩, b, c, by omega⟩
  cases ho with
  | empty h =>
    subst h
    obtain ⟨buf', s', a, b, c, d⟩ := collectLoop_atEnd (raw0 := raw0) (mmap := mmap) (i := i) (ov := ov) ⟨hr, Or.inr hg⟩ (show 1 ≤ buf.length by omega) m
    exact ⟨1, ov, buf', s', a, Or.inl ⟨rfl, Or.inr rfl⟩, b, c, d, rfl, by simp, by simp⟩
  | skip sys h1 h2 =>
    obtain ⟨st, buf', s', a, b, c, d, e⟩ := go i ov
    refine ⟨st, ov, buf', s', ?_, b.imp (fun h => ⟨h.1, Or.inl h.2⟩) id, c, d, e, rfl, by simp, by simp⟩
    unfold collectLoop
    rw [hgl]
    simp only
    rw [getAt_fill (l := q) (i := 0) (by rw [← List.head?_eq_getElem?]; exact h1), Res.bind_ok, charToSatsys_letter]
    simp only [h2]
    rw [a]; rfl
  | number sys sysobs h1 h2 h3 h4 =>
    have hi : i < ov.length := by
      rcases hnext with h | rfl | ⟨sys', h5, h6⟩
      · exact h
      · simp at h1
      · rw [h1] at h5
        have : sys = sys' := by
          have := congrArg (Option.map charToSatsys) h5
          simpa [charToSatsys_toChar] using this
        subst this
        rw [h2] at h6; cases h6
    have hno : NoSatNumber ((q.drop 1).take 2) := by
      match q, h3 with
      | [], _ => simp at h1
      | [a], _ => exact Or.inl ⟨0, none, [], by simp [signText], by simp⟩
      | [a, b], _ =>
        simp only [List.getElem?_cons_succ, List.getElem?_cons_zero, Option.some.injEq, reduceCtorEq, false_or] at h4
        rcases h4 with rfl | rfl
        · exact Or.inl ⟨1, none, [], by simp [signText], by simp⟩
        · exact Or.inr (Or.inl ⟨by simp, 0, ['0'], [], by simp, by simp [allDigits], by simp, by simp, by decide, by decide⟩)
    obtain ⟨c1, c2, p, k1, k2, k3, k4, k5⟩ := noSat_number (buf := buf) (by rintro rfl; simp at h1) hno (by omega)
    refine ⟨1, ov, fillLine buf q, { s with pos := s.pos + q.length, eof := true, fail := q.isEmpty }, ?_, Or.inl ⟨rfl, Or.inr rfl⟩, AtEnd.last hr _, rfl, hbl, rfl, by simp, by simp⟩
    unfold collectLoop
    rw [hgl]
    simp only
    rw [getAt_fill (l := q) (i := 0) (by rw [← List.head?_eq_getElem?]; exact h1), Res.bind_ok, charToSatsys_letter]
    simp only [h2, List.getElem?_eq_getElem hi]
    have : satEpochCollect raw0 (fillLine buf q) sysobs ov[i].2 0 = .ok (1, toInt32 (strtolVal p), ov[i].2, 0) := by
      unfold satEpochCollect
      simp only [k1, k2, k3, Res.bind_ok, k4, Bool.false_eq_true, if_false]
      rw [if_pos (by rcases k5 with h | h; exact Or.inl (Or.inr h); exact Or.inr (Or.inl h))]
      rfl
    rw [this, Res.bind_ok]
    simp only
    rw [if_pos (by decide)]
    simp [Res.pure_eq]
  | sat sys prn sysobs xss h1 h2 h3 h4 h5 h6 =>
    have hi : i < ov.length := by
      rcases hnext with h | rfl | ⟨sys', h7, h8⟩
      · exact h
      · simp at h1
      · rw [h1] at h7
        have : sys = sys' := by
          have := congrArg (Option.map charToSatsys) h7
          simpa [charToSatsys_toChar] using this
        subst this
        rw [h2] at h8; cases h8
    have hv := hroom ov[i] (List.getElem_mem hi) _ (lookup_mem h2)
    simp only at hv
    obtain ⟨st0, hst0, e0⟩ := collectObs_cut (buf := buf) hq.2.1 (by rintro rfl; simp at h1) h3 h4 h5 h6 ov[i].2 hv raw0
    have hsx : sysobs.length = xss.length := h6.length_eq
    obtain ⟨st, buf', s', a, b, c, d, e⟩ := go (i + 1) (ov.set i ((sys, (prn : Int)), xss.map (codeSum · 0) ++ ov[i].2.drop sysobs.length))
    refine ⟨st, ov.set i ((sys, (prn : Int)), xss.map (codeSum · 0) ++ ov[i].2.drop sysobs.length), buf', s', ?_, b.imp (fun h => ⟨h.1, Or.inl h.2⟩) id, c, d, e, List.length_set, ?_, ?_⟩
    · unfold collectLoop
      rw [hgl]
      simp only
      rw [getAt_fill (l := q) (i := 0) (by rw [← List.head?_eq_getElem?]; exact h1), Res.bind_ok, charToSatsys_letter]
      simp only [h2, List.getElem?_eq_getElem hi]
      rw [e0, Res.bind_ok]
      simp only
      rw [if_neg (by omega), a]
      rfl
    · intro j x hx
      cases j with
      | zero =>
        simp only [List.getElem?_cons_zero, Option.some.injEq] at hx
        subst hx
        refine ⟨ov[i], by simp [List.getElem?_eq_getElem hi], ?_⟩
        rw [Nat.add_zero, List.getElem?_set_self hi]
        simp [hsx]
      | succ j => simp at hx
    · intro j hj
      simp only [List.length_singleton] at hj
      exact List.getElem?_set_ne (by omega)

/-! ## Calls -/

theorem EpochGot.split {mmap : ReadMap} {l : List Char} {rest : List (List Char)} : ∀ {ls : List (List Char)} {out : List SatVals},
    EpochGot mmap (ls ++ l :: rest) out → ∃ out1 o out2, out = out1 ++ o ++ out2 ∧ EpochGot mmap ls out1 ∧ EpochGot mmap [l] o ∧ EpochGot mmap rest out2 := by
  intro ls
  induction ls with
  | nil =>
    intro out h
    cases h with
    | skip sys h1 h2 h3 => exact ⟨[], [], _, rfl, .nil, .skip sys h1 h2 .nil, h3⟩
    | sat sys prn sysobs xss h1 h2 h3 h4 h5 h6 h7 h8 => exact ⟨[], [_], _, rfl, .nil, .sat sys prn sysobs xss h1 h2 h3 h4 h5 h6 h7 .nil, h8⟩
  | cons a ls ih =>
    intro out h
    cases h with
    | skip sys h1 h2 h3 =>
      obtain ⟨out1, o, out2, e, a1, a2, a3⟩ := ih h3
      exact ⟨out1, o, out2, e, .skip sys h1 h2 a1, a2, a3⟩
    | sat sys prn sysobs xss h1 h2 h3 h4 h5 h6 h7 h8 =>
      obtain ⟨out1, o, out2, e, a1, a2, a3⟩ := ih h8
      exact ⟨_ :: out1, o, out2, by rw [e]; rfl, .sat sys prn sysobs xss h1 h2 h3 h4 h5 h6 h7 a1, a2, a3⟩

/-- Where a list of lines may be cut. -/
theorem cut_lines : ∀ {ls : List (List Char)} {p : List Char}, p <+: linesText ls → p ≠ linesText ls →
    ∃ pre l rest q, ls = pre ++ l :: rest ∧ p = linesText pre ++ q ∧ q <+: l := by
  intro ls
  induction ls with
  | nil => intro p h hne; simp [linesText] at h hne; exact absurd h hne
  | cons l ls ih =>
    intro p h hne
    rcases cut_cons h with h | ⟨t', h1, h2⟩
    · exact ⟨[], l, ls, p, rfl, by simp [linesText], h⟩
    · obtain ⟨pre, l', rest, q, e1, e2, e3⟩ := ih h2 (by rintro rfl; exact hne (by rw [h1, linesText_cons]))
      exact ⟨l :: pre, l', rest, q, by rw [e1]; rfl, by rw [h1, e2, linesText_cons]; simp, e3⟩

theorem LineFits.pre {n : Nat} {l q : List Char} (h : LineFits n l) (hq : q <+: l) : LineFits n q :=
  ⟨fun hx => h.1 (hq.subset hx), fun hx => h.2.1 (hq.subset hx), Nat.le_trans hq.length_le h.2.2⟩

/-- The headers agree but for the receiver clock offset. -/
def SameButClock (h h' : EpochHead) : Prop := h'.mjd = h.mjd ∧ h'.sec = h.sec ∧ h'.flag = h.flag ∧ h'.numSats = h.numSats

/-- **C83** (the header line is there, the file ends in data line `l`). -/
theorem C83_cut_line {mjdOf : Int → Int → Int → Res Int} {mmap : ReadMap} {b : ObsEpochBlock} {h : EpochHead} {out1 o out2 : List SatVals}
    (raw0 : RawRnxObs) {ov : List SatVals} {buf : List Char} (hb : BlockSees mjdOf mmap buf.length b h (out1 ++ o ++ out2)) (hn : 3 ≤ buf.length)
    {s : Stream} {pre rest : List (List Char)} {l q : List Char} (e1 : b.lines = pre ++ l :: rest) (e3 : q <+: l)
    (g1 : EpochGot mmap pre out1) (g2 : EpochGot mmap [l] o) {o' : List SatVals} (ho' : CutLine mmap q o') (hol : o'.length ≤ o.length)
    (hg : s.good = true) (hrest : s.rest = linesText (b.head.line :: pre) ++ q)
    (hov : (out1 ++ o ++ out2).length ≤ ov.length) (hroom : Room mmap ov) :
    ∃ st ov' buf' s', readNextEpoch mjdOf raw0 mmap ov buf s 0 = .ok ⟨st, (out1 ++ o').length, some h, ov', buf', s', 0⟩ ∧
      ((st = 31 ∧ (rest ≠ [] ∨ o' = [])) ∨ (st = -1 ∧ rest = [])) ∧ Holds ov ov' (out1 ++ o') ∧ AtEnd s' ∧ s'.content = s.content ∧ buf'.length = buf.length := by
  obtain ⟨y, mo, d, hh, mi, flag, nsat, sec, hs, hm, hsec, hfl, hns, hnl⟩ := hb.head
  have hhead : h = ⟨h.mjd, (hh : Rat) * 3600 + mi * 60 + sec, flag, nsat, h.clock⟩ := by
    cases h; simp_all
  have hpk : s.peek = (some '>', s) := Stream.peek_cons hg (by rw [hrest, linesText_cons]; rfl)
  have hlf : ∀ x ∈ pre, LineFits (buf.length - 1) x := fun x hx => hb.fit.2 x (by rw [e1]; simp [hx])
  have hqf : LineFits (buf.length - 1) q := (hb.fit.2 l (by rw [e1]; simp)).pre e3
  obtain ⟨f1, f2, f3⟩ := hb.fit.1
  have hgl := getline_past (n := buf.length) hg hrest f1 f3
  have hbl := fill_len (buf := buf) f3 (show 1 ≤ buf.length by omega)
  have hres : resolveEpoch mjdOf (fillLine buf b.head.line) 0 = .ok (.inr h) := by
    unfold fillLine; rw [C43_header hs hm, ← hhead]
  simp only [List.length_append] at hov
  obtain ⟨ov1, buf1, k1, k2, k3, k4, k5⟩ := collectLoop_got (raw0 := raw0) g1 hlf 0 ov (fillLine buf b.head.line) (s.past [b.head.line])
    hbl (by omega) hg (rest_cons hrest) (by omega) hroom
  have hroom1 : Room mmap ov1 := by
    have hH : Holds ov ov1 out1 := ⟨k3, fun j x hx => by simpa using k4 j x hx, fun j hj => k5 j (Or.inr (by omega))⟩
    exact hH.room hroom g1.width
  have hnx : out1.length < ov1.length ∨ q = [] ∨ ∃ sys, q.head? = some (satsysToChar sys) ∧ mmap.lookup sys = none := by
    cases g2 with
    | skip sys h3 h4 _ =>
      right
      cases q with
      | nil => exact Or.inl rfl
      | cons a as =>
        obtain ⟨u, rfl⟩ := e3
        exact Or.inr ⟨sys, h3, h4⟩
    | sat => left; simp only [List.length_cons] at hov; omega
  obtain ⟨st, ov', buf', s', j1, j2, j3, j4, j5, j6, j7, j8⟩ := collectLoop_cut (raw0 := raw0) (m := rest.length) (i := out1.length) (ov := ov1) (buf := buf1)
    (s := (s.past [b.head.line]).past pre) ho' (by rw [k2]; exact hqf) hg (Stream.past_rest (rest_cons hrest)) (by omega) hnx hroom1
  have hnsat : nsat = pre.length + (rest.length + 1) := by rw [hnl, e1]; simp
  have hloop : collectLoop raw0 mmap nsat 0 ov (fillLine buf b.head.line) (s.past [b.head.line]) 0 =
      .ok ⟨st, (out1 ++ o').length, ov', buf', s', 0⟩ := by
    rw [hnsat, collectLoop_split pre.length 0 ov _ _ 0 _ _ _ _ _ k1, Nat.zero_add, j1, List.length_append]
  have hH : Holds ov ov' (out1 ++ o') := by
    refine ⟨by omega, ?_, ?_⟩
    · intro j x hx
      by_cases hj : j < out1.length
      · rw [List.getElem?_append_left hj] at hx
        obtain ⟨e, he1, he2⟩ := k4 j x hx
        rw [Nat.zero_add] at he1 he2
        exact ⟨e, he1, by rw [j8 j (Or.inl hj)]; exact he2⟩
      · rw [List.getElem?_append_right (by omega)] at hx
        obtain ⟨e, he1, he2⟩ := j7 _ x hx
        rw [show out1.length + (j - out1.length) = j by omega] at he1 he2
        exact ⟨e, by rw [← k5 j (Or.inr (by omega))]; exact he1, he2⟩
    · intro j hj
      rw [List.length_append] at hj
      rw [j8 j (Or.inr (by omega)), k5 j (Or.inr (by omega))]
  have hcall : readNextEpoch mjdOf raw0 mmap ov buf s 0 = .ok (if st ≠ 0 then ⟨30 + st, (out1 ++ o').length, some h, ov', buf', s', 0⟩
      else epochEnd (out1 ++ o').length (some h) ov' buf' s' 0) := by
    unfold readNextEpoch
    rw [hpk]
    simp only
    rw [hgl]
    simp only [hres, Res.bind_ok]
    unfold collectEpoch
    rw [hns, Int.toNat_natCast, hloop, Res.bind_ok]
    simp only
    split <;> rfl
  rw [hcall]
  rcases j2 with ⟨rfl, hm0⟩ | ⟨rfl, hm0, je⟩
  · exact ⟨31, ov', buf', s', rfl, Or.inl ⟨rfl, hm0.imp (fun h hr => h (by rw [hr]; rfl)) id⟩, hH, j3, j4, by omega⟩
  · refine ⟨-1, ov', buf', s'.clear, ?_, Or.inr ⟨rfl, List.length_eq_zero_iff.1 hm0⟩, hH, j3.clear, j4, by omega⟩
    simp [epochEnd, je]

/-- **C83**: an epoch of which only the beginning is in the file (it may end in the middle of a line).  The call
never returns 0: it returns -1, 21, 25 or 31.  What it delivers is what `CutSees` allows — complete lines
as they are, and the line in which the file ends with the fields that are there.  The file has then been
read to its end. -/
theorem C83_cut_epoch {mjdOf : Int → Int → Int → Res Int} {mmap : ReadMap} {b : ObsEpochBlock} {h : EpochHead} {out : List SatVals}
    (raw0 : RawRnxObs) {ov : List SatVals} {buf : List Char} (hb : BlockSees mjdOf mmap buf.length b h out) (hn : 3 ≤ buf.length)
    {s : Stream} {p : List Char} (hp : p <+: b.text) (hne : p ≠ []) (hnall : p ≠ b.text) (hg : s.good = true) (hr : s.rest = p)
    (hov : out.length ≤ ov.length) (hroom : Room mmap ov) :
    ∃ st hd ov' buf' s' seen, readNextEpoch mjdOf raw0 mmap ov buf s 0 = .ok ⟨st, seen.length, hd, ov', buf', s', 0⟩ ∧
      st ∈ [-1, 21, 25, 31] ∧ (∀ h', hd = some h' → SameButClock h h') ∧ CutSees mmap b p seen ∧ seen.length ≤ out.length ∧ Holds ov ov' seen ∧
      AtEnd s' ∧ s'.content = s.content ∧ buf'.length = buf.length := by
  obtain ⟨y, mo, d, hh, mi, flag, nsat, sec, hs, hm, hsec, hfl, hns, hnl⟩ := hb.head
  have hhead : h = ⟨h.mjd, (hh : Rat) * 3600 + mi * 60 + sec, flag, nsat, h.clock⟩ := by
    cases h; simp_all
  have hpk : ∃ c, s.peek = (some c, s) := by
    cases hp' : p with
    | nil => exact absurd hp' hne
    | cons c cs => exact ⟨c, Stream.peek_cons hg (by rw [hr, hp'])⟩
  obtain ⟨c, hpk⟩ := hpk
  unfold ObsEpochBlock.text at hp hnall
  rcases cut_cons hp with hcut | ⟨t', h1, h2⟩
  · -- the file ends in the header line
    have hfit := hb.fit.1.pre hcut
    have hgl := Stream.getline_last (n := buf.length) hg hr hfit.1 hfit.2.2
    have hbl := fill_len hfit.2.2 (show 1 ≤ buf.length by omega)
    have hres := resolve_cut hs hm hcut hb.fit.1.2.1 (buf.drop (p.length + 1))
    rw [show p ++ NUL :: buf.drop (p.length + 1) = fillLine buf p from rfl] at hres
    unfold readNextEpoch
    rw [hpk]
    simp only
    rw [hgl]
    simp only
    rcases hres with e | e | ⟨clk, e⟩
    · rw [e, Res.bind_ok]
      exact ⟨21, none, ov, fillLine buf p, _, [], rfl, by simp, by simp, .head hcut, by simp, holds_nil ov, AtEnd.last hr _, rfl, hbl⟩
    · rw [e, Res.bind_ok]
      exact ⟨25, none, ov, fillLine buf p, _, [], rfl, by simp, by simp, .head hcut, by simp, holds_nil ov, AtEnd.last hr _, rfl, hbl⟩
    · rw [e, Res.bind_ok]
      simp only
      unfold collectEpoch
      rw [Int.toNat_natCast]
      have hsame : SameButClock h ⟨h.mjd, (hh : Rat) * 3600 + mi * 60 + sec, flag, nsat, clk⟩ := ⟨rfl, hsec.symm, hfl.symm, hns.symm⟩
      cases nsat with
      | zero =>
        refine ⟨-1, some ⟨h.mjd, (hh : Rat) * 3600 + mi * 60 + sec, flag, (0 : Nat), clk⟩, ov, fillLine buf p,
          ({ s with pos := s.pos + p.length, eof := true, fail := p.isEmpty } : Stream).clear, [], ?_, by simp, ?_, .head hcut, by simp, holds_nil ov, ?_, rfl, hbl⟩
        · rfl
        · rintro h' ⟨⟩; exact hsame
        · exact (AtEnd.last hr _).clear
      | succ m =>
        obtain ⟨buf', s', a, b', c', d'⟩ := collectLoop_atEnd (raw0 := raw0) (mmap := mmap) (i := 0) (ov := ov) (buf := fillLine buf p)
          (s := { s with pos := s.pos + p.length, eof := true, fail := p.isEmpty }) (AtEnd.last hr _) (by omega) m
        rw [a, Res.bind_ok]
        refine ⟨31, some _, ov, buf', s', [], rfl, by simp, ?_, .head hcut, by simp, holds_nil ov, b', c', by omega⟩
        rintro h' ⟨⟩; exact hsame
  · -- the header line is there
    obtain ⟨pre, l, rest, q, e1, e2, e3⟩ := cut_lines h2 (by rintro rfl; exact hnall (by rw [h1, linesText_cons]))
    have hg' := hb.gives
    rw [e1] at hg'
    obtain ⟨out1, o, out2, rfl, g1, g2, g3⟩ := hg'.split
    obtain ⟨o', ho', hol⟩ := cutLine_total g2 e3
    have hrest : s.rest = linesText (b.head.line :: pre) ++ q := by rw [hr, h1, e2, linesText_cons]; simp
    obtain ⟨st, ov', buf', s', k1, k2, k3, k4, k5, k6⟩ := C83_cut_line raw0 hb hn e1 e3 g1 g2 ho' hol hg hrest hov hroom
    have hsees : CutSees mmap b p (out1 ++ o') := by
      have : p = linesText (b.head.line :: pre) ++ q := by rw [← hr]; exact hrest
      rw [this]
      exact .lines e1 e3 g1 ho'
    refine ⟨st, some h, ov', buf', s', out1 ++ o', k1, ?_, ?_, hsees, by simp; omega, k3, k4, k5, k6⟩
    · rcases k2 with ⟨rfl, _⟩ | ⟨rfl, _⟩ <;> simp
    · rintro h' ⟨⟩; exact ⟨rfl, rfl, rfl, rfl⟩

/-- Afterwards every call returns -1. -/
theorem C83_after {mjdOf : Int → Int → Int → Res Int} (raw0 : RawRnxObs) (mmap : ReadMap) {s : Stream} (h : AtEnd s) (errno : Int) (n : Nat)
    (ov : List SatVals) (buf : List Char) :
    ∃ s', obsReadEpochs mjdOf raw0 mmap n ov buf s errno = .ok (List.replicate n (-1, 0, none, ov), s') ∧ AtEnd s' ∧ s'.content = s.content := by
  by_cases hg : s.good = true
  · exact ⟨s, obsReadEpochs_eof mjdOf raw0 mmap s errno hg h.1 n ov buf, h, rfl⟩
  · have he := h.2.resolve_right hg
    cases n with
    | zero => exact ⟨s, rfl, h, rfl⟩
    | succ n =>
      refine ⟨({ s with fail := true } : Stream).clear, ?_, AtEnd.clear (s := { s with fail := true }) ⟨h.1, Or.inl he⟩, rfl⟩
      have hpk : s.peek = (none, { s with fail := true }) := by unfold Stream.peek; rw [if_neg hg]
      unfold obsReadEpochs
      have : readNextEpoch mjdOf raw0 mmap ov buf s errno = .ok ⟨-1, 0, none, ov, buf, ({ s with fail := true } : Stream).clear, errno⟩ := by
        unfold readNextEpoch
        rw [hpk]
        simp [epochEnd, he]
      rw [this, Res.bind_ok]
      simp only
      rw [obsReadEpochs_eof mjdOf raw0 mmap ({ s with fail := true } : Stream).clear errno rfl h.1 n ov buf, Res.bind_ok]
      rfl

/-- **C83** (whole files): the file ends anywhere.  The client gets every complete epoch, in order; then, when the
file ends inside an epoch, one call with status -1, 21, 25 or 31 and what is seen of that epoch; then -1 for ever. -/
theorem C83_sequence {mjdOf : Int → Int → Int → Res Int} {mmap : ReadMap} (raw0 : RawRnxObs) (k : Nat) :
    ∀ (bs : List ObsEpochBlock) (exp : List (EpochHead × List SatVals)) (ov : List SatVals) (buf : List Char) (s : Stream),
    List.Forall₂ (fun b x => BlockSees mjdOf mmap buf.length b x.1 x.2) bs exp → 3 ≤ buf.length → s.good = true →
    s.rest <+: (bs.map ObsEpochBlock.text).flatten → (∀ x ∈ exp, x.2.length ≤ ov.length) → Room mmap ov →
    ∃ (m : Nat) (rs : List (Int × Nat × Option EpochHead × List SatVals)) (ov1 : List SatVals) (s' : Stream),
      EpochResults ov (exp.take m) rs ov1 ∧ s'.content = s.content ∧ AtEnd s' ∧
      ((s.rest = ((bs.take m).map ObsEpochBlock.text).flatten ∧
          obsReadEpochs mjdOf raw0 mmap (m + 1 + k) ov buf s 0 = .ok (rs ++ List.replicate (k + 1) (-1, 0, none, ov1), s')) ∨
        ∃ b h out p st hd seen ov2, bs[m]? = some b ∧ exp[m]? = some (h, out) ∧ p <+: b.text ∧ p ≠ [] ∧ p ≠ b.text ∧
          s.rest = ((bs.take m).map ObsEpochBlock.text).flatten ++ p ∧
          obsReadEpochs mjdOf raw0 mmap (m + 1 + k) ov buf s 0 = .ok (rs ++ (st, seen.length, hd, ov2) :: List.replicate k (-1, 0, none, ov2), s') ∧
          st ∈ [-1, 21, 25, 31] ∧ (∀ h', hd = some h' → SameButClock h h') ∧ CutSees mmap b p seen ∧ seen.length ≤ out.length ∧ Holds ov1 ov2 seen) := by
  intro bs
  induction bs with
  | nil =>
    intro exp ov buf s hx _ hg hr _ _
    cases hx
    have hr' : s.rest = [] := by simpa using hr
    obtain ⟨s', e1, e2, e3⟩ := C83_after (mjdOf := mjdOf) raw0 mmap (s := s) ⟨hr', Or.inr hg⟩ 0 (k + 1) ov buf
    exact ⟨0, [], ov, s', .nil ov, e3, e2, Or.inl ⟨by simpa using hr', by rw [show 0 + 1 + k = k + 1 by omega]; simpa using e1⟩⟩
  | cons b bs ih =>
    intro exp ov buf s hx hn hg hr hlen hroom
    obtain ⟨⟨h, out⟩, exp, hb, hx', rfl⟩ := List.forall₂_cons_left_iff.1 hx
    simp only at hb
    by_cases hr0 : s.rest = []
    · obtain ⟨s', e1, e2, e3⟩ := C83_after (mjdOf := mjdOf) raw0 mmap (s := s) ⟨hr0, Or.inr hg⟩ 0 (k + 1) ov buf
      exact ⟨0, [], ov, s', .nil ov, e3, e2, Or.inl ⟨by simpa using hr0, by rw [show 0 + 1 + k = k + 1 by omega]; simpa using e1⟩⟩
    rw [List.map_cons, List.flatten_cons] at hr
    by_cases hle : b.text.length ≤ s.rest.length
    · -- this epoch is complete
      obtain ⟨t', ht⟩ := List.prefix_of_prefix_length_le (l₁ := b.text) (l₂ := s.rest) ⟨_, rfl⟩ hr hle
      have hr' : s.rest = b.text ++ t' := ht.symm
      have ht' : t' <+: (bs.map ObsEpochBlock.text).flatten := by
        rw [hr'] at hr; exact (List.prefix_append_right_inj _).1 hr
      obtain ⟨ov1, buf1, e1, e2, e3⟩ := C57_exact raw0 hb (by omega) hg hr' (hlen (h, out) (by simp)) hroom
      have hrest1 : (s.past (b.head.line :: b.lines)).rest = t' := Stream.past_rest (by rw [hr']; rfl)
      obtain ⟨m, rs, ov2, s', g1, g2, g3, g4⟩ := ih exp ov1 buf1 (s.past (b.head.line :: b.lines)) (by rw [e3]; exact hx') (by omega) hg
        (by rw [hrest1]; exact ht') (fun x hxm => by rw [e2.length]; exact hlen x (by simp [hxm])) (e2.room hroom hb.gives.width)
      have step : ∀ {X : List (Int × Nat × Option EpochHead × List SatVals)},
          obsReadEpochs mjdOf raw0 mmap (m + 1 + k) ov1 buf1 (s.past (b.head.line :: b.lines)) 0 = .ok (X, s') →
          obsReadEpochs mjdOf raw0 mmap (m + 1 + 1 + k) ov buf s 0 = .ok ((0, out.length, some h, ov1) :: X, s') := by
        intro X hX
        rw [show m + 1 + 1 + k = (m + 1 + k) + 1 by omega]
        unfold obsReadEpochs
        rw [e1, Res.bind_ok]
        simp only
        rw [hX, Res.bind_ok]
        rfl
      refine ⟨m + 1, (0, out.length, some h, ov1) :: rs, ov2, s', .cons e2 g1, g2, g3, ?_⟩
      rcases g4 with ⟨q1, q2⟩ | ⟨b', h', out', p, st, hd, seen, ov3, q1, q2, q3, q4, q5, q6, q7, q8⟩
      · left
        refine ⟨?_, by rw [step q2]; simp⟩
        rw [hr', ← hrest1, q1]; simp
      · right
        refine ⟨b', h', out', p, st, hd, seen, ov3, by simpa using q1, by simpa using q2, q3, q4, q5, ?_, by rw [step q7]; simp, q8⟩
        rw [hr', ← hrest1, q6]; simp
    · -- the file ends in this epoch
      have hp : s.rest <+: b.text := List.prefix_of_prefix_length_le hr ⟨_, rfl⟩ (by omega)
      obtain ⟨st, hd, ov', buf', s1, seen, c1, c2, c3, c4, c5, c6, c7, c8, c9⟩ := C83_cut_epoch raw0 hb hn hp hr0
        (by intro he; rw [he] at hle; omega) hg rfl (hlen (h, out) (by simp)) hroom
      obtain ⟨s', e1, e2, e3⟩ := C83_after (mjdOf := mjdOf) raw0 mmap c7 0 k ov' buf'
      refine ⟨0, [], ov, s', .nil ov, by rw [e3, c8], e2, Or.inr ⟨b, h, out, s.rest, st, hd, seen, ov', rfl, rfl, hp, hr0,
        by intro he; rw [he] at hle; omega, by simp, ?_, c2, c3, c4, c5, c6⟩⟩
      rw [show 0 + 1 + k = k + 1 by omega]
      unfold obsReadEpochs
      rw [c1, Res.bind_ok]
      simp only
      rw [e1, Res.bind_ok]
      rfl

/-! ## What is seen -/

theorem Got.short_none {p : List Char} {i : Nat} {x : Option Rat} {d : Int} (h : Got p i x d) (hs : p.length < 3 + 16 * i + 16) : x = none := by
  cases h with
  | short => rfl
  | blank => rfl
  | marker => rfl
  | value f hw ht _ =>
    have := fieldCols_full (l := p) (i := i) (by rw [ht]; exact hw.length)
    omega

theorem Got.pre {l p : List Char} (h : p <+: l) {i : Nat} {x : Option Rat} {d : Int} (hg : Got l i x d) (hf : 3 + 16 * i + 16 ≤ p.length) : Got p i x d := by
  have hcols : fieldCols p i = fieldCols l i := by
    obtain ⟨u, rfl⟩ := h
    unfold fieldCols
    rw [List.drop_append_of_le_length (by omega), List.take_append_of_le_length (by simp; omega)]
  have hle := h.length_le
  cases hg with
  | short hs => omega
  | blank h1 h2 => exact .blank hf (by rw [hcols]; exact h2)
  | marker f h1 h2 h3 => exact .marker f h1 (by rw [hcols]; exact h2) h3
  | value f h1 h2 h3 => exact .value f h1 (by rw [hcols]; exact h2) h3

theorem forall₂_mem_right {α β : Type} {R : α → β → Prop} {as : List α} {bs : List β} (h : List.Forall₂ R as bs) {b : β} (hb : b ∈ bs) :
    ∃ a ∈ as, R a b := by
  induction h with
  | nil => simp at hb
  | cons h1 _ ih =>
    rcases List.mem_cons.1 hb with rfl | hb
    · exact ⟨_, by simp, h1⟩
    · obtain ⟨a, ha, hr⟩ := ih hb
      exact ⟨a, by simp [ha], hr⟩

/-- Fields are lost from the end of the line on: an observable whose columns are in order is as before, or missing. -/
theorem GotAll.cut_value {l p : List Char} (h : p <+: l) {prs : List (Nat × Rat)} (hord : prs.Pairwise (fun a b => a.1 ≤ b.1))
    {xs xs' : List (Option Rat × Rat)} (hx : GotAll l prs xs) (hx' : GotAll p prs xs') :
    codeSum xs' 0 = codeSum xs 0 ∨ codeSum xs' 0 = missingMark := by
  have key : xs' = xs ∨ ∃ ys c, xs' = ys ++ [(none, c)] := by
    induction prs generalizing xs xs' with
    | nil => cases hx; cases hx'; exact Or.inl rfl
    | cons pr prs ih =>
      unfold GotAll at hx hx'
      obtain ⟨x, ys, ⟨⟨d, _, g⟩, hc⟩, hys, rfl⟩ := List.forall₂_cons_left_iff.1 hx
      obtain ⟨x', ys', ⟨⟨d', _, g'⟩, hc'⟩, hys', rfl⟩ := List.forall₂_cons_left_iff.1 hx'
      obtain ⟨h1, h2⟩ := List.pairwise_cons.1 hord
      by_cases hf : 3 + 16 * pr.1 + 16 ≤ p.length
      · have e := ((g.pre h hf).unique g').1
        have : x' = x := by cases x; cases x'; simp_all
        subst this
        rcases ih h2 hys hys' with rfl | ⟨zs, c, rfl⟩
        · exact Or.inl rfl
        · exact Or.inr ⟨x' :: zs, c, rfl⟩
      · right
        have all : ∀ z ∈ x' :: ys', z.1 = none := by
          intro z hz
          rcases List.mem_cons.1 hz with rfl | hz
          · exact g'.short_none (by omega)
          · obtain ⟨pr2, hm, ⟨d2, _, g2⟩, _⟩ := forall₂_mem_right hys' hz
            have := h1 pr2 hm
            exact g2.short_none (by omega)
        obtain ⟨zs, z, e⟩ := (List.eq_nil_or_concat (x' :: ys')).resolve_left (by simp)
        rw [List.concat_eq_append] at e
        have hz := all z (by rw [e]; simp)
        obtain ⟨z, c⟩ := z
        simp only at hz
        subst hz
        exact ⟨zs, c, e⟩
  rcases key with rfl | ⟨ys, c, rfl⟩
  · exact Or.inl rfl
  · right; simp [codeSum_append, codeSum]

theorem GotAll.unique {l : List Char} : ∀ {prs : List (Nat × Rat)} {xs xs' : List (Option Rat × Rat)}, GotAll l prs xs → GotAll l prs xs' → xs = xs' := by
  intro prs
  induction prs with
  | nil => intro xs xs' h h'; cases h; cases h'; rfl
  | cons pr prs ih =>
    intro xs xs' h h'
    unfold GotAll at h h'
    obtain ⟨x, ys, ⟨⟨d, _, g⟩, hc⟩, hys, rfl⟩ := List.forall₂_cons_left_iff.1 h
    obtain ⟨x', ys', ⟨⟨d', _, g'⟩, hc'⟩, hys', rfl⟩ := List.forall₂_cons_left_iff.1 h'
    have e := (g.unique g').1
    have : x = x' := by cases x; cases x'; simp_all
    rw [this, ih hys hys']

theorem natAt_unique {t : List Char} {a b : Nat} (ha : NatAt t 0 a) (hb : NatAt t 0 b) : a = b := by
  obtain ⟨r, h1⟩ := strtol_nat (tail := []) ha
  obtain ⟨r', h2⟩ := strtol_nat (tail := []) hb
  rw [h1] at h2
  simp only [Res.ok.injEq, Option.some.injEq, Prod.mk.injEq] at h2
  omega

theorem letter_inj {sys sys' : SatSys} (h : satsysToChar sys = satsysToChar sys') : sys = sys' := by
  have := congrArg charToSatsys h
  simpa [charToSatsys_toChar] using this

theorem EpochGot.unique {mmap : ReadMap} : ∀ {ls : List (List Char)} {out out' : List SatVals}, EpochGot mmap ls out → EpochGot mmap ls out' → out = out' := by
  intro ls out out' h
  induction h generalizing out' with
  | nil => intro h'; cases h'; rfl
  | skip sys h1 h2 _ ih =>
    intro h'
    cases h' with
    | skip _ _ _ h8 => exact ih h8
    | sat sys' prn sysobs xss g1 g2 =>
      rw [h1] at g1
      rw [letter_inj (Option.some.inj g1), g2] at h2
      cases h2
  | sat sys prn sysobs xss h1 h2 h3 h4 h5 h6 h7 _ ih =>
    intro h'
    cases h' with
    | skip sys' g1 g2 _ =>
      rw [h1] at g1
      rw [letter_inj (Option.some.inj g1), g2] at h2
      cases h2
    | sat sys' prn' sysobs' xss' g1 g2 g3 g4 g5 g6 g7 g8 =>
      rw [h1] at g1
      have es := letter_inj (Option.some.inj g1)
      subst es
      rw [h2] at g2
      cases g2
      have ex : xss = xss' := by
        clear h2
        induction h7 generalizing xss' with
        | nil => cases g7; rfl
        | cons a _ ih7 =>
          cases g7 with
          | cons b c => rw [a.unique b, ih7 _ c]
      rw [natAt_unique h3 g3, ex, ih g8]

theorem cutLine_part {mmap : ReadMap} (hord : ColumnsInOrder mmap) {l q p0 : List Char} {o o' : List SatVals} (h : EpochGot mmap [l] o)
    (hq : q <+: l) (h' : CutLine mmap q o') : o' = [] ∨ ∃ x x', o = [x] ∧ o' = [x'] ∧ PartOf (p0 ++ '\n' :: q) x' x := by
  cases h' with
  | empty => exact Or.inl rfl
  | skip => exact Or.inl rfl
  | number => exact Or.inl rfl
  | sat sys prn sysobs xss h1 h2 h3 h4 h5 h6 =>
    right
    have hhead : q.head? = l.head? := by
      obtain ⟨u, rfl⟩ := hq
      cases q with
      | nil => simp at h1
      | cons => rfl
    rw [hhead] at h1
    cases h with
    | skip sys' g1 g2 _ =>
      rw [h1] at g1
      rw [letter_inj (Option.some.inj g1), g2] at h2
      cases h2
    | sat sys' prn' sysobs' xss' g1 g2 g3 g4 g5 g6 g7 g8 =>
      cases g8
      rw [h1] at g1
      have es := letter_inj (Option.some.inj g1)
      subst es
      rw [h2] at g2
      cases g2
      refine ⟨_, _, rfl, rfl, rfl, ?_, ?_⟩
      · match q, hq, h3 with
        | [], _, h3 => obtain ⟨_, k, ds, rest, e, _, hd, _⟩ := h3; simp at e; exact absurd e.2.1 hd
        | [a], _, h3 => obtain ⟨_, k, ds, rest, e, _, hd, _⟩ := h3; simp at e; exact absurd e.2.1 hd
        | [a, b], _, _ => exact Or.inr ⟨p0, a, b, rfl⟩
        | a :: b :: c :: q', hq, h3 =>
          left
          obtain ⟨u, rfl⟩ := hq
          have : prn = prn' := natAt_unique h3 g3
          rw [this]
      · have hc := hord _ (lookup_mem h2)
        simp only at hc
        clear h2
        induction h6 generalizing xss' with
        | nil => cases g7; exact .nil
        | @cons prs xs prss xss a _ ih =>
          cases g7 with
          | cons b c =>
            exact .cons (GotAll.cut_value hq (hc prs (by simp)) b a) (ih _ c (fun x hx => hc x (by simp [hx])))

/-- **C83** (what may be seen): when the columns of every requested observable are in order, the satellites seen of an
epoch that is cut are the first ones of the complete epoch; all but the last have their values, the last may have
some of them missing (and only its system when the file ends in the satellite number). -/
theorem C83_seen {mmap : ReadMap} (hord : ColumnsInOrder mmap) {b : ObsEpochBlock} {out seen : List SatVals} {p : List Char}
    (hb : EpochGot mmap b.lines out) (h : CutSees mmap b p seen) :
    (∃ m, seen = out.take m) ∨ ∃ m x x', out[m]? = some x ∧ seen = out.take m ++ [x'] ∧ PartOf p x' x := by
  cases h with
  | head => exact Or.inl ⟨0, by simp⟩
  | @lines ls rest l q out1 o' h1 h2 h3 h4 =>
    rw [h1] at hb
    obtain ⟨o1, o, o2, rfl, g1, g2, g3⟩ := hb.split
    obtain rfl := h3.unique g1
    obtain ⟨t, ht⟩ : ∃ t, linesText (b.head.line :: ls) = t ++ ['\n'] := by
      rcases List.eq_nil_or_concat (b.head.line :: ls) with h | ⟨ys, y, h⟩
      · simp at h
      · rw [h, List.concat_eq_append]
        exact ⟨linesText ys ++ y, by simp [linesText]⟩
    rcases cutLine_part (p0 := t) hord g2 h2 h4 with rfl | ⟨x, x', rfl, rfl, hp⟩
    · left; exact ⟨out1.length, by simp⟩
    · right
      refine ⟨out1.length, x, x', by simp, by simp, ?_⟩
      rw [ht]
      simpa using hp

/-- **C83**, the end of the file right behind the last line, whose newline is missing: the epoch is delivered
completely, but with status -1 ("end of file") when its last satellite is of a requested system. -/
theorem C83_no_newline {mjdOf : Int → Int → Int → Res Int} {mmap : ReadMap} {b : ObsEpochBlock} {h : EpochHead} {out1 : List SatVals} {x : SatVals}
    (raw0 : RawRnxObs) {ov : List SatVals} {buf : List Char} (hb : BlockSees mjdOf mmap buf.length b h (out1 ++ [x])) (hn : 3 ≤ buf.length)
    {s : Stream} {pre : List (List Char)} {l : List Char} (e1 : b.lines = pre ++ [l]) (g1 : EpochGot mmap pre out1) (g2 : EpochGot mmap [l] [x])
    (hg : s.good = true) (hrest : s.rest = linesText (b.head.line :: pre) ++ l) (hov : (out1 ++ [x]).length ≤ ov.length) (hroom : Room mmap ov) :
    ∃ ov' buf' s', readNextEpoch mjdOf raw0 mmap ov buf s 0 = .ok ⟨-1, (out1 ++ [x]).length, some h, ov', buf', s', 0⟩ ∧ Holds ov ov' (out1 ++ [x]) := by
  have hc : CutLine mmap l [x] := by
    cases g2 with
    | skip _ _ _ h => cases h
    | sat sys prn sysobs xss h1 h2 h3 h4 h5 h6 h7 h8 => exact .sat sys prn sysobs xss h1 h2 h3 h4 h5 h7
  obtain ⟨st, ov', buf', s', a, b', c, _⟩ := C83_cut_line (out2 := []) raw0 (by simpa using hb) hn e1 (List.prefix_refl l) g1 g2 hc (le_refl _) hg hrest
    (by simpa using hov) hroom
  rcases b' with ⟨_, h | h⟩ | ⟨rfl, _⟩
  · exact absurd rfl h
  · cases h
  · exact ⟨ov', buf', s', a, c⟩

end Ggnss
