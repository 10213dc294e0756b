import Verif.Props.ObsEpoch
/-!
# C42: sizes of the output vector, and safety for arbitrary bytes
-/
namespace Ggnss

/-- Every slot of the output vector has room for the observables of every requested system. -/
def Room (mmap : List (SatSys × List IdPairs)) (ov : List ((SatSys × Int) × List Rat)) : Prop :=
  ∀ e ∈ ov, ∀ m ∈ mmap, m.2.length ≤ e.2.length

theorem foldl_max_ge {α : Type} (f : α → Nat) : ∀ (l : List α) (a : Nat),
    a ≤ l.foldl (fun m e => if f e > m then f e else m) a ∧ ∀ e ∈ l, f e ≤ l.foldl (fun m e => if f e > m then f e else m) a := by
  intro l
  induction l with
  | nil => intro a; simp
  | cons x xs ih =>
    intro a
    simp only [List.foldl_cons]
    obtain ⟨h1, h2⟩ := ih (if f x > a then f x else a)
    have hx : f x ≤ (if f x > a then f x else a) := by split <;> omega
    have ha : a ≤ (if f x > a then f x else a) := by split <;> omega
    refine ⟨le_trans ha h1, ?_⟩
    intro e he
    rcases List.mem_cons.1 he with rfl | he
    · exact le_trans hx h1
    · exact h2 e he

/-- **C42** (initial vector).  It has 80 slots, every one with room for the observables of every
requested system, and all values are the missing-value marker. -/
theorem C42_initial (mmap : List (SatSys × List IdPairs)) :
    (initEpochVector mmap).length = 80 ∧ Room mmap (initEpochVector mmap) ∧
      ∀ e ∈ initEpochVector mmap, ∀ v ∈ e.2, v = missingMark := by
  unfold initEpochVector
  refine ⟨by simp [MAX_SAT_IN_EPOCH], ?_, ?_⟩
  · intro e he m hm
    obtain ⟨_, rfl⟩ := List.mem_replicate.1 he
    simp only [List.length_replicate]
    exact (foldl_max_ge (fun e : SatSys × List IdPairs => e.2.length) mmap 0).2 m hm
  · intro e he v hv
    obtain ⟨_, rfl⟩ := List.mem_replicate.1 he
    obtain ⟨_, rfl⟩ := List.mem_replicate.1 hv
    rfl

/-- … and no slot is larger than the largest request. -/
theorem C42_initial_tight (mmap : List (SatSys × List IdPairs)) (n : Nat) (h : ∀ m ∈ mmap, m.2.length ≤ n) :
    ∀ e ∈ initEpochVector mmap, e.2.length ≤ n := by
  intro e he
  unfold initEpochVector at he
  obtain ⟨_, rfl⟩ := List.mem_replicate.1 he
  simp only [List.length_replicate]
  have : ∀ (l : List (SatSys × List IdPairs)) (a : Nat), a ≤ n → (∀ m ∈ l, m.2.length ≤ n) →
      l.foldl (fun m e => if e.2.length > m then e.2.length else m) a ≤ n := by
    intro l
    induction l with
    | nil => intro a ha _; simpa using ha
    | cons x xs ih =>
      intro a ha hm
      simp only [List.foldl_cons]
      apply ih
      · split
        · exact hm x (by simp)
        · exact ha
      · exact fun m hm' => hm m (by simp [hm'])
  exact this mmap 0 (by omega) h

/-! ## Arbitrary bytes -/

theorem collectParts_any {buf : List Char} {len : Nat} (hlen : len ≤ buf.length) :
    ∀ (prs : IdPairs) (v : Rat) (st : Int) (t : List Char) (o : RawRnxObs) (errno : Int), IsTbuf t →
    (∃ e, collectParts buf len prs v st t o errno = .ok (.inl e)) ∨
    ∃ v' st' t' o' e', collectParts buf len prs v st t o errno = .ok (.inr (v', st', t', o', e')) ∧ IsTbuf t' ∧ st' ≤ st := by
  intro prs
  induction prs with
  | nil => intro v st t o errno ht; exact Or.inr ⟨v, st, t, o, errno, rfl, ht, le_refl _⟩
  | cons pr prs ih =>
    intro v st t o errno ht
    unfold collectParts
    simp only
    split
    · rename_i h
      have hx : ((buf.drop (pr.1 * 16 + 3)).take 16).length = 16 := by simp; omega
      rw [ht.copy hx, Res.bind_ok]
      have htb := IsTbuf.new hx
      obtain ⟨s, o', e', hr, _⟩ := C40_any_field _ htb.1 htb.2 o errno
      rw [hr, Res.bind_ok]
      split
      · exact Or.inl ⟨_, rfl⟩
      · split
        · exact ih _ _ _ _ _ htb
        · rcases ih MISSING (st - 1) _ o' e' htb with h | ⟨v', st', t', o'', e'', h1, h2, h3⟩
          · exact Or.inl h
          · exact Or.inr ⟨v', st', t', o'', e'', h1, h2, by omega⟩
    · exact ih _ _ _ _ _ ht

theorem collectObs_any {buf : List Char} {len : Nat} (hlen : len ≤ buf.length) :
    ∀ (sysobs : List IdPairs) (k : Nat) (vals : List Rat) (st : Int) (t : List Char) (o : RawRnxObs) (errno : Int), IsTbuf t →
    k + sysobs.length ≤ vals.length → st ≤ 0 →
    ∃ st' vals' e', collectObs buf len sysobs k vals st t o errno = .ok (st', vals', e') ∧ vals'.length = vals.length ∧ (st' ≤ 0 ∨ st' = 2) ∧
      vals'.drop (k + sysobs.length) = vals.drop (k + sysobs.length) := by
  intro sysobs
  induction sysobs with
  | nil => intro k vals st t o errno _ _ hs; exact ⟨_, _, _, rfl, rfl, Or.inl hs, rfl⟩
  | cons prs sysobs ih =>
    intro k vals st t o errno ht hk hs
    simp only [List.length_cons] at hk
    unfold collectObs
    rcases collectParts_any hlen prs 0 st t o errno ht with ⟨e, h⟩ | ⟨v', st', t', o', e', h1, h2, h3⟩
    · rw [h, Res.bind_ok]; exact ⟨_, _, _, rfl, rfl, Or.inr rfl, rfl⟩
    · rw [h1, Res.bind_ok]
      simp only
      unfold valStore
      rw [if_pos (by omega), Res.bind_ok]
      obtain ⟨s, w, e, g1, g2, g3, g4⟩ := ih (k + 1) (vals.set k v') st' t' o' e' h2 (by simp; omega) (by omega)
      refine ⟨s, w, e, g1, by simpa using g2, g3, ?_⟩
      simp only [List.length_cons]
      rw [show k + (sysobs.length + 1) = k + 1 + sysobs.length by omega, g4, List.drop_set_of_lt (by omega)]

/-- A satellite line of arbitrary bytes. -/
theorem satEpochCollect_any {buf : List Char} (h3 : 3 ≤ buf.length) (hn : NUL ∈ buf) (sysobs : List IdPairs) (vals : List Rat)
    (hv : sysobs.length ≤ vals.length) (raw0 : RawRnxObs) (errno : Int) :
    ∃ st prn vals' e', satEpochCollect raw0 buf sysobs vals errno = .ok (st, prn, vals', e') ∧ vals'.length = vals.length ∧
      (st ≤ 0 → 1 ≤ prn ∧ prn ≤ 99) := by
  unfold satEpochCollect
  rw [getAt_lt (by omega), Res.bind_ok, getAt_lt (by omega), Res.bind_ok]
  simp only
  have htb : IsTbuf (buf[1]'(by omega) :: buf[2]'(by omega) :: List.replicate 15 NUL) := ⟨by simp, by simp⟩
  have hst : ∀ a b : Char, strtolA (a :: b :: List.replicate 15 NUL) = .ok (strtol (a :: b :: List.replicate 15 NUL)) := by
    intro a b; unfold strtolA; rw [if_pos (by simp)]
  rw [hst, Res.bind_ok]
  generalize strtol _ = p
  generalize (if strtolErr p = true then ERANGE else errno) = e2
  generalize toInt32 (strtolVal p) = prn
  split
  · refine ⟨_, _, _, _, rfl, rfl, ?_⟩
    intro h; simp at h
  · rename_i hno
    obtain ⟨s, hs⟩ := cstrOf_nul hn
    obtain ⟨r, hr, _⟩ := cstrOf_ok hs
    rw [hs, Res.bind_ok]
    obtain ⟨st, w, e, g1, g2, g3, g4⟩ := collectObs_any (buf := buf) (len := s.length) (by rw [hr]; simp) sysobs 0 vals 0 _ raw0 e2 htb
      (by omega) (le_refl _)
    rw [g1, Res.bind_ok]
    refine ⟨_, _, _, _, rfl, g2, fun _ => ?_⟩
    push Not at hno
    exact hno.2

theorem Room.set {mmap : ReadMap} {ov : List SatVals} (h : Room mmap ov) {i : Nat} {e : SatVals} (he : ov[i]? = some e) {s : SatSys × Int}
    {w : List Rat} (hw : w.length = e.2.length) : Room mmap (ov.set i (s, w)) := by
  intro x hx m hm
  rcases List.mem_or_eq_of_mem_set hx with hx | rfl
  · exact h x hx m hm
  · simp only; rw [hw]
    exact h e (List.mem_of_getElem? he) m hm

theorem lookup_mem {α β : Type} [BEq α] [LawfulBEq α] {l : List (α × β)} {k : α} {v : β} (h : l.lookup k = some v) : (k, v) ∈ l := by
  induction l with
  | nil => simp at h
  | cons p l ih =>
    obtain ⟨a, b⟩ := p
    rw [List.lookup_cons] at h
    split at h
    · rename_i hk
      have : k = a := by simpa using hk
      simp at h; simp [this, h]
    · simp [ih h]

/-- The loop over the satellites of an epoch, for arbitrary bytes. -/
theorem collectLoop_any {mmap : ReadMap} {raw0 : RawRnxObs} : ∀ (n i : Nat) (ov : List SatVals) (buf : List Char) (s : Stream) (errno : Int),
    3 ≤ buf.length → Room mmap ov → i + n ≤ ov.length →
    ∃ r, collectLoop raw0 mmap n i ov buf s errno = .ok r ∧ (r.status = 0 ∨ r.status = 1) ∧ i ≤ r.sats ∧ r.sats ≤ i + n ∧
      r.satobs.length = ov.length ∧ Room mmap r.satobs ∧ r.buf.length = buf.length ∧ r.satobs.take i = ov.take i ∧
      r.satobs.drop (i + n) = ov.drop (i + n) ∧
      (r.status = 0 → ∀ j, i ≤ j → j < r.sats → ∃ e, r.satobs[j]? = some e ∧ e.1.1 ∈ mmap.map Prod.fst ∧ 1 ≤ e.1.2 ∧ e.1.2 ≤ 99) := by
  intro n
  induction n with
  | zero =>
    intro i ov buf s errno _ h _
    exact ⟨_, rfl, Or.inl rfl, le_refl _, le_refl _, rfl, h, rfl, rfl, rfl, fun _ j h1 h2 => absurd h2 (by simp; omega)⟩
  | succ n ih =>
    intro i ov buf s errno hb h hi
    have hbl : (fillLine buf (s.getline buf.length).1).length = buf.length := by
      have := getline_lenN s buf.length
      simp [fillLine]; omega
    have hnul := nul_fill buf (s.getline buf.length).1
    unfold collectLoop
    simp only
    generalize fillLine buf (s.getline buf.length).1 = buf' at *
    generalize (s.getline buf.length).2 = s' at *
    rw [getAt_lt (by omega), Res.bind_ok]
    split
    · rename_i sys _
      split
      · obtain ⟨r, h1, h2, h3, h4, h5, h6, h7, h8, h9, h10⟩ := ih i ov buf' s' errno (by omega) h (by omega)
        refine ⟨r, h1, h2, h3, by omega, h5, h6, by omega, h8, ?_, h10⟩
        rw [show i + (n + 1) = (i + n) + 1 by omega, ← List.drop_drop, h9, List.drop_drop]
      · rename_i sysobs hl
        have hlt : i < ov.length := by omega
        rw [List.getElem?_eq_getElem hlt]
        simp only
        have hroom := h ov[i] (List.getElem_mem hlt) _ (lookup_mem hl)
        obtain ⟨st, prn, w, e', g1, g2, g3⟩ := satEpochCollect_any (buf := buf') (by omega) hnul sysobs ov[i].2 hroom raw0 errno
        rw [g1, Res.bind_ok]
        simp only
        have he : ov[i]? = some ov[i] := List.getElem?_eq_getElem hlt
        split
        · refine ⟨_, rfl, Or.inr rfl, le_refl _, by simp, by simp, h.set he g2, hbl, List.take_set_of_le (le_refl _),
            List.drop_set_of_lt (by omega), fun h0 => absurd h0 (by simp)⟩
        · rename_i hst
          have hr' : Room mmap (ov.set i ((sys, prn), w)) := h.set he g2
          obtain ⟨r, h1, h2, h3, h4, h5, h6, h7, h8, h9, h10⟩ := ih (i + 1) (ov.set i ((sys, prn), w)) buf' s' e' (by omega) hr' (by simp; omega)
          refine ⟨r, h1, h2, by omega, by omega, by simpa using h5, h6, by omega, ?_, ?_, ?_⟩
          · have := congrArg (List.take i) h8
            rw [List.take_take, List.take_take, show min i (i + 1) = i by omega, List.take_set_of_le (le_refl _)] at this
            exact this
          · rw [show i + (n + 1) = i + 1 + n by omega, h9, List.drop_set_of_lt (by omega)]
          · intro h0 j hj1 hj2
            rcases Nat.lt_or_ge i j with hlt' | hge
            · exact h10 h0 j (by omega) hj2
            · have hij : j = i := by omega
              subst hij
              refine ⟨((sys, prn), w), ?_, ?_, g3 (by omega)⟩
              · have := congrArg (·[j]?) h8
                simp only [List.getElem?_take_of_lt (Nat.lt_succ_self j)] at this
                rw [this, List.getElem?_set_self hlt]
              · simp only [List.mem_map]
                exact ⟨_, lookup_mem hl, rfl⟩
    · exact ⟨_, rfl, Or.inr rfl, le_refl _, by simp, rfl, h, hbl, rfl, rfl, fun h0 => absurd h0 (by simp)⟩

/-- **C42** (reading the satellites of an epoch).  Whatever bytes the stream holds and whatever is
requested: as long as the epoch lists at most as many satellites as the vector has slots and every
slot has room for every system's observables, the call ends normally with status 0 or 1, at most
that many satellites are reported, the vector keeps its size and its room (so the next epoch can be
read into it), and slots beyond the listed satellites are not touched.  On success every reported
slot holds a satellite of a requested system with a number 1..99. -/
theorem C42_collect_epoch (raw0 : RawRnxObs) (mmap : ReadMap) (numsats : Int) (ov : List SatVals) (buf : List Char) (s : Stream) (errno : Int)
    (hb : 3 ≤ buf.length) (hroom : Room mmap ov) (hn : numsats ≤ ov.length) :
    ∃ r, collectEpoch raw0 mmap numsats ov buf s errno = .ok r ∧ (r.status = 0 ∨ r.status = 1) ∧ r.sats ≤ numsats.toNat ∧
      r.satobs.length = ov.length ∧ Room mmap r.satobs ∧ r.buf.length = buf.length ∧
      r.satobs.drop numsats.toNat = ov.drop numsats.toNat ∧
      (r.status = 0 → ∀ j < r.sats, ∃ e, r.satobs[j]? = some e ∧ e.1.1 ∈ mmap.map Prod.fst ∧ 1 ≤ e.1.2 ∧ e.1.2 ≤ 99) := by
  obtain ⟨r, h1, h2, h3, h4, h5, h6, h7, h8, h9, h10⟩ :=
    collectLoop_any (raw0 := raw0) numsats.toNat 0 ov buf s errno hb hroom (by omega)
  exact ⟨r, h1, h2, by omega, h5, h6, h7, by simpa using h9, fun h0 j hj => h10 h0 j (by omega) hj⟩

/-- **C42** (reading an epoch, arbitrary bytes).  If the header line can be processed (the parser does
not run off the buffer, C43) and does not list more satellites than there are slots, then
`read_next_epoch` ends normally and the vector keeps its size and room. -/
theorem C42_read_next_epoch (mjdOf : Int → Int → Int → Res Int) (raw0 : RawRnxObs) (mmap : ReadMap) (ov : List SatVals) (buf : List Char)
    (s : Stream) (errno : Int) (hb : 3 ≤ buf.length) (hroom : Room mmap ov)
    (hh : s.peek.1 ≠ none → ∃ x, resolveEpoch mjdOf (fillLine buf (s.peek.2.getline buf.length).1) errno = .ok x ∧
      ∀ h, x = .inr h → h.numSats ≤ ov.length) :
    ∃ r, readNextEpoch mjdOf raw0 mmap ov buf s errno = .ok r ∧ r.satobs.length = ov.length ∧ Room mmap r.satobs ∧
      r.buf.length = buf.length ∧ r.sats ≤ ov.length := by
  unfold readNextEpoch
  match hp : s.peek with
  | (none, s') =>
    simp only
    refine ⟨_, rfl, ?_⟩
    unfold epochEnd
    split <;> exact ⟨rfl, hroom, rfl, by simp⟩
  | (some c, s') =>
    rw [hp] at hh
    obtain ⟨x, hx, hns⟩ := hh (by simp)
    simp only at hx ⊢
    have hbl : (fillLine buf (s'.getline buf.length).1).length = buf.length := by
      have := getline_lenN s' buf.length
      simp [fillLine]; omega
    rw [hx, Res.bind_ok]
    cases x with
    | inl e => exact ⟨_, rfl, rfl, hroom, hbl, by simp⟩
    | inr h =>
      simp only
      obtain ⟨r, h1, h2, h3, h4, h5, h6, _⟩ := C42_collect_epoch raw0 mmap h.numSats ov (fillLine buf (s'.getline buf.length).1) (s'.getline buf.length).2 errno (by omega) hroom (hns h rfl)
      rw [h1, Res.bind_ok]
      have := hns h rfl
      split
      · exact ⟨_, rfl, h4, h5, by simp only; omega, by simp only; omega⟩
      · refine ⟨_, rfl, ?_⟩
        unfold epochEnd
        split <;> exact ⟨h4, h5, by simp only; omega, by simp only; omega⟩

/-- **C42**, the bound is needed: when all slots are used and the next satellite line is of a requested
system, the code writes behind the vector. -/
theorem C42_overflow (raw0 : RawRnxObs) (mmap : ReadMap) (n : Nat) (ov : List SatVals) (buf : List Char) (s : Stream) (errno : Int)
    {c : Char} {sys : SatSys} {sysobs : List IdPairs} (hc : (fillLine buf (s.getline buf.length).1)[0]? = some c)
    (hs : charToSatsys c = .ok sys) (hm : mmap.lookup sys = some sysobs) :
    collectLoop raw0 mmap (n + 1) ov.length ov buf s errno = .ub := by
  unfold collectLoop
  simp only [getAt, hc, Res.bind_ok, hs, hm]
  simp

theorem collectObs_over {l buf : List Char} (hl : NUL ∉ l) : ∀ (sysobs : List IdPairs) (xss : List (List (Option Rat × Rat))),
    List.Forall₂ (GotAll l) sysobs xss →
    ∀ (k : Nat) (vals : List Rat) (st : Int) (t : List Char) (o : RawRnxObs), IsTbuf t → k ≤ vals.length → vals.length < k + sysobs.length →
    collectObs (fillLine buf l) l.length sysobs k vals st t o 0 = .ub := by
  intro sysobs
  induction sysobs with
  | nil => intro xss h k vals st t o ht hk hk2; simp at hk2; omega
  | cons prs sysobs ih =>
    intro xss h k vals st t o ht hk hk2
    obtain ⟨xs, xss, hg, hr, rfl⟩ := List.forall₂_cons_left_iff.1 h
    obtain ⟨ds, h1, h2, h3⟩ := hg.split
    obtain ⟨t', o', e, ht'⟩ := collectParts_got (buf := buf) hl prs xs ds h1 h2 0 st t o ht
    unfold collectObs
    rw [e, Res.bind_ok]
    simp only [List.length_cons] at hk2
    simp only
    unfold valStore
    by_cases hlt : k < vals.length
    · rw [if_pos hlt, Res.bind_ok]
      exact ih xss hr (k + 1) _ _ t' o' ht' (by simp; omega) (by simp; omega)
    · rw [if_neg hlt]; rfl

theorem satEpochCollect_ub {raw0 : RawRnxObs} {buf l : List Char} {sysobs : List IdPairs} {vals : List Rat} {errno e' prn : Int} {c1 c2 : Char}
    {p : Option (Int × List Char × Bool)}
    (h1 : getAt buf 1 = .ok c1) (h2 : getAt buf 2 = .ok c2) (hp : strtolA (c1 :: c2 :: List.replicate 15 NUL) = .ok p)
    (he : (if strtolErr p then ERANGE else errno) = e') (hprn : toInt32 (strtolVal p) = prn)
    (hno : ¬ ((e' ≠ 0 ∨ p = none) ∨ prn < 1 ∨ prn > 99)) (hc : cstrOf buf = .ok l)
    (hr : collectObs buf l.length sysobs 0 vals 0 (c1 :: c2 :: List.replicate 15 NUL) raw0 e' = .ub) :
    satEpochCollect raw0 buf sysobs vals errno = .ub := by
  unfold satEpochCollect
  simp only [h1, h2, Res.bind_ok, hp, he, hprn]
  rw [if_neg hno, hc, Res.bind_ok, hr]
  rfl

/-- **C42**, the size of the slots is needed: with a slot shorter than the number of observables
requested for the satellite's system, the code writes behind it. -/
theorem C42_slot_overflow {l : List Char} {prn : Nat} (hl : NUL ∉ l) (hp : NatAt ((l.drop 1).take 2) 0 prn) (h1 : 1 ≤ prn)
    (h99 : prn ≤ 99) (hl3 : 3 ≤ l.length) {sysobs : List IdPairs} {xss : List (List (Option Rat × Rat))}
    (hx : List.Forall₂ (GotAll l) sysobs xss) (vals : List Rat) (hv : vals.length < sysobs.length) (buf : List Char) (raw0 : RawRnxObs) :
    satEpochCollect raw0 (fillLine buf l) sysobs vals 0 = .ub := by
  match l, hl3 with
  | a :: b :: c :: l', _ =>
    simp only [List.drop_succ_cons, List.drop_zero, List.take_succ_cons, List.take_zero] at hp
    obtain ⟨r, hr⟩ := strtol_nat (tail := List.replicate 14 NUL) hp
    have e := collectObs_over (buf := buf) hl sysobs xss hx 0 vals 0 (b :: c :: List.replicate 15 NUL) raw0
      ⟨by simp, by simp⟩ (by omega) (by omega)
    have hr' : strtolA (b :: c :: List.replicate 15 NUL) = .ok (some ((prn : Int), r, false)) := hr
    exact satEpochCollect_ub (getAt_fill (l := a :: b :: c :: l') (i := 1) rfl) (getAt_fill (l := a :: b :: c :: l') (i := 2) rfl) hr'
      (errno := 0) (e' := 0) (prn := prn) rfl (toInt32_nat (by omega)) (by simp; omega) (cstrOf_fill hl) e

end Ggnss
