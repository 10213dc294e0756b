import Verif.Spec.NavCursor
import Verif.Props.NavFindValid
/-! # A navigation reader is a cursor over the records of its file (C114) -/
namespace Ggnss

/-! ## The payload keeps its size -/


theorem orbitLines_len (sys : SatSys) (errno : Int) : ∀ (n ln : Nat) (buf : List Char) (f : NavFrame) (s : Stream) (x), orbitLines sys errno n ln buf f s = .ok x →
    x.2.2.1.data.length = f.data.length := by
  intro n
  induction n with
  | zero => intro ln buf f s x h; rw [orbitLines] at h; cases h; rfl
  | succ n ih =>
    intro ln buf f s x h
    rw [orbitLines] at h
    simp only at h
    split at h
    · cases h; rfl
    · obtain ⟨b, h1, h⟩ := Res.bind_eq_ok.1 h
      obtain ⟨r, h2, h⟩ := Res.bind_eq_ok.1 h
      obtain ⟨d, h3, h⟩ := Res.bind_eq_ok.1 h
      have := storeAt_get h3
      split at h
      · rw [ih _ _ _ _ _ h]; exact this.1
      · cases h; exact this.1

theorem readBlock_len {dateOf : List Char → Res DateTime} {junk : List Char} {f : NavFrame} {s : Stream} {errno : Int} {o : NavOut} (h : readBlock dateOf junk f s errno = .ok o) :
    o.frame.data.length = f.data.length := by
  unfold readBlock at h
  simp only at h
  split at h
  · cases h; rfl
  obtain ⟨_, h1, h⟩ := Res.bind_eq_ok.1 h
  obtain ⟨_, h2, h⟩ := Res.bind_eq_ok.1 h
  obtain ⟨_, h3, h⟩ := Res.bind_eq_ok.1 h
  obtain ⟨_, h4, h⟩ := Res.bind_eq_ok.1 h
  obtain ⟨p, h5, h⟩ := Res.bind_eq_ok.1 h
  generalize (if strtolErr p = true then ERANGE else errno) = errno2 at h
  split at h
  · cases h; rfl
  obtain ⟨_, h6, h⟩ := Res.bind_eq_ok.1 h
  obtain ⟨_, h7, h⟩ := Res.bind_eq_ok.1 h
  obtain ⟨d, h8, h⟩ := Res.bind_eq_ok.1 h
  have e1 := (storeAt_get h8).1
  split at h
  · cases h; exact e1
  split at h
  · cases h; exact e1
  obtain ⟨x, h9, h⟩ := Res.bind_eq_ok.1 h
  have e2 := orbitLines_len _ _ _ _ _ _ _ _ h9
  simp only at e2
  split at h
  · cases h; rw [← e1]; exact e2
  · cases h; rw [← e1]; exact e2
  · split at h
    · cases h; rw [← e1]; exact e2
    obtain ⟨_, k1, h⟩ := Res.bind_eq_ok.1 h
    obtain ⟨_, k2, h⟩ := Res.bind_eq_ok.1 h
    obtain ⟨d', k3, h⟩ := Res.bind_eq_ok.1 h
    have e3 := (storeAt_get k3).1
    split at h
    · cases h; rw [← e1, ← e2]; exact e3
    · cases h
      simp only
      split
      · unfold gloScale; rw [List.length_mapIdx, e3, e2, e1]
      · rw [e3, e2, e1]

theorem readNextRecord_len {dateOf : List Char → Res DateTime} {junk : List Char} {f : NavFrame} {s : Stream} {errno : Int} {o : NavOut}
    (h : readNextRecord dateOf junk f s errno = .ok o) : o.frame.data.length = f.data.length := by
  unfold readNextRecord at h
  split at h
  · unfold setFromRnx3 at h
    rw [Res.noexcept_eq_ok] at h
    obtain ⟨o', h1, h⟩ := Res.bind_eq_ok.1 h
    have := readBlock_len h1
    split at h
    · cases h; exact this
    split at h
    · obtain ⟨_, _, h⟩ := Res.bind_eq_ok.1 h
      cases h; exact this
    · cases h; exact this
  · split at h <;> · cases h; rfl

theorem findLoop_len {dateOf : List Char → Res DateTime} {junk : Nat → List Char} {accept : NavFrame → Res (Option Int)} {sys : SatSys} :
    ∀ (fuel : Nat) (f : NavFrame) (s : Stream) (errno : Int) (o : NavOut), findLoop dateOf junk accept sys fuel f s errno = .ok o → o.frame.data.length = f.data.length := by
  intro fuel
  induction fuel with
  | zero => intro f s errno o h; rw [findLoop] at h; cases h
  | succ n ih =>
    intro f s errno o h
    rw [findLoop] at h
    simp only at h
    split at h
    · cases h; rfl
    split at h
    · obtain ⟨x, h1, h⟩ := Res.bind_eq_ok.1 h
      have e := readNextRecord_len h1
      split at h
      · cases h; exact e
      obtain ⟨y, h2, h⟩ := Res.bind_eq_ok.1 h
      cases y with
      | some st => cases h; exact e
      | none => rw [ih _ _ _ _ h]; exact e
    · split at h
      · cases h; rfl
      · exact ih _ _ _ _ h

/-! ## Positions -/

/-- Chars of the first `k` records. -/
def upTo (bs : List NavBlock) (k : Nat) : Nat := (linesText (blockLines (bs.take k))).length

def AtPos (bs : List NavBlock) (s0 : Stream) : Option Nat → Stream → Prop
  | some k, s => k ≤ bs.length ∧ s = s0.adv (upTo bs k)
  | none, s => ∃ x, s = s0.adv x

theorem AtPos.adv {bs : List NavBlock} {s0 s : Stream} : ∀ {p : Option Nat}, AtPos bs s0 p s → ∃ x, s = s0.adv x
  | some _, h => ⟨_, h.2⟩
  | none, h => h

theorem blockLines_append (a b : List NavBlock) : blockLines (a ++ b) = blockLines a ++ blockLines b := by simp [blockLines]

theorem upTo_add (bs : List NavBlock) (k i : Nat) : upTo bs (k + i) = upTo bs k + (linesText (blockLines ((bs.drop k).take i))).length := by
  unfold upTo
  rw [List.take_add, blockLines_append, linesText_append, List.length_append]

theorem upTo_succ {bs : List NavBlock} {j : Nat} {b : NavBlock} (h : bs[j]? = some b) : upTo bs (j + 1) = upTo bs j + (linesText b.2).length := by
  unfold upTo
  rw [List.take_add_one, h, blockLines_append, linesText_append, List.length_append]
  simp [blockLines]

theorem upTo_all (bs : List NavBlock) : upTo bs bs.length = (linesText (blockLines bs)).length := by unfold upTo; rw [List.take_length]

theorem at_rest {bs : List NavBlock} {s0 : Stream} (hr : s0.rest = linesText (blockLines bs)) (k : Nat) : (s0.adv (upTo bs k)).rest = linesText (blockLines (bs.drop k)) := by
  refine Stream.adv_rest_append ?_
  rw [hr, ← linesText_append, ← blockLines_append, List.take_append_drop]

theorem behind_at {bs : List NavBlock} {s0 : Stream} {j m : Nat} {b : NavBlock} (h : bs[j]? = some b) : AtPos bs s0 (behind bs j m) (s0.adv (upTo bs j + (linesText (b.2.take m)).length)) := by
  unfold behind
  rw [h]
  simp only
  split
  · rename_i hm
    refine ⟨by have := (List.getElem?_eq_some_iff.1 h).1; omega, ?_⟩
    rw [upTo_succ h, hm, List.take_length]
  · exact ⟨_, rfl⟩

/-! ## One call -/

/-- A call has been answered. -/
def CallDone (dateOf : List Char → Res DateTime) (bs : List NavBlock) (s0 : Stream) (r : Res (NavSeen × Stream × Int)) (q : Option Nat) : CallAnswer → Prop
  | .undefined => r = .ub
  | .killed => r = .terminate
  | a => ∃ x s', r = .ok (x, s', 0) ∧ AnswerSeen dateOf a (.ok x) ∧ x.frame.data.length = 31 ∧ AtPos bs s0 q s'

theorem SearchFate.sys_found {valid : List Char → Prop} {sys : SatSys} {prn : Int} {bs : List NavBlock} {i : Nat} {w : SearchWhat} (h : SearchFate valid sys prn bs i w) :
    w = .found → ∃ b, bs[i]? = some b ∧ b.1 = sys := by
  induction h with
  | other _ _ ih => exact fun hw => by simpa using ih hw
  | pass _ _ _ _ _ _ ih => exact fun hw => by simpa using ih hw
  | @found b bs _ hb => exact fun _ => ⟨b, rfl, hb⟩
  | _ => intro hw; cases hw

theorem ValidFate.sys_found {dateOf : List Char → Res DateTime} {sys : SatSys} {prn t : Int} {bs : List NavBlock} {i : Nat} {w : SearchWhat} (h : ValidFate dateOf sys prn t bs i w) :
    w = .found → ∃ b, bs[i]? = some b ∧ b.1 = sys := by
  induction h with
  | other _ _ ih => exact fun hw => by simpa using ih hw
  | pass _ _ _ _ _ ih => exact fun hw => by simpa using ih hw
  | useless _ _ _ _ ih => exact fun hw => by simpa using ih hw
  | @found b bs hb => exact fun _ => ⟨b, rfl, hb⟩
  | _ => intro hw; cases hw

theorem search_done {dateOf : List Char → Res DateTime} {bs : List NavBlock} {s0 : Stream} {k i : Nat} {sys : SatSys} {w : SearchWhat} {r : Res (Option Nat × NavOut)} (hk : k ≤ bs.length)
    (hd : SearchDelivers dateOf sys (bs.drop k) (s0.adv (upTo bs k)) i r w) (hs : w = .found → ∃ b, (bs.drop k)[i]? = some b ∧ b.1 = sys)
    (hl : ∀ o, r = .ok o → o.2.frame.data.length = 31) :
    ∃ a q, SearchGives bs k i w a q ∧ CallDone dateOf bs s0 (do let o ← r; pure (⟨o.2.status, .mixed, o.2.frame⟩, o.2.strm, o.2.errno)) q a := by
  cases w with
  | found =>
    obtain ⟨b0, k0, hsys⟩ := hs rfl
    obtain ⟨f', g, b, k1, k2, rfl⟩ := hd
    obtain rfl : b0 = b := by rw [k0] at k1; exact Option.some.inj k1
    rw [List.getElem?_drop] at k1
    have hlt := (List.getElem?_eq_some_iff.1 k1).1
    refine ⟨_, _, .found b0 k1, _, _, rfl, ⟨_, g, rfl, rfl, by rw [hsys]; exact k2⟩, hl _ rfl, by omega, ?_⟩
    rw [Nat.add_assoc, upTo_add, ← Stream.adv_adv]
    rfl
  | late =>
    obtain ⟨f', g, b, k1, k2, rfl⟩ := hd
    rw [List.getElem?_drop] at k1
    have hlt := (List.getElem?_eq_some_iff.1 k1).1
    refine ⟨_, _, .late, _, _, rfl, ⟨_, rfl, rfl⟩, hl _ rfl, by omega, ?_⟩
    rw [Nat.add_assoc, upTo_add, ← Stream.adv_adv]
    rfl
  | ended =>
    obtain ⟨k0, f', rfl⟩ := hd
    refine ⟨_, _, .ended, _, _, rfl, ⟨_, rfl, rfl⟩, hl _ rfl, Nat.le_refl _, ?_⟩
    have : bs.length = k + (bs.drop k).length := by rw [List.length_drop]; omega
    rw [this, upTo_add, List.take_length, ← Stream.adv_adv]
    rfl
  | refused st m =>
    obtain ⟨f', b, k1, rfl⟩ := hd
    rw [List.getElem?_drop] at k1
    refine ⟨_, _, .refused st m, _, _, rfl, ⟨_, rfl, rfl⟩, hl _ rfl, ?_⟩
    have := behind_at (s0 := s0) (m := m) k1
    rw [upTo_add, Nat.add_assoc, ← List.length_append, ← linesText_append, ← Stream.adv_adv] at this
    exact this
  | undefined =>
    have : r = .ub := hd
    subst this
    exact ⟨_, _, .undefined, rfl⟩
  | killed =>
    have : r = .terminate := hd
    subst this
    exact ⟨_, _, .killed, rfl⟩

theorem call_done {dateOf : List Char → Res DateTime} (hL : ∀ t, (∃ d, dateOf t = .ok d) ∨ ∃ e, dateOf t = .throw e) (junk : Nat → List Char) {bs : List NavBlock} {fuel : Nat}
    (hfuel : bs.length < fuel) (hB : ∀ b ∈ bs, IsBlock b.1 b.2) (hC : ∀ b ∈ bs, ReachesColumns b.1 b.2 ∧ PlainRecord b.1 b.2) {s0 : Stream} (hg : s0.good = true)
    (hr : s0.rest = linesText (blockLines bs)) {f : NavFrame} (hlen : f.data.length = 31) {s : Stream} {p : Option Nat} (hp : AtPos bs s0 p s) {c : NavCall}
    (hc : p = none → c = .rewind) :
    ∃ a q, CallGives dateOf bs p c a q ∧ CallDone dateOf bs s0 (navCall dateOf junk fuel s0.pos f s 0 c) q a := by
  cases c with
  | rewind =>
    obtain ⟨x, rfl⟩ := hp.adv
    refine ⟨_, _, .rewind p, _, _, rfl, ⟨_, rfl, rfl⟩, hlen, Nat.zero_le _, ?_⟩
    have : navRewind s0.pos (s0.adv x) none = s0 := rewind_adv 0 s0 x hg
    rw [this]
    simp [upTo, blockLines, linesText]
  | read =>
    cases p with
    | none => cases hc rfl
    | some k =>
      obtain ⟨hk, rfl⟩ := hp
      have hrk := at_rest hr k
      have hgk : (s0.adv (upTo bs k)).good = true := hg
      cases hb : bs[k]? with
      | none =>
        obtain rfl : k = bs.length := by have := List.getElem?_eq_none_iff.1 hb; omega
        refine ⟨_, _, .readEnd, ⟨-1, .mixed, f⟩, _, ?_, ⟨_, rfl, rfl⟩, hlen, hk, rfl⟩
        unfold navCall
        rw [C55_read_eof dateOf _ f _ 0 hgk (by rw [hrk]; simp [blockLines, linesText])]
        rfl
      | some b =>
        have hm := List.mem_of_getElem? hb
        have hlt := (List.getElem?_eq_some_iff.1 hb).1
        have hr' : (s0.adv (upTo bs k)).rest = linesText b.2 ++ linesText (blockLines (bs.drop (k + 1))) := by
          rw [hrk, List.drop_eq_getElem_cons hlt, (List.getElem?_eq_some_iff.1 hb).2, ← linesText_append]
          simp [blockLines]
        obtain ⟨x, hx, hd⟩ := record_kind hL (junk (s0.adv (upTo bs k)).pos) (hB b hm) (hC b hm).1 (hC b hm).2 hlen hgk hr'
        have hl := fun o h => readNextRecord_len (dateOf := dateOf) (junk := junk (s0.adv (upTo bs k)).pos) (f := f) (s := s0.adv (upTo bs k)) (errno := 0) (o := o) h
        unfold navCall
        cases x with
        | good n =>
          obtain ⟨f', e1, hs, hpr⟩ := hd
          have := hl _ e1
          refine ⟨_, _, .readGood k b n hb hx, ⟨0, .mixed, f'⟩, _, ?_, ⟨_, f, rfl, rfl, hs⟩, by rw [← hlen]; exact this, by omega, rfl⟩
          simp only [e1, Res.bind_ok]
          rw [upTo_succ hb, ← Stream.adv_adv]
          rfl
        | bad st m =>
          obtain ⟨f', e1, hst⟩ := hd
          have := hl _ e1
          refine ⟨_, _, .readBad k b st m hb hx, ⟨st, .mixed, f'⟩, _, ?_, ⟨_, rfl, rfl⟩, by rw [← hlen]; exact this, behind_at hb⟩
          simp only [e1, Res.bind_ok]
          rw [← Stream.adv_adv]
          rfl
        | undefined =>
          have e1 : readNextRecord dateOf (junk (s0.adv (upTo bs k)).pos) f (s0.adv (upTo bs k)) 0 = .ub := hd
          refine ⟨_, _, .readUndefined k b hb hx, ?_⟩
          simp only [e1]
          rfl
        | killed =>
          have e1 : readNextRecord dateOf (junk (s0.adv (upTo bs k)).pos) f (s0.adv (upTo bs k)) 0 = .terminate := hd
          refine ⟨_, _, .readKilled k b hb hx, ?_⟩
          simp only [e1]
          rfl
  | skip =>
    cases p with
    | none => cases hc rfl
    | some k =>
      obtain ⟨hk, rfl⟩ := hp
      have hrk := at_rest hr k
      have hgk : (s0.adv (upTo bs k)).good = true := hg
      cases hb : bs[k]? with
      | none =>
        obtain rfl : k = bs.length := by have := List.getElem?_eq_none_iff.1 hb; omega
        have e := C55_skip_eof (s0.adv (upTo bs bs.length)) hgk (by rw [hrk]; simp [blockLines, linesText])
        unfold navCall
        simp only [e]
        exact ⟨_, _, .skipEnd, _, _, rfl, ⟨_, rfl, rfl⟩, hlen, hk, rfl⟩
      | some b =>
        have hm := List.mem_of_getElem? hb
        have hlt := (List.getElem?_eq_some_iff.1 hb).1
        have hr' : (s0.adv (upTo bs k)).rest = linesText b.2 ++ linesText (blockLines (bs.drop (k + 1))) := by
          rw [hrk, List.drop_eq_getElem_cons hlt, (List.getElem?_eq_some_iff.1 hb).2, ← linesText_append]
          simp [blockLines]
        have e := ignore_block (hB b hm) hgk hr'
        unfold navCall
        simp only [e]
        refine ⟨_, _, .skip k hlt, _, _, rfl, ⟨_, rfl, rfl⟩, hlen, by omega, ?_⟩
        rw [upTo_succ hb, ← Stream.adv_adv]
  | peek =>
    cases p with
    | none => cases hc rfl
    | some k =>
      obtain ⟨hk, rfl⟩ := hp
      have hrk := at_rest hr k
      have hgk : (s0.adv (upTo bs k)).good = true := hg
      cases hb : bs[k]? with
      | none =>
        obtain rfl : k = bs.length := by have := List.getElem?_eq_none_iff.1 hb; omega
        have e := (C55_peek (s0.adv (upTo bs bs.length)) hgk).1 (by rw [hrk]; simp [blockLines, linesText])
        unfold navCall
        simp only [e]
        exact ⟨_, _, .peekEnd, _, _, rfl, ⟨_, rfl, rfl⟩, hlen, hk, rfl⟩
      | some b =>
        have hm := List.mem_of_getElem? hb
        have hlt := (List.getElem?_eq_some_iff.1 hb).1
        have hr' : (s0.adv (upTo bs k)).rest = linesText b.2 ++ linesText (blockLines (bs.drop (k + 1))) := by
          rw [hrk, List.drop_eq_getElem_cons hlt, (List.getElem?_eq_some_iff.1 hb).2, ← linesText_append]
          simp [blockLines]
        have e := peakSatsys_block (hB b hm) hgk hr'
        unfold navCall
        simp only [e]
        exact ⟨_, _, .peek k b hb, _, _, rfl, ⟨_, rfl, rfl, rfl⟩, hlen, hk, rfl⟩
  | find sys prn =>
    cases p with
    | none => cases hc rfl
    | some k =>
      obtain ⟨hk, rfl⟩ := hp
      have hsub : ∀ b ∈ bs.drop k, b ∈ bs := fun b => List.mem_of_mem_drop
      obtain ⟨i, w, h1, h2⟩ := C112_total hL junk (sys := sys) (prn := prn) (fuel := fuel) (bs := bs.drop k) (s := s0.adv (upTo bs k)) (by rw [List.length_drop]; omega)
        (fun b hb => hB b (hsub b hb)) (fun b hb hs => by rw [← hs]; exact hC b (hsub b hb)) hlen hg (at_rest hr k)
      obtain ⟨a, q, g1, g2⟩ := search_done hk h2 h1.sys_found (fun o ho => by
        unfold findNext at ho
        obtain ⟨x, k1, k2⟩ := Res.bind_eq_ok.1 ho
        cases k2
        rw [← hlen]
        exact findLoop_len _ _ _ _ _ k1)
      exact ⟨a, q, .find k sys prn i w a q h1 g1, g2⟩
  | findValid t sys prn =>
    cases p with
    | none => cases hc rfl
    | some k =>
      obtain ⟨hk, rfl⟩ := hp
      have hsub : ∀ b ∈ bs.drop k, b ∈ bs := fun b => List.mem_of_mem_drop
      obtain ⟨i, w, h1, h2⟩ := C113_total hL junk (sys := sys) (prn := prn) (t := t) (fuel := fuel) (bs := bs.drop k) (s := s0.adv (upTo bs k)) (by rw [List.length_drop]; omega)
        (fun b hb => hB b (hsub b hb)) (fun b hb hs => by rw [← hs]; exact hC b (hsub b hb)) hlen hg (at_rest hr k)
      obtain ⟨a, q, g1, g2⟩ := search_done hk h2 h1.sys_found (fun o ho => by
        unfold findNextValid at ho
        rw [Res.noexcept_eq_ok] at ho
        obtain ⟨x, k1, k2⟩ := Res.bind_eq_ok.1 ho
        cases k2
        rw [← hlen]
        exact findLoop_len _ _ _ _ _ k1)
      exact ⟨a, q, .findValid k t sys prn i w a q h1 g1, g2⟩

/-! ## There is no choice -/

theorem SearchGives.unique {bs : List NavBlock} {k i : Nat} {w : SearchWhat} {a b : CallAnswer} {p q : Option Nat} (h1 : SearchGives bs k i w a p) (h2 : SearchGives bs k i w b q) :
    a = b ∧ p = q := by
  cases h1 <;> cases h2
  case found.found b hb c hc => rw [hb] at hc; cases hc; exact ⟨rfl, rfl⟩
  all_goals exact ⟨rfl, rfl⟩

theorem CallGives.unique {dateOf : List Char → Res DateTime} {bs : List NavBlock} (hC : ∀ b ∈ bs, PlainRecord b.1 b.2) {p q r : Option Nat} {c : NavCall} {a b : CallAnswer}
    (h1 : CallGives dateOf bs p c a q) (h2 : CallGives dateOf bs p c b r) : a = b ∧ q = r := by
  have out : ∀ {b : NavBlock}, bs[bs.length]? = some b → False := fun h => absurd (List.getElem?_eq_some_iff.1 h).1 (Nat.lt_irrefl _)
  have key : ∀ {k : Nat} {b c : NavBlock} {x y : BlockKind}, bs[k]? = some b → bs[k]? = some c → BlockIs b.1 b.2 (fun q => ∃ d, dateOf q = .ok d) x →
      BlockIs c.1 c.2 (fun q => ∃ d, dateOf q = .ok d) y → b = c ∧ x = y := by
    intro k b c x y e1 e2 hx hy
    rw [e1] at e2
    cases e2
    exact ⟨rfl, hx.unique (hC b (List.mem_of_getElem? e1)) hy⟩
  have sub : ∀ {k : Nat} {sys : SatSys}, ∀ b ∈ bs.drop k, b.1 = sys → PlainRecord sys b.2 := fun {k sys} b hb hs => by rw [← hs]; exact hC b (List.mem_of_mem_drop hb)
  cases h1 with
  | readEnd => cases h2 <;> first | exact ⟨rfl, rfl⟩ | (rename_i h1; exact (out h1).elim)
  | readGood k b n e1 x1 =>
    cases h2 with
    | readEnd => exact (out e1).elim
    | readGood _ c m e2 x2 => obtain ⟨rfl, _⟩ := key e1 e2 x1 x2; exact ⟨rfl, rfl⟩
    | readBad _ c st m e2 x2 => cases (key e1 e2 x1 x2).2
    | readUndefined _ c e2 x2 => cases (key e1 e2 x1 x2).2
    | readKilled _ c e2 x2 => cases (key e1 e2 x1 x2).2
  | readBad k b st n e1 x1 =>
    cases h2 with
    | readEnd => exact (out e1).elim
    | readGood _ c m e2 x2 => cases (key e1 e2 x1 x2).2
    | readBad _ c st m e2 x2 => cases (key e1 e2 x1 x2).2; exact ⟨rfl, rfl⟩
    | readUndefined _ c e2 x2 => cases (key e1 e2 x1 x2).2
    | readKilled _ c e2 x2 => cases (key e1 e2 x1 x2).2
  | readUndefined k b e1 x1 =>
    cases h2 with
    | readEnd => exact (out e1).elim
    | readGood _ c m e2 x2 => cases (key e1 e2 x1 x2).2
    | readBad _ c st m e2 x2 => cases (key e1 e2 x1 x2).2
    | readUndefined _ c e2 x2 => exact ⟨rfl, rfl⟩
    | readKilled _ c e2 x2 => cases (key e1 e2 x1 x2).2
  | readKilled k b e1 x1 =>
    cases h2 with
    | readEnd => exact (out e1).elim
    | readGood _ c m e2 x2 => cases (key e1 e2 x1 x2).2
    | readBad _ c st m e2 x2 => cases (key e1 e2 x1 x2).2
    | readUndefined _ c e2 x2 => cases (key e1 e2 x1 x2).2
    | readKilled _ c e2 x2 => exact ⟨rfl, rfl⟩
  | skipEnd =>
    cases h2 with
    | skipEnd => exact ⟨rfl, rfl⟩
    | skip _ h => exact absurd h (Nat.lt_irrefl _)
  | skip k h =>
    cases h2 with
    | skipEnd => exact absurd h (Nat.lt_irrefl _)
    | skip _ _ => exact ⟨rfl, rfl⟩
  | peekEnd =>
    cases h2 with
    | peekEnd => exact ⟨rfl, rfl⟩
    | peek _ b h => exact (out h).elim
  | peek k b e1 =>
    cases h2 with
    | peekEnd => exact (out e1).elim
    | peek _ c e2 => rw [e1] at e2; cases e2; exact ⟨rfl, rfl⟩
  | find k sys prn i w a p s1 g1 =>
    cases h2 with
    | find _ _ _ j v b q s2 g2 =>
      obtain ⟨rfl, rfl⟩ := C112_determined sub s1 s2
      exact g1.unique g2
  | findValid k t sys prn i w a p s1 g1 =>
    cases h2 with
    | findValid _ _ _ _ j v b q s2 g2 =>
      obtain ⟨rfl, rfl⟩ := C113_determined sub s1 s2
      exact g1.unique g2
  | rewind p => cases h2; exact ⟨rfl, rfl⟩

/-- **C114** (no choice).  The answers of a series of calls are determined by the records. -/
theorem C114_determined {dateOf : List Char → Res DateTime} {bs : List NavBlock} (hC : ∀ b ∈ bs, PlainRecord b.1 b.2) {p : Option Nat} {calls : List NavCall} {as cs : List CallAnswer}
    (h1 : CursorRun dateOf bs p calls as) (h2 : CursorRun dateOf bs p calls cs) : as = cs := by
  have no : ∀ {c a q}, CallGives dateOf bs none c a q → c = .rewind := fun h => by cases h; rfl
  induction h1 generalizing cs with
  | done p => cases h2; rfl
  | within c l hc =>
    cases h2 with
    | within => rfl
    | step _ _ _ _ _ _ g => exact absurd (no g) hc
    | last _ _ _ _ _ g => exact absurd (no g) hc
  | step p c a q l as g1 r1 _ ih =>
    cases h2 with
    | within _ _ hc => exact absurd (no g1) hc
    | step _ _ b q' _ bs' g2 r2 h =>
      obtain ⟨rfl, rfl⟩ := g1.unique hC g2
      rw [ih h]
    | last _ _ b q' _ g2 r2 =>
      obtain ⟨rfl, rfl⟩ := g1.unique hC g2
      exact absurd r1 r2
  | last p c a q l g1 r1 =>
    cases h2 with
    | within _ _ hc => exact absurd (no g1) hc
    | step _ _ b q' _ bs' g2 r2 h =>
      obtain ⟨rfl, rfl⟩ := g1.unique hC g2
      exact absurd r2 r1
    | last _ _ b q' _ g2 r2 =>
      obtain ⟨rfl, rfl⟩ := g1.unique hC g2
      rfl

/-! ## A series of calls -/

theorem calls_done {dateOf : List Char → Res DateTime} (hL : ∀ t, (∃ d, dateOf t = .ok d) ∨ ∃ e, dateOf t = .throw e) (junk : Nat → List Char) {bs : List NavBlock} {fuel : Nat}
    (hfuel : bs.length < fuel) (hB : ∀ b ∈ bs, IsBlock b.1 b.2) (hC : ∀ b ∈ bs, ReachesColumns b.1 b.2 ∧ PlainRecord b.1 b.2) {s0 : Stream} (hg : s0.good = true)
    (hr : s0.rest = linesText (blockLines bs)) :
    ∀ (calls : List NavCall) (f : NavFrame) (s : Stream) (p : Option Nat), f.data.length = 31 → AtPos bs s0 p s →
      ∃ as : List CallAnswer, CursorRun dateOf bs p calls as ∧ ∀ (i : Nat) (a : CallAnswer), as[i]? = some a → ∃ r, (navCalls dateOf junk fuel s0.pos calls f s 0)[i]? = some r ∧ AnswerSeen dateOf a r := by
  intro calls
  induction calls with
  | nil => intro f s p _ _; exact ⟨[], .done p, by simp⟩
  | cons c cs ih =>
    intro f s p hlen hp
    by_cases hc : p = none ∧ c ≠ .rewind
    · obtain ⟨rfl, hc⟩ := hc
      exact ⟨[], .within c cs hc, by simp⟩
    · have hc : p = none → c = .rewind := fun h => by_contra fun h' => hc ⟨h, h'⟩
      obtain ⟨a, q, g, d⟩ := call_done hL junk hfuel hB hC hg hr hlen hp hc
      have ret : a.Returns → (∃ x s', navCall dateOf junk fuel s0.pos f s 0 c = .ok (x, s', 0) ∧ AnswerSeen dateOf a (.ok x) ∧ x.frame.data.length = 31 ∧ AtPos bs s0 q s') →
          ∃ as : List CallAnswer, CursorRun dateOf bs p (c :: cs) as ∧ ∀ (i : Nat) (a : CallAnswer), as[i]? = some a → ∃ r, (navCalls dateOf junk fuel s0.pos (c :: cs) f s 0)[i]? = some r ∧ AnswerSeen dateOf a r := by
        rintro hret ⟨x, s', e, hseen, hl, hat⟩
        obtain ⟨as, h1, h2⟩ := ih x.frame s' q hl hat
        refine ⟨a :: as, .step p c a q cs as g hret h1, ?_⟩
        rw [navCalls, e]
        intro i b hb
        cases i with
        | zero => cases hb; exact ⟨_, rfl, hseen⟩
        | succ i => exact h2 i b (by simpa using hb)
      cases a with
      | status st => exact ret trivial d
      | record b => exact ret trivial d
      | system sys => exact ret trivial d
      | undefined =>
        have d : navCall dateOf junk fuel s0.pos f s 0 c = .ub := d
        refine ⟨[.undefined], .last p c _ q cs g id, ?_⟩
        rw [navCalls, d]
        intro i b hb
        cases i with
        | zero => cases hb; exact ⟨_, rfl, rfl⟩
        | succ i => simp at hb
      | killed =>
        have d : navCall dateOf junk fuel s0.pos f s 0 c = .terminate := d
        refine ⟨[.killed], .last p c _ q cs g id, ?_⟩
        rw [navCalls, d]
        intro i b hb
        cases i with
        | zero => cases hb; exact ⟨_, rfl, rfl⟩
        | succ i => simp at hb

/-- **C114** (every series).  Every series of calls on a reader that stands behind the header has answers that are those of the cursor. -/
theorem C114_total {dateOf : List Char → Res DateTime} (hL : ∀ t, (∃ d, dateOf t = .ok d) ∨ ∃ e, dateOf t = .throw e) (junk : Nat → List Char) {bs : List NavBlock} {fuel : Nat}
    (hfuel : bs.length < fuel) (hB : ∀ b ∈ bs, IsBlock b.1 b.2) (hC : ∀ b ∈ bs, ReachesColumns b.1 b.2 ∧ PlainRecord b.1 b.2) {s : Stream} (hg : s.good = true)
    (hr : s.rest = linesText (blockLines bs)) (calls : List NavCall) {f : NavFrame} (hlen : f.data.length = 31) :
    ∃ as : List CallAnswer, CursorRun dateOf bs (some 0) calls as ∧ ∀ (i : Nat) (a : CallAnswer), as[i]? = some a → ∃ r, (navCalls dateOf junk fuel s.pos calls f s 0)[i]? = some r ∧ AnswerSeen dateOf a r :=
  calls_done hL junk hfuel hB hC hg hr calls f s (some 0) hlen ⟨Nat.zero_le _, by simp [upTo, blockLines, linesText]⟩

/-- **C114**.  Whatever series of calls is made on a reader that stands behind the header, and whatever is in the lines of the records: the answers are those of a
cursor over the records. -/
theorem C114_cursor {dateOf : List Char → Res DateTime} (hL : ∀ t, (∃ d, dateOf t = .ok d) ∨ ∃ e, dateOf t = .throw e) (junk : Nat → List Char) {bs : List NavBlock} {fuel : Nat}
    (hfuel : bs.length < fuel) (hB : ∀ b ∈ bs, IsBlock b.1 b.2) (hC : ∀ b ∈ bs, ReachesColumns b.1 b.2 ∧ PlainRecord b.1 b.2) {s : Stream} (hg : s.good = true)
    (hr : s.rest = linesText (blockLines bs)) {calls : List NavCall} {as : List CallAnswer} (hrun : CursorRun dateOf bs (some 0) calls as) {f : NavFrame} (hlen : f.data.length = 31) :
    ∀ (i : Nat) (a : CallAnswer), as[i]? = some a → ∃ r, (navCalls dateOf junk fuel s.pos calls f s 0)[i]? = some r ∧ AnswerSeen dateOf a r := by
  obtain ⟨cs, h1, h2⟩ := C114_total hL junk hfuel hB hC hg hr calls hlen
  rw [C114_determined (fun b hb => (hC b hb).2) hrun h1]
  exact h2

end Ggnss
