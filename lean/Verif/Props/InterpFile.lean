import Verif.Props.Interp
import Verif.Props.Sp3HeadWhole
/-! # C86: `initialize` on whole files -/
namespace Ggnss

theorem readEpochs_take (junk : Nat → List Char) (fuel : Nat) : ∀ (m n : Nat) (t : Sp3Epoch) (vec : List Sp3Rec) (sr : Int) (s : Stream) (errno : Int)
    (outs : List Sp3Out), n ≤ m → readEpochs junk fuel m t vec sr s errno = .ok outs → readEpochs junk fuel n t vec sr s errno = .ok (outs.take n) := by
  intro m
  induction m with
  | zero =>
    intro n t vec sr s errno outs hn h
    obtain rfl : n = 0 := by omega
    simp [readEpochs]
  | succ m ih =>
    intro n t vec sr s errno outs hn h
    cases n with
    | zero => simp [readEpochs]
    | succ n =>
      rw [readEpochs] at h ⊢
      obtain ⟨o, e1, h⟩ := bind_ok_inv h
      rw [e1, Res.bind_ok]
      by_cases hs : o.status ≠ 0
      · rw [if_pos hs] at h ⊢
        simp only [Res.pure_eq, Res.ok.injEq] at h ⊢
        rw [← h]; simp
      · rw [if_neg hs] at h ⊢
        obtain ⟨r, e2, h⟩ := bind_ok_inv h
        simp only [Res.pure_eq, Res.ok.injEq] at h
        rw [ih n _ _ _ _ _ r (by omega) e2, ← h]
        simp

/-- What the loop does with a list of delivered epochs (`n` iterations left). -/
def interpEats : (n k : Nat) → Interp → List Sp3Out → Res (Int × Interp)
  | 0, _, o, _ => .ok (0, o)
  | _ + 1, _, o, [] => .ok (0, o)
  | n + 1, k, o, x :: xs =>
      if x.status ≠ 0 then .ok (x.status, o)
      else do
        let o ← interpEpoch o k x.t x.vec x.satsRead
        interpEats n (k + 1) o xs

theorem interpLoop_reads (junk : Nat → List Char) (fuel : Nat) : ∀ (n k : Nat) (o : Interp) (t : Sp3Epoch) (vec : List Sp3Rec) (sr : Int) (s : Stream)
    (errno : Int) (outs : List Sp3Out) (st : Int) (o' : Interp), readEpochs junk fuel n t vec sr s errno = .ok outs →
    interpEats n k o outs = .ok (st, o') →
    ∃ s', interpLoop junk fuel n k o t vec sr s errno = .ok (st, o', s') := by
  intro n
  induction n with
  | zero =>
    intro k o t vec sr s errno outs st o' _ h
    simp only [interpEats, Res.ok.injEq, Prod.mk.injEq] at h
    exact ⟨s, by rw [interpLoop, ← h.1, ← h.2]⟩
  | succ n ih =>
    intro k o t vec sr s errno outs st o' hr h
    rw [readEpochs] at hr
    obtain ⟨g, e1, hr⟩ := bind_ok_inv hr
    rw [interpLoop, e1, Res.bind_ok]
    by_cases hs : g.status ≠ 0
    · rw [if_pos hs] at hr ⊢
      simp only [Res.pure_eq, Res.ok.injEq] at hr
      rw [← hr, interpEats, if_pos hs] at h
      simp only [Res.ok.injEq, Prod.mk.injEq] at h
      exact ⟨g.strm, by rw [h.1, h.2]; rfl⟩
    · rw [if_neg hs] at hr ⊢
      obtain ⟨r, e2, hr⟩ := bind_ok_inv hr
      simp only [Res.pure_eq, Res.ok.injEq] at hr
      rw [← hr, interpEats, if_neg hs] at h
      obtain ⟨o1, e3, h⟩ := bind_ok_inv h
      obtain ⟨s', e4⟩ := ih (k + 1) o1 _ _ _ _ _ r st o' e2 h
      exact ⟨s', by rw [e3, Res.bind_ok, e4]⟩

/-- A delivered epoch: time and records. -/
def Sp3Out.epoch (o : Sp3Out) : Sp3Epoch × List Sp3Rec := (o.t, o.vec.take o.satsRead.toNat)

theorem nodup_len {α : Type} [DecidableEq α] {a b : List α} (h : a.Nodup) (hs : ∀ x ∈ a, x ∈ b) : a.length ≤ b.length := by
  induction a generalizing b with
  | nil => simp
  | cons x a ih =>
    rw [List.nodup_cons] at h
    have hx : x ∈ b := hs x (by simp)
    have := ih (b := b.erase x) h.2 (fun y hy => by
      rw [List.mem_erase_of_ne (fun e => h.1 (by rw [← e]; exact hy))]
      exact hs y (by simp [hy]))
    rw [List.length_erase_of_mem hx] at this
    have := List.length_pos_of_mem hx
    simp; omega

theorem satsAfter_sub (rs : List Sp3Rec) : ∀ (sats : List (SatSys × Int)), sats.Nodup →
    (satsAfter sats rs).Nodup ∧ ∀ x ∈ satsAfter sats rs, x ∈ sats ∨ ∃ r ∈ rs, r.sat = x := by
  induction rs with
  | nil => intro s h; exact ⟨h, fun x hx => Or.inl hx⟩
  | cons r rs ih =>
    intro s h
    rw [satsAfter]
    by_cases hr : r.sat ∈ s
    · rw [if_pos hr]
      obtain ⟨a, b⟩ := ih s h
      refine ⟨a, fun x hx => ?_⟩
      rcases b x hx with b | ⟨q, b1, b2⟩
      · exact Or.inl b
      · exact Or.inr ⟨q, by simp [b1], b2⟩
    · rw [if_neg hr]
      obtain ⟨a, b⟩ := ih (s ++ [r.sat]) (by
        rw [List.nodup_append]
        exact ⟨h, by simp, fun a ha b hb e => hr (by rw [List.mem_singleton] at hb; rw [← hb, ← e]; exact ha)⟩)
      refine ⟨a, fun x hx => ?_⟩
      rcases b x hx with b | ⟨q, b1, b2⟩
      · rcases List.mem_append.1 b with b | b
        · exact Or.inl b
        · exact Or.inr ⟨r, by simp, by simpa using (List.mem_singleton.1 b).symm⟩
      · exact Or.inr ⟨q, by simp [b1], b2⟩

/-- The conditions on an output of `get_next_epoch` used below. -/
structure Sp3Out.Fits (L : List (SatSys × Int)) (x : Sp3Out) : Prop where
  count : 0 ≤ x.satsRead ∧ x.satsRead.toNat ≤ x.vec.length
  distinct : (x.epoch.2.map Sp3Rec.sat).Nodup
  known : ∀ r ∈ x.epoch.2, r.sat ∈ L

/-- The later epochs. -/
theorem interpEats_more {L : List (SatSys × Int)} : ∀ (xs : List Sp3Out) (n k : Nat) (o : Interp) (fin : List Sp3Out) (sats : List (SatSys × Int))
    (eps : List (Sp3Epoch × List Sp3Rec)) (d : Nat), 0 < k → (∀ x ∈ xs, x.status = 0 ∧ x.Fits L) →
    SlotInv sats (eps.map Prod.snd).flatten d o.svec → o.running = sats.length → o.tvec = eps.map Prod.fst → L.length ≤ sats.length + d →
    (∀ x ∈ sats, x ∈ L) → (n = xs.length ∨ xs.length < n ∧ ∃ f ∈ fin.head?, f.status ≠ 0) →
    ∃ o' sats' d', interpEats n k o (xs ++ fin) = .ok (if n = xs.length then 0 else (fin.head?.map Sp3Out.status).getD 0, o') ∧ o'.K = o.K ∧
      SlotInv sats' ((eps ++ xs.map Sp3Out.epoch).map Prod.snd).flatten d' o'.svec ∧ o'.running = sats'.length ∧
      o'.tvec = (eps ++ xs.map Sp3Out.epoch).map Prod.fst := by
  intro xs
  induction xs with
  | nil =>
    intro n k o fin sats eps d hk _ hi hr ht hL hsub hn
    refine ⟨o, sats, d, ?_, rfl, by simpa using hi, hr, by simpa using ht⟩
    rcases hn with rfl | ⟨h1, f, h2, h3⟩
    · simp [interpEats]
    · obtain ⟨n, rfl⟩ : ∃ m, n = m + 1 := ⟨n - 1, by simp at h1; omega⟩
      cases fin with
      | nil => simp at h2
      | cons g fin =>
        simp only [List.head?_cons, Option.mem_def, Option.some.injEq] at h2
        subst h2
        simp [interpEats, h3]
  | cons x xs ih =>
    intro n k o fin sats eps d hk hx hi hr ht hL hsub hn
    obtain ⟨n, rfl⟩ : ∃ m, n = m + 1 := ⟨n - 1, by rcases hn with h | ⟨h, _⟩ <;> simp at h <;> omega⟩
    obtain ⟨hst, hf⟩ := hx x (by simp)
    have hlen : x.epoch.2.length = x.satsRead.toNat := by
      have := hf.count.2
      simp [Sp3Out.epoch]; omega
    obtain ⟨a, b⟩ := satsAfter_sub x.epoch.2 sats hi.nodup
    have hsub' : ∀ y ∈ satsAfter sats x.epoch.2, y ∈ L := by
      intro y hy
      rcases b y hy with h | ⟨r, h1, h2⟩
      · exact hsub y h
      · rw [← h2]; exact hf.known r h1
    have hle := Nat.le_trans (nodup_len a hsub') hL
    obtain ⟨sv', e1, i1⟩ := interpMore_eq x.vec x.epoch.2 0 (fun j hj => by
      rw [hlen] at hj
      simp only [Sp3Out.epoch, Nat.zero_add]
      rw [List.getElem?_take, if_pos hj]) hi hle
    have hsum : (satsAfter sats x.epoch.2).length + (sats.length + d - (satsAfter sats x.epoch.2).length) = sats.length + d := by omega
    obtain ⟨o', sats', d', e2, hK, i2, r2, t2⟩ := ih n (k + 1) { o with svec := sv', running := (satsAfter sats x.epoch.2).length, tvec := o.tvec ++ [x.t] }
      fin (satsAfter sats x.epoch.2) (eps ++ [x.epoch]) _ (by omega) (fun y hy => hx y (by simp [hy])) (by simpa using i1) rfl
      (by simp [ht, Sp3Out.epoch]) (by omega) hsub'
      (by rcases hn with h | ⟨h, h'⟩
          · exact Or.inl (by simpa using h)
          · exact Or.inr ⟨by simpa using h, h'⟩)
    refine ⟨o', sats', d', ?_, hK, by simpa using i2, r2, by simpa using t2⟩
    rw [List.cons_append, interpEats, if_neg (by simp [hst]), interpEpoch, if_neg (by omega), ← hlen, hr, e1]
    simp only [Res.bind_ok, Res.pure_eq]
    rw [e2]
    simp

/-- From a fresh object. -/
theorem interpEats_fresh {L : List (SatSys × Int)} {N : Nat} (hL : L.length ≤ N) {o : Interp} (ho : o.Fresh N) (xs fin : List Sp3Out) (n : Nat)
    (hx : ∀ x ∈ xs, x.status = 0 ∧ x.Fits L) 
    (hn : n = xs.length ∨ xs.length < n ∧ ∃ f ∈ fin.head?, f.status ≠ 0) :
    ∃ o' , interpEats n 0 o (xs ++ fin) = .ok (if n = xs.length then 0 else (fin.head?.map Sp3Out.status).getD 0, o') ∧ o'.K = o.K ∧
      o'.Holds (xs.map Sp3Out.epoch) := by
  cases xs with
  | nil =>
    refine ⟨o, ?_, rfl, by simp [ho.times], [], by simp, by simp, by simp [ho.unused], by simp [ho.unused]⟩
    rcases hn with rfl | ⟨h1, f, h2, h3⟩
    · simp [interpEats]
    · obtain ⟨n, rfl⟩ : ∃ m, n = m + 1 := ⟨n - 1, by simp at h1; omega⟩
      cases fin with
      | nil => simp at h2
      | cons g fin =>
        simp only [List.head?_cons, Option.mem_def, Option.some.injEq] at h2
        subst h2
        simp [interpEats, h3]
  | cons x xs =>
    obtain ⟨n, rfl⟩ : ∃ m, n = m + 1 := ⟨n - 1, by rcases hn with h | ⟨h, _⟩ <;> simp at h <;> omega⟩
    obtain ⟨hst, hf⟩ := hx x (by simp)
    have hlen : x.epoch.2.length = x.satsRead.toNat := by
      have := hf.count.2
      simp [Sp3Out.epoch]; omega
    have hle : x.epoch.2.length ≤ N := by
      have := nodup_len hf.distinct (b := L) (fun y hy => by
        obtain ⟨r, h1, h2⟩ := List.mem_map.1 hy
        rw [← h2]; exact hf.known r h1)
      simp at this; omega
    have e1 := interpFirst_eq x.vec x.epoch.2 [] N (fun j hj => by
      rw [hlen] at hj
      simp only [Sp3Out.epoch, List.length_nil, Nat.zero_add]
      rw [List.getElem?_take, if_pos hj]) hle
    simp only [List.length_nil, List.map_nil, List.nil_append] at e1
    obtain ⟨o', sats', d', e2, hK, i2, r2, t2⟩ := interpEats_more (L := L) xs n 1
      { o with svec := x.epoch.2.map (fun r => [r]) ++ List.replicate (N - x.epoch.2.length) [({} : Sp3Rec)], running := x.satsRead.toNat, tvec := o.tvec ++ [x.t] }
      fin (x.epoch.2.map Sp3Rec.sat) [x.epoch] (N - x.epoch.2.length) (by omega) (fun y hy => hx y (by simp [hy]))
      (by simpa using slotInv_first hf.distinct _) (by simp [← hlen]) (by simp [ho.times, Sp3Out.epoch]) (by simp; omega)
      (fun y hy => by
        obtain ⟨r, h1, h2⟩ := List.mem_map.1 hy
        rw [← h2]; exact hf.known r h1)
      (by rcases hn with h | ⟨h, h'⟩
          · exact Or.inl (by simpa using h)
          · exact Or.inr ⟨by simpa using h, h'⟩)
    refine ⟨o', ?_, hK, by simpa using t2, sats', i2.nodup, ?_, r2, ?_⟩
    · rw [List.cons_append, interpEats, if_neg (by simp [hst]), interpEpoch, if_pos rfl, ho.slots, ← hlen, e1]
      simp only [Res.bind_ok, Res.pure_eq]
      rw [hlen] at e2 ⊢
      rw [Nat.zero_add, e2]
      simp
    · intro y
      rw [i2.mem]
      simp only [List.singleton_append, List.map_cons, List.mem_flatten, List.mem_cons, List.mem_map]
      constructor
      · rintro ⟨r, ⟨l, (rfl | ⟨e, he, rfl⟩), h2⟩, h3⟩
        · exact ⟨_, Or.inl rfl, r, h2, h3⟩
        · exact ⟨e, Or.inr he, r, h2, h3⟩
      · rintro ⟨e, (rfl | he), r, h2, h3⟩
        · exact ⟨r, ⟨_, Or.inl rfl, h2⟩, h3⟩
        · exact ⟨r, ⟨e.2, Or.inr ⟨e, he, rfl⟩, h2⟩, h3⟩
    · rw [r2, i2.eq, List.take_append_of_le_length (by simp)]
      rw [List.take_of_length_le (by simp)]
      simp

/-! ## Files -/

/-- The times and records of epochs in memory are those of these epochs of a file. -/
def EpochsAre (bs : List EpochBlock) (eps : List (Sp3Epoch × List Sp3Rec)) : Prop :=
  List.Forall₂ (fun b e => b.header.Is e.1 ∧ List.Forall₂ Decoded b.records e.2) bs eps

/-- The satellites of an epoch. -/
def EpochBlock.sats (b : EpochBlock) : List (SatSys × Int) := b.records.map (fun p => (p.sys, (p.prn : Int)))

theorem decoded_sats {ps : List PosLine} {rs : List Sp3Rec} (h : List.Forall₂ Decoded ps rs) :
    rs.map Sp3Rec.sat = ps.map (fun p => (p.sys, (p.prn : Int))) := by
  induction h with
  | nil => rfl
  | cons h _ ih =>
    simp only [List.map_cons, ih, Sp3Rec.sat, h.1.sys, h.1.prn]

theorem delivers_epoch {b : EpochBlock} {x : Sp3Out} (h : Delivers b x) : List.Forall₂ Decoded b.records x.epoch.2 := by
  obtain ⟨_, h2, recs, h3, h4⟩ := h
  obtain ⟨t, ht⟩ := h3
  have := h4.length_eq
  rw [Sp3Out.epoch, h2, ← ht]
  simp only [Int.toNat_natCast]
  rw [this, List.take_left']
  · exact h4
  · rfl

theorem delivers_fits {L : List (SatSys × Int)} {b : EpochBlock} {x : Sp3Out} (h : Delivers b x) (hd : b.sats.Nodup)
    (hL : ∀ y ∈ b.sats, y ∈ L) : x.Fits L := by
  have he := delivers_epoch h
  have hs := decoded_sats he
  obtain ⟨_, h2, recs, h3, h4⟩ := h
  refine ⟨⟨by rw [h2]; omega, ?_⟩, by rw [hs]; exact hd, fun r hr => ?_⟩
  · have := h4.length_eq; have := h3.length_le; rw [h2]; simp; omega
  · refine hL _ ?_
    rw [EpochBlock.sats, ← hs]
    exact List.mem_map.2 ⟨r, hr, rfl⟩

theorem delivers_are : ∀ {bs : List EpochBlock} {outs : List Sp3Out}, List.Forall₂ Delivers bs outs → EpochsAre bs (outs.map Sp3Out.epoch) := by
  intro bs outs h
  induction h with
  | nil => exact .nil
  | cons h _ ih => exact .cons ⟨h.1, delivers_epoch h⟩ ih

theorem forall₂_mem_right {α β : Type} {R : α → β → Prop} {a : List α} {b : List β} (h : List.Forall₂ R a b) : ∀ y ∈ b, ∃ x ∈ a, R x y := by
  induction h with
  | nil => simp
  | cons h _ ih =>
    intro y hy
    rcases List.mem_cons.1 hy with rfl | hy
    · exact ⟨_, by simp, h⟩
    · obtain ⟨x, h1, h2⟩ := ih y hy
      exact ⟨x, by simp [h1], h2⟩

theorem forall₂_take' {α β : Type} {R : α → β → Prop} (n : Nat) {a : List α} {b : List β} (h : List.Forall₂ R a b) : List.Forall₂ R (a.take n) (b.take n) := by
  induction h generalizing n with
  | nil => simp
  | cons h _ ih =>
    cases n with
    | zero => simp
    | succ n => simpa using ⟨h, ih n⟩

/-- **C86** (part).  An interpolator with a slot for each of the announced satellites, of which the local
variable that is read too early happens to be 0, on a file of any number of epochs (each satellite at most
once in an epoch, no more satellites in all than slots) closed by "EOF": when the file has more than `K + 1`
epochs the status is 0 and the first `K + 1` epochs are loaded (`Interp.Holds`); otherwise the status is -1 and the last epoch is missing. -/
theorem C86_file_partial (junk : Nat → List Char) (hj : ∀ k, (junk k).length = 128) (fuel : Nat) (nsats0 : Int) (t0 : Sp3Epoch) {errno : Int}
    (he : errno ≠ ERANGE) (e tail : List Char) (hok : LineOK e) (heof : e.take 3 = c!"EOF") (htail : tail = [] ∨ ∃ r, tail = '\n' :: r)
    (bs : List EpochBlock) (hne : bs ≠ []) (N : Nat) (hbs : ∀ b ∈ bs, b.WF N fuel) (sats : List (SatSys × Int)) (hsN : sats.length ≤ N)
    (hdist : ∀ b ∈ bs, b.sats.Nodup ∧ ∀ y ∈ b.sats, y ∈ sats)
    {o : Interp} (ho : o.Fresh N) (hK : -1 ≤ o.K ∧ o.K < 2147483647) {eoh : Option Nat} {s : Stream} (hg : (sp3Rewind eoh s none).good = true)
    (hr : (sp3Rewind eoh s none).rest = (bs.map EpochBlock.text).flatten ++ (e ++ tail)) :
    ∃ o' s' eps, interpInit junk fuel 0 nsats0 t0 eoh N o s errno = .ok (if o.K + 1 < bs.length then 0 else -1, o', s') ∧
      EpochsAre (bs.take (if o.K + 1 < bs.length then (o.K + 1).toNat else bs.length - 1)) eps ∧ o'.Holds eps ∧ o'.K = o.K := by
  have hal : sp3Allocate N = .ok (List.replicate N ({} : Sp3Rec)) := by
    unfold sp3Allocate
    rw [if_neg (by omega)]; simp
  obtain ⟨outs, o1, o2, o3⟩ := C31_file junk hj fuel he e tail hok heof htail bs (max bs.length (o.K + 1).toNat) t0
    (List.replicate N ({} : Sp3Rec)) nsats0 (sp3Rewind eoh s none) hne (Nat.le_max_left _ _) (by simpa using hbs) hg hr
  have hlen := o2.length_eq
  have hb1 : 0 < bs.length := List.length_pos_iff.2 hne
  have hread := readEpochs_take junk fuel _ (o.K + 1).toNat t0 _ nsats0 _ errno outs (Nat.le_max_right _ _) o1
  have hfit : ∀ x ∈ outs, x.Fits sats := by
    intro x hx
    obtain ⟨b, h1, h2⟩ := forall₂_mem_right o2 x hx
    exact delivers_fits h2 (hdist b h1).1 (hdist b h1).2
  have hstat : ∀ (i : Nat) (x : Sp3Out), outs[i]? = some x → x.status = if i < bs.length - 1 then 0 else -1 := by
    intro i x hx
    have : (outs.map Sp3Out.status)[i]? = some x.status := by rw [List.getElem?_map, hx]; rfl
    rw [o3] at this
    by_cases hi : i < bs.length - 1
    · rw [List.getElem?_append_left (by simpa using hi)] at this
      simp [hi] at this
      rw [if_pos hi]; exact this.symm
    · rw [List.getElem?_append_right (by simpa using hi)] at this
      rw [if_neg hi]
      have hil : i < outs.length := by
        by_contra hc
        rw [List.getElem?_eq_none (by omega)] at hx; simp at hx
      have hie : i = bs.length - 1 := by omega
      rw [hie] at this
      simp at this
      exact this.symm
  have hzero : ∀ m, m ≤ bs.length - 1 → ∀ x ∈ outs.take m, x.status = 0 ∧ x.Fits sats := by
    intro m hm x hx
    refine ⟨?_, hfit x (List.mem_of_mem_take hx)⟩
    obtain ⟨i, hi⟩ := List.mem_iff_getElem?.1 hx
    rw [List.getElem?_take] at hi
    split at hi
    · rw [hstat i x hi, if_pos (by omega)]
    · simp at hi
  have hinit : ∀ st o', interpEats (o.K + 1).toNat 0 o (outs.take (o.K + 1).toNat) = .ok (st, o') →
      ∃ s', interpInit junk fuel 0 nsats0 t0 eoh N o s errno = .ok (st, o', s') := by
    intro st o' h
    obtain ⟨s', h'⟩ := interpLoop_reads junk fuel _ 0 o t0 _ nsats0 _ errno _ st o' hread h
    refine ⟨s', ?_⟩
    unfold interpInit
    simp only [hal, Res.bind_ok, ne_eq, not_true_eq_false, if_false]
    rw [if_neg (by omega), h']
  by_cases hc : o.K + 1 < bs.length
  · simp only [hc, if_true]
    have hm : (o.K + 1).toNat ≤ bs.length - 1 := by omega
    have hl : (outs.take (o.K + 1).toNat).length = (o.K + 1).toNat := by simp; omega
    obtain ⟨o', e1, e2, e3⟩ := interpEats_fresh hsN ho (outs.take (o.K + 1).toNat) [] (o.K + 1).toNat (hzero _ hm) (Or.inl hl.symm)
    rw [List.append_nil, if_pos hl.symm] at e1
    obtain ⟨s', h'⟩ := hinit _ _ e1
    exact ⟨o', s', _, h', delivers_are (forall₂_take' _ o2), e3, e2⟩
  · simp only [hc, if_false]
    have hm : bs.length ≤ (o.K + 1).toNat := by omega
    have hl : (outs.take (bs.length - 1)).length = bs.length - 1 := by simp; omega
    have hsplit : outs.take (o.K + 1).toNat = outs.take (bs.length - 1) ++ outs.drop (bs.length - 1) := by
      rw [List.take_append_drop, List.take_of_length_le (by omega)]
    have hdrop : ∃ x, (outs.drop (bs.length - 1)).head? = some x ∧ x.status = -1 := by
      have hi : bs.length - 1 < outs.length := by omega
      refine ⟨outs[bs.length - 1], by rw [List.head?_drop, List.getElem?_eq_getElem hi], ?_⟩
      rw [hstat (bs.length - 1) _ (List.getElem?_eq_getElem hi), if_neg (by omega)]
    obtain ⟨x, hx1, hx2⟩ := hdrop
    obtain ⟨o', e1, e2, e3⟩ := interpEats_fresh hsN ho (outs.take (bs.length - 1)) (outs.drop (bs.length - 1)) (o.K + 1).toNat
      (hzero _ (Nat.le_refl _)) (Or.inr ⟨by omega, x, by rw [hx1]; rfl, by rw [hx2]; decide⟩)
    rw [← hsplit, if_neg (by omega), hx1] at e1
    simp only [Option.map_some, Option.getD_some, hx2] at e1
    obtain ⟨s', h'⟩ := hinit _ _ e1
    exact ⟨o', s', _, h', delivers_are (forall₂_take' _ o2), e3, e2⟩

/-- **C86** is false of the code: with any other value in the variable that is read before it is set, nothing is
loaded, and the status is 0 all the same (whatever the object and the file). -/
theorem C86_nothing_loaded (junk : Nat → List Char) (fuel : Nat) {j0 : Int} (hj0 : j0 ≠ 0) (nsats0 : Int) (t0 : Sp3Epoch) (eoh : Option Nat) (N : Nat)
    (o : Interp) (s : Stream) (errno : Int) :
    interpInit junk fuel j0 nsats0 t0 eoh N o s errno = .ok (0, o, sp3Rewind eoh s none) := by
  have hal : sp3Allocate N = .ok (List.replicate N ({} : Sp3Rec)) := by
    unfold sp3Allocate
    rw [if_neg (by omega)]; simp
  unfold interpInit
  simp only [hal, Res.bind_ok]
  rw [if_pos hj0]; rfl

/-- **C86** (second call).  Nothing is ever removed: the times an object holds already stay in front of the ones
that are loaded, so that a second call on the same file leaves every time twice. -/
theorem C86_never_emptied (junk : Nat → List Char) (fuel : Nat) (j0 nsats0 : Int) (t0 : Sp3Epoch) (eoh : Option Nat) (N : Int) (o : Interp) (s : Stream)
    (errno : Int) {st : Int} {o' : Interp} {s' : Stream} (h : interpInit junk fuel j0 nsats0 t0 eoh N o s errno = .ok (st, o', s')) :
    o.tvec <+: o'.tvec := by
  have hep : ∀ {o o' : Interp} {k : Nat} {t : Sp3Epoch} {vec : List Sp3Rec} {n : Int}, interpEpoch o k t vec n = .ok o' → o'.tvec = o.tvec ++ [t] := by
    intro o o' k t vec n h
    unfold interpEpoch at h
    split at h
    · obtain ⟨a, _, h⟩ := bind_ok_inv h
      simp only [Res.pure_eq, Res.ok.injEq] at h
      rw [← h]
    · obtain ⟨a, _, h⟩ := bind_ok_inv h
      simp only [Res.pure_eq, Res.ok.injEq] at h
      rw [← h]
  have hl : ∀ (n k : Nat) (o : Interp) (t : Sp3Epoch) (vec : List Sp3Rec) (sr : Int) (s : Stream) (errno : Int),
      interpLoop junk fuel n k o t vec sr s errno = .ok (st, o', s') → o.tvec <+: o'.tvec := by
    intro n
    induction n with
    | zero =>
      intro k o t vec sr s errno h
      simp only [interpLoop, Res.ok.injEq, Prod.mk.injEq] at h
      rw [h.2.1]
    | succ n ih =>
      intro k o t vec sr s errno h
      rw [interpLoop] at h
      obtain ⟨g, _, h⟩ := bind_ok_inv h
      split at h
      · simp only [Res.pure_eq, Res.ok.injEq, Prod.mk.injEq] at h
        rw [h.2.1]
      · obtain ⟨o1, e1, h⟩ := bind_ok_inv h
        refine List.IsPrefix.trans ?_ (ih _ _ _ _ _ _ _ h)
        rw [hep e1]; exact List.prefix_append _ _
  unfold interpInit at h
  obtain ⟨vec, _, h⟩ := bind_ok_inv h
  split at h
  · simp only [Res.pure_eq, Res.ok.injEq, Prod.mk.injEq] at h
    rw [h.2.1]
  · split at h
    · simp at h
    · exact hl _ _ _ _ _ _ _ _ h

/-! ## Which record belongs to which time -/

/-- The series of a satellite has a record for each epoch it occurs in, and no other. -/
theorem seriesOf_length (x : SatSys × Int) : ∀ (eps : List (Sp3Epoch × List Sp3Rec)), (∀ e ∈ eps, (e.2.map Sp3Rec.sat).Nodup) →
    (seriesOf (eps.map Prod.snd).flatten x).length = eps.countP (fun e => decide (x ∈ e.2.map Sp3Rec.sat)) := by
  intro eps
  induction eps with
  | nil => intro _; rfl
  | cons e eps ih =>
    intro h
    rw [List.map_cons, List.flatten_cons, seriesOf_append, List.length_append, ih (fun y hy => h y (by simp [hy])), List.countP_cons]
    by_cases hx : x ∈ e.2.map Sp3Rec.sat
    · obtain ⟨r, h1, h2⟩ := List.mem_map.1 hx
      rw [if_pos (by simpa using hx), ← h2, seriesOf_nodup (h e (by simp)) h1]
      simp; omega
    · rw [if_neg (by simpa using hx), seriesOf_none]
      · simp
      · rintro ⟨r, h1, h2⟩; exact hx (List.mem_map.2 ⟨r, h1, h2⟩)

theorem seriesOf_get (x : SatSys × Int) : ∀ (eps : List (Sp3Epoch × List Sp3Rec)), (∀ e ∈ eps, (e.2.map Sp3Rec.sat).Nodup) →
    (∀ e ∈ eps, x ∈ e.2.map Sp3Rec.sat) → ∀ (n : Nat) (r : Sp3Rec), (seriesOf (eps.map Prod.snd).flatten x)[n]? = some r →
    r.sat = x ∧ ∃ e, eps[n]? = some e ∧ r ∈ e.2 := by
  intro eps
  induction eps with
  | nil => intro _ _ n r h; simp [seriesOf] at h
  | cons e eps ih =>
    intro h hx n r hr
    obtain ⟨q, h1, h2⟩ := List.mem_map.1 (hx e (by simp))
    rw [List.map_cons, List.flatten_cons, seriesOf_append] at hr
    have hq : seriesOf e.2 x = [q] := by rw [← h2]; exact seriesOf_nodup (h e (by simp)) h1
    rw [hq] at hr
    cases n with
    | zero =>
      simp at hr
      subst hr
      exact ⟨h2, e, rfl, h1⟩
    | succ n =>
      simp at hr
      obtain ⟨a, e', b, c⟩ := ih (fun y hy => h y (by simp [hy])) (fun y hy => hx y (by simp [hy])) n r hr
      exact ⟨a, e', by simpa using b, c⟩

/-- **C86**: the records of a slot are those of the times with the same index exactly when no satellite is
missing in any of the loaded epochs.  (Otherwise its slot has fewer records than there are times, and nothing in
the object tells which are missing.) -/
theorem C86_aligned_iff {o : Interp} {eps : List (Sp3Epoch × List Sp3Rec)} (h : o.Holds eps) (hd : ∀ e ∈ eps, (e.2.map Sp3Rec.sat).Nodup) :
    o.Aligned eps ↔ ∀ e ∈ eps, ∀ r ∈ e.2, ∀ e' ∈ eps, ∃ r' ∈ e'.2, r'.sat = r.sat := by
  obtain ⟨sats, s1, s2, s3, s4⟩ := h.slots
  have hslot : ∀ (i : Nat) (hi : i < sats.length), o.svec[i]? = some (seriesOf (eps.map Prod.snd).flatten sats[i]) := by
    intro i hi
    have : (o.svec.take o.running)[i]? = (sats.map (seriesOf (eps.map Prod.snd).flatten))[i]? := by rw [s4]
    rw [List.getElem?_take, if_pos (by omega)] at this
    rw [this, List.getElem?_map, List.getElem?_eq_getElem hi]; rfl
  constructor
  · intro ha e he r hr e' he'
    have hm : r.sat ∈ sats := (s2 _).2 ⟨e, he, r, hr, rfl⟩
    obtain ⟨i, hi, hie⟩ := List.mem_iff_getElem.1 hm
    obtain ⟨slot, h1, sat, h2, h3⟩ := ha i (by omega)
    rw [hslot i hi] at h1
    simp only [Option.some.injEq] at h1
    rw [← h1, seriesOf_length _ _ hd, List.countP_eq_length] at h2
    have := h2 e' he'
    rw [hie] at this
    obtain ⟨r', h4, h5⟩ := List.mem_map.1 (by simpa only [decide_eq_true_eq] using this)
    exact ⟨r', h4, h5⟩
  · intro ha i hi
    have hi' : i < sats.length := by omega
    refine ⟨_, hslot i hi', sats[i], ?_⟩
    obtain ⟨e, he, r, hr, hre⟩ := (s2 sats[i]).1 (List.getElem_mem hi')
    have hall : ∀ e' ∈ eps, sats[i] ∈ e'.2.map Sp3Rec.sat := by
      intro e' he'
      obtain ⟨r', h1, h2⟩ := ha e he r hr e' he'
      exact List.mem_map.2 ⟨r', h1, by rw [h2, hre]⟩
    refine ⟨?_, seriesOf_get _ eps hd hall⟩
    rw [seriesOf_length _ _ hd, List.countP_eq_length]
    intro e' he'
    simpa using hall e' he'

end Ggnss
