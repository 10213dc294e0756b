import Verif.Spec.Interp
import Verif.Props.Sp3Any
/-! # C86: what the interpolator loads -/
namespace Ggnss

/-- The slots hold the records `all` of the satellites `sats`; `d` slots are free. -/
structure SlotInv (sats : List (SatSys × Int)) (all : List Sp3Rec) (d : Nat) (svec : List (List Sp3Rec)) : Prop where
  nodup : sats.Nodup
  mem : ∀ x, x ∈ sats ↔ ∃ r ∈ all, r.sat = x
  eq : svec = sats.map (seriesOf all) ++ List.replicate d [({} : Sp3Rec)]

theorem seriesOf_append (a b : List Sp3Rec) (x : SatSys × Int) : seriesOf (a ++ b) x = seriesOf a x ++ seriesOf b x := by
  simp [seriesOf]

theorem seriesOf_one (r : Sp3Rec) (x : SatSys × Int) : seriesOf [r] x = if r.sat = x then [r] else [] := by
  by_cases h : r.sat = x <;> simp [seriesOf, h]

theorem seriesOf_head {all : List Sp3Rec} {x : SatSys × Int} (h : ∃ r ∈ all, r.sat = x) :
    ∃ e l, seriesOf all x = e :: l ∧ e.sat = x := by
  cases hs : seriesOf all x with
  | nil =>
    obtain ⟨r, h1, h2⟩ := h
    have : r ∈ seriesOf all x := by simp [seriesOf, h1, h2]
    rw [hs] at this; simp at this
  | cons e l =>
    have : e ∈ seriesOf all x := by rw [hs]; simp
    exact ⟨e, l, rfl, by simpa [seriesOf] using (List.mem_filter.1 this).2⟩

theorem seriesOf_none {all : List Sp3Rec} {x : SatSys × Int} (h : ¬ ∃ r ∈ all, r.sat = x) : seriesOf all x = [] := by
  rw [seriesOf, List.filter_eq_nil_iff]
  intro r hr
  simpa using fun e => h ⟨r, hr, e⟩

theorem interpFind_eq {all : List Sp3Rec} (x : SatSys × Int) : ∀ (todo done : List (SatSys × Int)) (rest : List (List Sp3Rec)),
    (∀ y ∈ todo, ∃ r ∈ all, r.sat = y) →
    interpFind ((done ++ todo).map (seriesOf all) ++ rest) x.1 x.2 todo.length done.length =
      .ok (if x ∈ todo then some (done.length + todo.idxOf x) else none) := by
  intro todo
  induction todo with
  | nil => intro done rest _; simp [interpFind]
  | cons y ys ih =>
    intro done rest hm
    obtain ⟨e, l, h1, h2⟩ := seriesOf_head (hm y (by simp))
    have hget : ((done ++ y :: ys).map (seriesOf all) ++ rest)[done.length]? = some (e :: l) := by
      simp [h1]
    rw [List.length_cons, interpFind, hget]
    have hy : (e.sys = x.1 ∧ e.prn = x.2) ↔ y = x := by
      rw [← h2]
      constructor
      · intro h; exact Prod.ext h.1 h.2
      · intro h; rw [← h]; exact ⟨rfl, rfl⟩
    simp only
    by_cases h : y = x
    · rw [if_pos (hy.2 h), if_pos (by simp [h]), h]
      simp
    · rw [if_neg (fun q => h (hy.1 q))]
      have := ih (done ++ [y]) rest (fun z hz => hm z (by simp [hz]))
      simp only [List.append_assoc, List.cons_append, List.nil_append, List.length_append, List.length_cons,
        List.length_nil, Nat.zero_add] at this
      rw [this]
      have hx : x ≠ y := fun q => h q.symm
      by_cases hm' : x ∈ ys
      · rw [if_pos hm', if_pos (by simp [hm'])]
        rw [List.idxOf_cons_ne _ h]
        congr 2; omega
      · rw [if_neg hm', if_neg (by simp [hm', hx])]

/-- One record of a later epoch. -/
theorem interpAdd_eq {sats : List (SatSys × Int)} {all : List Sp3Rec} {d : Nat} {svec : List (List Sp3Rec)} (h : SlotInv sats all d svec)
    (r : Sp3Rec) (hd : r.sat ∉ sats → 0 < d) :
    ∃ svec', interpAdd r svec sats.length = .ok (svec', (if r.sat ∈ sats then sats else sats ++ [r.sat]).length) ∧
      SlotInv (if r.sat ∈ sats then sats else sats ++ [r.sat]) (all ++ [r]) (if r.sat ∈ sats then d else d - 1) svec' := by
  have hf := interpFind_eq (all := all) r.sat sats [] (List.replicate d [({} : Sp3Rec)]) (fun y hy => (h.mem y).1 hy)
  simp only [List.nil_append, List.length_nil, Nat.zero_add] at hf
  rw [← h.eq] at hf
  have hf' : interpFind svec r.sys r.prn sats.length 0 = .ok (if r.sat ∈ sats then some (sats.idxOf r.sat) else none) := hf
  have hmem : ∀ x, (x ∈ (if r.sat ∈ sats then sats else sats ++ [r.sat])) ↔ ∃ q ∈ all ++ [r], q.sat = x := by
    intro x
    by_cases hr : r.sat ∈ sats
    · rw [if_pos hr, h.mem]
      constructor
      · rintro ⟨q, h1, h2⟩; exact ⟨q, by simp [h1], h2⟩
      · rintro ⟨q, h1, h2⟩
        simp only [List.mem_append, List.mem_singleton] at h1
        rcases h1 with h1 | h1
        · exact ⟨q, h1, h2⟩
        · rw [← h2, h1]; exact (h.mem _).1 hr
    · rw [if_neg hr, List.mem_append, h.mem]
      constructor
      · rintro (⟨q, h1, h2⟩ | h1)
        · exact ⟨q, by simp [h1], h2⟩
        · exact ⟨r, by simp, by simpa using Eq.symm (List.mem_singleton.1 h1)⟩
      · rintro ⟨q, h1, h2⟩
        simp only [List.mem_append, List.mem_singleton] at h1
        rcases h1 with h1 | h1
        · exact Or.inl ⟨q, h1, h2⟩
        · right; rw [← h2, h1]; simp
  by_cases hr : r.sat ∈ sats
  · simp only [hr, if_true] at hf' hmem ⊢
    refine ⟨_, by rw [interpAdd, hf']; rfl, h.nodup, hmem, ?_⟩
    have hi := List.idxOf_lt_length_of_mem hr
    apply List.ext_getElem?
    intro j
    rw [List.getElem?_set]
    have hlen : svec.length = sats.length + d := by rw [h.eq]; simp
    by_cases hj : sats.idxOf r.sat = j
    · subst hj
      rw [if_pos rfl, if_pos (by omega)]
      rw [List.getElem?_append_left (by simpa using hi)]
      have hg : svec[sats.idxOf r.sat]? = some (seriesOf all r.sat) := by
        rw [h.eq, List.getElem?_append_left (by simpa using hi), List.getElem?_map,
          List.getElem?_eq_getElem hi, List.getElem_idxOf]; rfl
      rw [List.getD_eq_getElem?_getD, hg, List.getElem?_map, List.getElem?_eq_getElem hi, List.getElem_idxOf]
      simp [seriesOf_append, seriesOf_one]
    · rw [if_neg hj, h.eq]
      by_cases hl : j < sats.length
      · rw [List.getElem?_append_left (by simpa using hl), List.getElem?_append_left (by simpa using hl), List.getElem?_map,
          List.getElem?_map, List.getElem?_eq_getElem hl]
        have hne : r.sat ≠ sats[j] := by
          intro e
          apply hj
          rw [e, h.nodup.idxOf_getElem]
        simp [seriesOf_append, seriesOf_one, hne]
      · rw [List.getElem?_append_right (by simpa using hl), List.getElem?_append_right (by simpa using hl)]
        simp
  · have hd := hd hr
    simp only [hr, if_false] at hf' hmem ⊢
    obtain ⟨d, rfl⟩ : ∃ e, d = e + 1 := ⟨d - 1, by omega⟩
    have hg : svec[sats.length]? = some [({} : Sp3Rec)] := by
      rw [h.eq, List.getElem?_append_right (by simp)]; simp
    refine ⟨svec.set sats.length [r], ?_, ?_, hmem, ?_⟩
    · rw [interpAdd, hf']
      simp [slotSet, hg]
    · rw [List.nodup_append]
      exact ⟨h.nodup, by simp, fun a ha b hb e => hr (by rw [List.mem_singleton] at hb; rw [← hb, ← e]; exact ha)⟩
    · have e1 : (sats.map (seriesOf (all ++ [r]))) = sats.map (seriesOf all) := by
        apply List.map_congr_left
        intro y hy
        rw [seriesOf_append, seriesOf_one, if_neg (fun e => hr (by rw [e]; exact hy))]; simp
      have e2 : seriesOf (all ++ [r]) r.sat = [r] := by
        rw [seriesOf_append, seriesOf_one, if_pos rfl, seriesOf_none (fun hq => hr ((h.mem _).2 hq))]; rfl
      rw [List.map_append, e1, h.eq, List.set_append_right _ _ (by simp)]
      simp [e2, List.replicate_succ]

/-- The satellites in order of first appearance. -/
def satsAfter (sats : List (SatSys × Int)) : List Sp3Rec → List (SatSys × Int)
  | [] => sats
  | r :: rs => satsAfter (if r.sat ∈ sats then sats else sats ++ [r.sat]) rs

theorem satsAfter_len (rs : List Sp3Rec) : ∀ sats, sats.length ≤ (satsAfter sats rs).length := by
  induction rs with
  | nil => intro s; exact Nat.le_refl _
  | cons r rs ih =>
    intro s
    refine Nat.le_trans ?_ (ih _)
    split <;> simp

/-- All records of a later epoch. -/
theorem interpMore_eq (vec : List Sp3Rec) : ∀ (rs : List Sp3Rec) (i : Nat), (∀ (j : Nat), j < rs.length → vec[i + j]? = rs[j]?) →
    ∀ {sats : List (SatSys × Int)} {all : List Sp3Rec} {d : Nat} {svec : List (List Sp3Rec)}, SlotInv sats all d svec →
      (satsAfter sats rs).length ≤ sats.length + d →
      ∃ svec', interpMore vec rs.length i svec sats.length = .ok (svec', (satsAfter sats rs).length) ∧
        SlotInv (satsAfter sats rs) (all ++ rs) (sats.length + d - (satsAfter sats rs).length) svec' := by
  intro rs
  induction rs with
  | nil =>
    intro i _ sats all d svec h _
    exact ⟨svec, rfl, by simpa [satsAfter] using h⟩
  | cons r rs ih =>
    intro i hv sats all d svec h hN
    have h0 : vec[i]? = some r := by simpa using hv 0 (by simp)
    have hd : r.sat ∉ sats → 0 < d := by
      intro hn
      have := satsAfter_len rs (sats ++ [r.sat])
      rw [satsAfter, if_neg hn] at hN
      simp at this; omega
    obtain ⟨sv1, e1, i1⟩ := interpAdd_eq h r hd
    have hle : (satsAfter sats (r :: rs)).length ≤ (if r.sat ∈ sats then sats else sats ++ [r.sat]).length + (if r.sat ∈ sats then d else d - 1) := by
      split
      · exact hN
      · rename_i hn; have := hd hn; simp; omega
    have hsum : (if r.sat ∈ sats then sats else sats ++ [r.sat]).length + (if r.sat ∈ sats then d else d - 1) = sats.length + d := by
      split
      · rfl
      · rename_i hn; have := hd hn; simp; omega
    obtain ⟨sv2, e2, i2⟩ := ih (i + 1) (fun j hj => by
      have := hv (j + 1) (by simpa using hj)
      rw [show i + 1 + j = i + (j + 1) from by omega, this]; rfl) i1 hle
    refine ⟨sv2, ?_, ?_⟩
    · rw [List.length_cons, interpMore, recAt, h0]
      simp only [Res.bind_ok, e1]
      exact e2
    · rw [hsum] at i2
      simpa [satsAfter] using i2

theorem satsAfter_fresh : ∀ (rs : List Sp3Rec) (sats : List (SatSys × Int)), (sats ++ rs.map Sp3Rec.sat).Nodup →
    satsAfter sats rs = sats ++ rs.map Sp3Rec.sat := by
  intro rs
  induction rs with
  | nil => intro s _; simp [satsAfter]
  | cons r rs ih =>
    intro s h
    have hn : r.sat ∉ s := by
      intro hm
      rw [List.nodup_append] at h
      exact h.2.2 _ hm r.sat (by simp) rfl
    rw [satsAfter, if_neg hn, ih _ (by simpa using h)]; simp

/-- The records of the first epoch. -/
theorem interpFirst_eq (vec : List Sp3Rec) : ∀ (rs done : List Sp3Rec) (d : Nat), (∀ (j : Nat), j < rs.length → vec[done.length + j]? = rs[j]?) →
    rs.length ≤ d →
    interpFirst vec rs.length done.length (done.map (fun r => [r]) ++ List.replicate d [({} : Sp3Rec)]) =
      .ok ((done ++ rs).map (fun r => [r]) ++ List.replicate (d - rs.length) [({} : Sp3Rec)]) := by
  intro rs
  induction rs with
  | nil => intro done d _ _; simp [interpFirst]
  | cons r rs ih =>
    intro done d hv hd
    have h0 : vec[done.length]? = some r := by simpa using hv 0 (by simp)
    obtain ⟨d, rfl⟩ : ∃ e, d = e + 1 := ⟨d - 1, by simp at hd; omega⟩
    have hg : (done.map (fun r => [r]) ++ List.replicate (d + 1) [({} : Sp3Rec)])[done.length]? = some [({} : Sp3Rec)] := by
      rw [List.getElem?_append_right (by simp)]; simp
    have := ih (done ++ [r]) d (fun j hj => by
      have := hv (j + 1) (by simpa using hj)
      rw [List.length_append, List.length_singleton, show done.length + 1 + j = done.length + (j + 1) from by omega, this]; rfl)
      (by simpa using hd)
    rw [List.length_cons, interpFirst, recAt, h0]
    simp only [Res.bind_ok, slotSet, hg]
    have hs : (done.map (fun r => [r]) ++ List.replicate (d + 1) [({} : Sp3Rec)]).set done.length [r] =
        (done ++ [r]).map (fun r => [r]) ++ List.replicate d [({} : Sp3Rec)] := by
      rw [List.set_append_right _ _ (by simp)]
      simp [List.replicate_succ]
    rw [hs]
    simp only [List.length_append, List.length_singleton] at this
    rw [this]
    simp

theorem seriesOf_nodup {rs : List Sp3Rec} (h : (rs.map Sp3Rec.sat).Nodup) {r : Sp3Rec} (hr : r ∈ rs) : seriesOf rs r.sat = [r] := by
  induction rs with
  | nil => simp at hr
  | cons q rs ih =>
    rw [List.map_cons, List.nodup_cons] at h
    rw [show q :: rs = [q] ++ rs from rfl, seriesOf_append, seriesOf_one]
    rcases List.mem_cons.1 hr with rfl | hr
    · rw [if_pos rfl, seriesOf_none]
      · rfl
      · rintro ⟨x, h1, h2⟩
        exact h.1 (by rw [← h2]; exact List.mem_map.2 ⟨x, h1, rfl⟩)
    · rw [if_neg, ih h.2 hr]
      · rfl
      · intro e; exact h.1 (by rw [e]; exact List.mem_map.2 ⟨r, hr, rfl⟩)

theorem slotInv_first {rs : List Sp3Rec} (h : (rs.map Sp3Rec.sat).Nodup) (d : Nat) :
    SlotInv (rs.map Sp3Rec.sat) rs d (rs.map (fun r => [r]) ++ List.replicate d [({} : Sp3Rec)]) := by
  refine ⟨h, fun x => by simp, ?_⟩
  congr 1
  rw [List.map_map]
  apply List.map_congr_left
  intro r hr
  exact (seriesOf_nodup h hr).symm

end Ggnss
