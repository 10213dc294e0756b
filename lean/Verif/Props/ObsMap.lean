import Verif.Model.ObsRead
import Verif.Spec.ObsFile
import Mathlib.Data.List.Forall2
/-!
# C38: requested observables and header columns
-/
namespace Ggnss

theorem findIdx_first {codes : List ObsCode} {code : ObsCode} (h : code ∈ codes) :
    FirstCol codes code (codes.findIdx (fun c => decide (c = code))) ∧ codes.findIdx (fun c => decide (c = code)) < codes.length := by
  have hlt : codes.findIdx (fun c => decide (c = code)) < codes.length :=
    List.findIdx_lt_length_of_exists ⟨code, h, by simp⟩
  refine ⟨⟨?_, ?_⟩, hlt⟩
  · have := List.findIdx_getElem (w := hlt)
    rw [List.getElem?_eq_getElem hlt]
    simpa using this
  · intro j hj he
    have := List.not_of_lt_findIdx hj
    rw [List.getElem?_eq_getElem (by omega)] at he
    simp at he this
    exact this he

theorem findIdx_none {codes : List ObsCode} {code : ObsCode} (h : code ∉ codes) :
    codes.findIdx (fun c => decide (c = code)) = codes.length := by
  apply List.findIdx_eq_length_of_false
  intro x hx
  simp only [decide_eq_false_iff_not]
  rintro rfl; exact h hx

theorem FirstCol.unique {codes : List ObsCode} {code : ObsCode} {i j : Nat} (hi : FirstCol codes code i) (hj : FirstCol codes code j) :
    i = j := by
  rcases Nat.lt_trichotomy i j with h | h | h
  · exact absurd hi.1 (hj.2 i h)
  · exact h
  · exact absurd hj.1 (hi.2 j h)

/-- The loop over the parts, with what is already collected. -/
theorem getterLoop_ok {codes : List ObsCode} {sys : SatSys} : ∀ (ps : List ObsPart) (acc : IdPairs),
    (∀ p ∈ ps, p.type.sys = sys ∧ p.type.code ∈ codes) →
    ∃ out, getterLoop codes sys ps acc = (acc ++ out, 0) ∧
      List.Forall₂ (fun (p : ObsPart) (pr : Nat × Rat) => FirstCol codes p.type.code pr.1 ∧ pr.2 = p.coef) ps out := by
  intro ps
  induction ps with
  | nil => intro acc _; exact ⟨[], by simp [getterLoop], .nil⟩
  | cons p ps ih =>
    intro acc h
    obtain ⟨h1, h2⟩ := h p (by simp)
    obtain ⟨f1, f2⟩ := findIdx_first h2
    obtain ⟨out, e1, e2⟩ := ih (acc ++ [(codes.findIdx (fun c => decide (c = p.type.code)), p.coef)]) (fun q hq => h q (by simp [hq]))
    refine ⟨(codes.findIdx (fun c => decide (c = p.type.code)), p.coef) :: out, ?_, .cons ⟨f1, rfl⟩ e2⟩
    unfold getterLoop
    rw [if_neg (by simp [h1])]
    simp only
    rw [if_neg (by omega), e1]
    simp

theorem getterLoop_bad {codes : List ObsCode} {sys : SatSys} : ∀ (ps : List ObsPart) (acc : IdPairs),
    ¬ (∀ p ∈ ps, p.type.sys = sys ∧ p.type.code ∈ codes) →
    getterLoop codes sys ps acc = ([], -2) ∨ getterLoop codes sys ps acc = ([], 1) := by
  intro ps
  induction ps with
  | nil => intro acc h; simp at h
  | cons p ps ih =>
    intro acc h
    unfold getterLoop
    by_cases h1 : p.type.sys = sys
    · rw [if_neg (by simp [h1])]
      simp only
      by_cases h2 : p.type.code ∈ codes
      · rw [if_neg (by have := (findIdx_first h2).2; omega)]
        apply ih
        intro h'; apply h
        intro q hq
        rcases List.mem_cons.1 hq with rfl | hq
        · exact ⟨h1, h2⟩
        · exact h' q hq
      · rw [if_pos (findIdx_none h2)]; exact Or.inl rfl
    · rw [if_pos h1]; exact Or.inr rfl

/-- All parts of one system: only a missing code can go wrong. -/
theorem getterLoop_pure {codes : List ObsCode} {sys : SatSys} : ∀ (ps : List ObsPart) (acc : IdPairs),
    (∀ p ∈ ps, p.type.sys = sys) → ¬ (∀ p ∈ ps, p.type.sys = sys ∧ p.type.code ∈ codes) →
    getterLoop codes sys ps acc = ([], -2) := by
  intro ps
  induction ps with
  | nil => intro acc _ h; simp at h
  | cons p ps ih =>
    intro acc hs h
    have h1 := hs p (by simp)
    unfold getterLoop
    rw [if_neg (by simp [h1])]
    simp only
    by_cases h2 : p.type.code ∈ codes
    · rw [if_neg (by have := (findIdx_first h2).2; omega)]
      apply ih _ (fun q hq => hs q (by simp [hq]))
      intro h'; apply h
      intro q hq
      rcases List.mem_cons.1 hq with rfl | hq
      · exact ⟨h1, h2⟩
      · exact h' q hq
    · rw [if_pos (findIdx_none h2)]

/-- A satisfiable observable (with at least one part) is resolved. -/
theorem obsGetter_ok {obst : ObsTypes} {k : SatSys} {o : Observable} (hne : o.vec ≠ []) (h : Satisfiable (codesOf obst k) k o) :
    ∃ prs, obsGetter obst o = .ok (prs, k, 0) ∧ ColumnsOf (codesOf obst k) o prs := by
  unfold obsGetter
  cases hv : o.vec with
  | nil => exact absurd hv hne
  | cons p ps =>
    simp only
    have hp := h p (by rw [hv]; simp)
    rw [hp.1]
    cases hl : obst.lookup k with
    | none =>
      exfalso
      have := hp.2
      simp [codesOf, hl] at this
    | some codes =>
      have hc : codesOf obst k = codes := by simp [codesOf, hl]
      rw [hc] at h ⊢
      obtain ⟨out, e1, e2⟩ := getterLoop_ok (sys := k) o.vec [] h
      rw [hv] at e1
      refine ⟨out, by simp [e1], ?_⟩
      unfold ColumnsOf
      exact e2

/-- An unsatisfiable one is not: the system is another one, or the status is not zero. -/
theorem obsGetter_bad {obst : ObsTypes} {k : SatSys} {o : Observable} (hne : o.vec ≠ []) (h : ¬ Satisfiable (codesOf obst k) k o) :
    ∃ prs s st, obsGetter obst o = .ok (prs, s, st) ∧ (s ≠ k ∨ st ≠ 0) ∧ ((∀ p ∈ o.vec, p.type.sys = k) → s = k ∧ st < 0) := by
  unfold obsGetter
  cases hv : o.vec with
  | nil => exact absurd hv hne
  | cons p ps =>
    simp only
    cases hl : obst.lookup p.type.sys with
    | none =>
      refine ⟨_, _, _, rfl, Or.inr (by decide), fun h' => ⟨h' p (by simp), by decide⟩⟩
    | some codes =>
      refine ⟨_, _, _, rfl, ?_, ?_⟩
      · by_cases hk : p.type.sys = k
        · right
          have hc : codesOf obst k = codes := by rw [← hk]; simp [codesOf, hl]
          rw [hc] at h
          rcases getterLoop_bad (codes := codes) (sys := p.type.sys) (p :: ps) []
            (by intro h'; apply h; intro q hq; rw [hv] at hq; rw [← hk]; exact h' q hq) with e | e <;> rw [e] <;> decide
        · exact Or.inl hk
      · intro h'
        have hk := h' p (by simp)
        refine ⟨hk, ?_⟩
        have hc : codesOf obst k = codes := by rw [← hk]; simp [codesOf, hl]
        rw [hc] at h
        rw [getterLoop_pure (p :: ps) [] (fun q hq => (h' q hq).trans hk.symm)
          (by intro h''; apply h; intro q hq; rw [hv] at hq; rw [← hk]; exact h'' q hq)]
        decide

/-- The inner loop, when it does not give up. -/
theorem readMapSys_run {obst : ObsTypes} {skip : Bool} {k : SatSys} : ∀ (todo kept : List Observable) (out : List IdPairs),
    (∀ o ∈ todo, o.vec ≠ []) → ∀ r, readMapSys obst skip k todo kept out = .ok r →
    (∃ v, r = .inl v ∧ ∃ o ∈ todo, ¬ Satisfiable (codesOf obst k) k o) ∨
    ∃ new, r = .inr (kept ++ todo.filter (fun o => decide (Satisfiable (codesOf obst k) k o)), out ++ new) ∧
      List.Forall₂ (ColumnsOf (codesOf obst k)) (todo.filter (fun o => decide (Satisfiable (codesOf obst k) k o))) new ∧
      (skip = false → ∀ o ∈ todo, Satisfiable (codesOf obst k) k o) := by
  intro todo
  induction todo with
  | nil =>
    intro kept out _ r h
    right
    simp [readMapSys] at h
    exact ⟨[], by simp [← h], by simp, by simp⟩
  | cons o todo ih =>
    intro kept out hne r h
    unfold readMapSys at h
    by_cases hs : Satisfiable (codesOf obst k) k o
    · obtain ⟨prs, e1, e2⟩ := obsGetter_ok (hne o (by simp)) hs
      rw [e1, Res.bind_ok] at h
      simp only [ne_eq, not_true_eq_false, false_or, gt_iff_lt, Int.lt_irrefl, if_false, if_true] at h
      rcases ih _ _ (fun x hx => hne x (by simp [hx])) r h with ⟨v, h1, x, h2, h3⟩ | ⟨new, h1, h2, h3⟩
      · exact Or.inl ⟨v, h1, x, by simp [h2], h3⟩
      · right
        refine ⟨prs :: new, ?_, ?_, ?_⟩
        · rw [h1, List.filter_cons, if_pos (by simpa using hs)]; simp
        · rw [List.filter_cons, if_pos (by simpa using hs)]; exact .cons e2 h2
        · intro hsk x hx
          rcases List.mem_cons.1 hx with rfl | hx
          · exact hs
          · exact h3 hsk x hx
    · obtain ⟨prs, s, st, e1, e2, e3⟩ := obsGetter_bad (hne o (by simp)) hs
      rw [e1, Res.bind_ok] at h
      simp only at h
      split at h
      · left; simp at h; exact ⟨_, h.symm, o, by simp, hs⟩
      · rename_i hn
        push Not at hn
        rw [if_neg (by rcases e2 with e2 | e2; exact absurd hn.1 e2; exact e2)] at h
        split at h
        · rename_i hsk
          rcases ih _ _ (fun x hx => hne x (by simp [hx])) r h with ⟨v, h1, x, h2, h3⟩ | ⟨new, h1, h2, h3⟩
          · exact Or.inl ⟨v, h1, x, by simp [h2], h3⟩
          · right
            refine ⟨new, ?_, ?_, ?_⟩
            · rw [h1, List.filter_cons, if_neg (by simpa using hs)]
            · rw [List.filter_cons, if_neg (by simpa using hs)]; exact h2
            · intro hf; rw [hsk] at hf; cases hf
        · left; simp at h; exact ⟨_, h.symm, o, by simp, hs⟩

theorem obsGetter_total {obst : ObsTypes} {o : Observable} (hne : o.vec ≠ []) : ∃ r, obsGetter obst o = .ok r := by
  unfold obsGetter
  cases hv : o.vec with
  | nil => exact absurd hv hne
  | cons p ps => simp only; split <;> exact ⟨_, rfl⟩

theorem readMapSys_total {obst : ObsTypes} {skip : Bool} {k : SatSys} : ∀ (todo kept : List Observable) (out : List IdPairs),
    (∀ o ∈ todo, o.vec ≠ []) → ∃ r, readMapSys obst skip k todo kept out = .ok r := by
  intro todo
  induction todo with
  | nil => intro kept out _; exact ⟨_, rfl⟩
  | cons o todo ih =>
    intro kept out hne
    obtain ⟨g, hg⟩ := obsGetter_total (obst := obst) (hne o (by simp))
    unfold readMapSys
    rw [hg, Res.bind_ok]
    have := fun a b => ih a b (fun x hx => hne x (by simp [hx]))
    split
    · exact ⟨_, rfl⟩
    · split
      · exact this _ _
      · split
        · exact this _ _
        · exact ⟨_, rfl⟩

/-- With `skip_missing`, or when nothing is missing, a request of single-system observables under
their own system is not refused. -/
theorem readMapSys_skip {obst : ObsTypes} {skip : Bool} {k : SatSys} : ∀ (todo kept : List Observable) (out : List IdPairs),
    (∀ o ∈ todo, o.vec ≠ []) → (∀ o ∈ todo, Satisfiable (codesOf obst k) k o ∨ (skip = true ∧ ∀ p ∈ o.vec, p.type.sys = k)) →
    ∃ r, readMapSys obst skip k todo kept out = .ok (.inr r) := by
  intro todo
  induction todo with
  | nil => intro kept out _ _; exact ⟨_, rfl⟩
  | cons o todo ih =>
    intro kept out hne hok
    unfold readMapSys
    have ih' := fun a b => ih a b (fun x hx => hne x (by simp [hx])) (fun x hx => hok x (by simp [hx]))
    by_cases hs : Satisfiable (codesOf obst k) k o
    · obtain ⟨prs, e1, e2⟩ := obsGetter_ok (hne o (by simp)) hs
      rw [e1, Res.bind_ok]
      simp only [ne_eq, not_true_eq_false, false_or, gt_iff_lt, Int.lt_irrefl, if_false, if_true]
      exact ih' _ _
    · obtain ⟨prs, s, st, e1, e2, e3⟩ := obsGetter_bad (hne o (by simp)) hs
      rcases hok o (by simp) with h | ⟨h1, h2⟩
      · exact absurd h hs
      · obtain ⟨f1, f2⟩ := e3 h2
        rw [e1, Res.bind_ok, if_neg (by simp [f1]; omega), if_neg (by simp; omega), if_pos h1]
        exact ih' _ _

/-- The observables of a request that can be formed, system by system. -/
def keptRequests (obst : ObsTypes) (req : ReqMap) : ReqMap :=
  req.map (fun e => (e.1, e.2.filter (fun o => decide (Satisfiable (codesOf obst e.1) e.1 o))))

/-- What the read map must be for a request: the systems of the request with at least one observable,
in order, each with the columns of its observables, one to one. -/
def MapFor (obst : ObsTypes) (req : ReqMap) (m : ReadMap) : Prop :=
  List.Forall₂ (fun (e : SatSys × List Observable) (r : SatSys × List IdPairs) =>
    e.1 = r.1 ∧ List.Forall₂ (ColumnsOf (codesOf obst e.1)) e.2 r.2) (req.filter (fun e => decide (e.2 ≠ []))) m

theorem readMapLoop_run {obst : ObsTypes} {skip : Bool} : ∀ (todo done : ReqMap) (res : ReadMap),
    (∀ e ∈ todo, ∀ o ∈ e.2, o.vec ≠ []) → MapFor obst done res → (∀ e ∈ res, e.2 ≠ []) →
    ∃ m req', readMapLoop obst skip todo done res = .ok (m, req') ∧
      ((m = [] ∧ ∃ e ∈ todo, ∃ o ∈ e.2, ¬ Satisfiable (codesOf obst e.1) e.1 o) ∨
       (req' = done ++ keptRequests obst todo ∧ MapFor obst req' m ∧
        (skip = false → ∀ e ∈ todo, ∀ o ∈ e.2, Satisfiable (codesOf obst e.1) e.1 o))) := by
  intro todo
  induction todo with
  | nil =>
    intro done res _ h hne
    refine ⟨_, _, rfl, Or.inr ⟨by simp [keptRequests], ?_, by simp⟩⟩
    rw [List.filter_eq_self.2]
    · exact h
    · intro e he
      have := hne e he
      simp [this]
  | cons e todo ih =>
    intro done res hv h hne
    obtain ⟨k, v⟩ := e
    have hv' := hv (k, v) (by simp)
    obtain ⟨r, hr⟩ := readMapSys_total (obst := obst) (skip := skip) (k := k) v [] [] hv'
    unfold readMapLoop
    rw [hr, Res.bind_ok]
    rcases readMapSys_run v [] [] hv' r hr with ⟨v', rfl, o, ho, hns⟩ | ⟨new, rfl, e2, e3⟩
    · exact ⟨_, _, rfl, Or.inl ⟨rfl, (k, v), by simp, o, ho, hns⟩⟩
    · simp only [List.nil_append]
      generalize hK : v.filter (fun o => decide (Satisfiable (codesOf obst k) k o)) = K at *
      have hlen := e2.length_eq
      have hm' : MapFor obst (done ++ [(k, K)]) (if new = [] then res else res ++ [(k, new)]) := by
        unfold MapFor at h ⊢
        rw [List.filter_append]
        by_cases hnew : new = []
        · have hK0 : K = [] := by rw [hnew] at hlen; exact List.length_eq_zero_iff.1 (by simpa using hlen)
          rw [if_pos hnew, hK0]
          simpa using h
        · have hK0 : K ≠ [] := by
            intro h0; rw [h0] at hlen; exact hnew (List.length_eq_zero_iff.1 (by simpa using hlen.symm))
          rw [if_neg hnew]
          apply List.rel_append h
          simp only [List.filter_cons, hK0, ne_eq, not_false_eq_true, decide_true, if_true, List.filter_nil]
          exact .cons ⟨rfl, e2⟩ .nil
      have hne' : ∀ e ∈ (if new = [] then res else res ++ [(k, new)]), e.2 ≠ [] := by
        intro e he
        split at he
        · exact hne e he
        · rename_i hn
          rcases List.mem_append.1 he with he | he
          · exact hne e he
          · simp at he; rw [he]; exact hn
      obtain ⟨m, req', h1, h2⟩ := ih (done ++ [(k, K)]) _ (fun e he => hv e (by simp [he])) hm' hne'
      refine ⟨m, req', h1, ?_⟩
      rcases h2 with ⟨rfl, e, he, hx⟩ | ⟨h3, h4, h5⟩
      · exact Or.inl ⟨rfl, e, by simp [he], hx⟩
      · right
        refine ⟨?_, h4, ?_⟩
        · rw [h3]; simp only [keptRequests, List.map_cons, hK, List.append_assoc, List.singleton_append]
        · intro hs e he
          rcases List.mem_cons.1 he with rfl | he
          · exact e3 hs
          · exact h5 hs e he

/-- **C38** (any request).  Whatever is requested (observables with at least one part), the call ends
normally and the returned map is either empty, and then some observable could not be formed, or it
has exactly the columns of the observables that can be formed, one to one and in order, the request
having been reduced to these.  Without `skip_missing` a non-empty answer means that everything
could be formed. -/
theorem C38_any_request (obst : ObsTypes) (req : ReqMap) (skip : Bool) (hreq : ∀ e ∈ req, ∀ o ∈ e.2, o.vec ≠ []) :
    ∃ m req', setReadMap obst req skip = .ok (m, req') ∧
      ((m = [] ∧ ∃ e ∈ req, ∃ o ∈ e.2, ¬ Satisfiable (codesOf obst e.1) e.1 o) ∨
       (req' = keptRequests obst req ∧ MapFor obst req' m ∧
        (skip = false → ∀ e ∈ req, ∀ o ∈ e.2, Satisfiable (codesOf obst e.1) e.1 o))) := by
  unfold setReadMap
  split
  · rename_i h; subst h
    exact ⟨[], [], rfl, Or.inr ⟨rfl, by simp [MapFor], by simp⟩⟩
  · obtain ⟨m, req', h1, h2⟩ := readMapLoop_run (obst := obst) (skip := skip) req [] [] hreq (by simp [MapFor]) (by simp)
    exact ⟨m, req', h1, by simpa using h2⟩

theorem keptRequests_all {obst : ObsTypes} {req : ReqMap} (h : ∀ e ∈ req, ∀ o ∈ e.2, Satisfiable (codesOf obst e.1) e.1 o) :
    keptRequests obst req = req := by
  unfold keptRequests
  conv_rhs => rw [← List.map_id req]
  apply List.map_congr_left
  intro e he
  rw [List.filter_eq_self.2 (fun o ho => by simpa using h e he o ho)]
  rfl

theorem readMapLoop_skip {obst : ObsTypes} {skip : Bool} : ∀ (todo done : ReqMap) (res : ReadMap),
    (∀ e ∈ todo, ∀ o ∈ e.2, o.vec ≠ []) → MapFor obst done res → (∀ e ∈ res, e.2 ≠ []) →
    (∀ e ∈ todo, ∀ o ∈ e.2, Satisfiable (codesOf obst e.1) e.1 o ∨ (skip = true ∧ ∀ p ∈ o.vec, p.type.sys = e.1)) →
    ∃ m, readMapLoop obst skip todo done res = .ok (m, done ++ keptRequests obst todo) ∧ MapFor obst (done ++ keptRequests obst todo) m := by
  intro todo
  induction todo with
  | nil =>
    intro done res _ h hne _
    refine ⟨res, ?_, by simpa [keptRequests] using h⟩
    unfold readMapLoop
    rw [List.filter_eq_self.2]
    · simp [keptRequests]
    · intro e he
      have := hne e he
      simp [this]
  | cons e todo ih =>
    intro done res hv h hne hok
    obtain ⟨k, v⟩ := e
    have hv' := hv (k, v) (by simp)
    obtain ⟨r, hr⟩ := readMapSys_skip (obst := obst) (skip := skip) (k := k) v [] [] hv' (hok (k, v) (by simp))
    unfold readMapLoop
    rw [hr, Res.bind_ok]
    rcases readMapSys_run v [] [] hv' _ hr with ⟨v', hx, _⟩ | ⟨new, hx, e2, e3⟩
    · cases hx
    · simp only [Sum.inr.injEq, List.nil_append] at hx
      subst hx
      simp only
      generalize hK : v.filter (fun o => decide (Satisfiable (codesOf obst k) k o)) = K at *
      have hlen := e2.length_eq
      have hm' : MapFor obst (done ++ [(k, K)]) (if new = [] then res else res ++ [(k, new)]) := by
        unfold MapFor at h ⊢
        rw [List.filter_append]
        by_cases hnew : new = []
        · have hK0 : K = [] := by rw [hnew] at hlen; exact List.length_eq_zero_iff.1 (by simpa using hlen)
          rw [if_pos hnew, hK0]
          simpa using h
        · have hK0 : K ≠ [] := by
            intro h0; rw [h0] at hlen; exact hnew (List.length_eq_zero_iff.1 (by simpa using hlen.symm))
          rw [if_neg hnew]
          apply List.rel_append h
          simp only [List.filter_cons, hK0, ne_eq, not_false_eq_true, decide_true, if_true, List.filter_nil]
          exact .cons ⟨rfl, e2⟩ .nil
      have hne' : ∀ e ∈ (if new = [] then res else res ++ [(k, new)]), e.2 ≠ [] := by
        intro e he
        split at he
        · exact hne e he
        · rename_i hn
          rcases List.mem_append.1 he with he | he
          · exact hne e he
          · simp at he; rw [he]; exact hn
      obtain ⟨m, h1, h2⟩ := ih (done ++ [(k, K)]) _ (fun e he => hv e (by simp [he])) hm' hne' (fun e he => hok e (by simp [he]))
      refine ⟨m, ?_, ?_⟩
      · rw [h1]; simp only [keptRequests, List.map_cons, hK, List.append_assoc, List.singleton_append]
      · simpa only [keptRequests, List.map_cons, hK, List.append_assoc, List.singleton_append] using h2

/-- **C38**.  When every requested observable is of its system and its codes are in the header, the
map has one entry per requested system, in order, and in it one column list per requested
observable, in order: the first header column of each part with the part's coefficient.  The
request is left alone.  (`skip_missing` does not matter.) -/
theorem C38_all_present (obst : ObsTypes) (req : ReqMap) (skip : Bool) (hreq : ∀ e ∈ req, ∀ o ∈ e.2, o.vec ≠ [])
    (hs : ∀ e ∈ req, ∀ o ∈ e.2, Satisfiable (codesOf obst e.1) e.1 o) :
    ∃ m, setReadMap obst req skip = .ok (m, req) ∧ MapFor obst req m := by
  unfold setReadMap
  split
  · rename_i h; subst h; exact ⟨[], rfl, by simp [MapFor]⟩
  · obtain ⟨m, h1, h2⟩ := readMapLoop_skip (obst := obst) (skip := skip) req [] [] hreq (by simp [MapFor]) (by simp)
      (fun e he o ho => Or.inl (hs e he o ho))
    rw [keptRequests_all hs] at h1 h2
    exact ⟨m, h1, h2⟩

/-- **C38**, `skip_missing = true`: exactly the observables that can be formed survive, in order, and
the map is that of the surviving ones. -/
theorem C38_skip_missing (obst : ObsTypes) (req : ReqMap) (hreq : ∀ e ∈ req, ∀ o ∈ e.2, o.vec ≠ [])
    (hs : ∀ e ∈ req, ∀ o ∈ e.2, ∀ p ∈ o.vec, p.type.sys = e.1) :
    ∃ m, setReadMap obst req true = .ok (m, keptRequests obst req) ∧ MapFor obst (keptRequests obst req) m := by
  unfold setReadMap
  split
  · rename_i h; subst h; exact ⟨[], rfl, by simp [MapFor, keptRequests]⟩
  · obtain ⟨m, h1, h2⟩ := readMapLoop_skip (obst := obst) (skip := true) req [] [] hreq (by simp [MapFor]) (by simp)
      (fun e he o ho => Or.inr ⟨rfl, hs e he o ho⟩)
    exact ⟨m, h1, h2⟩

/-- **C38**, `skip_missing = false`: when some observable cannot be formed (for whatever reason), the
answer is the empty map. -/
theorem C38_missing_refused (obst : ObsTypes) (req : ReqMap) (hreq : ∀ e ∈ req, ∀ o ∈ e.2, o.vec ≠ [])
    (hmiss : ∃ e ∈ req, ∃ o ∈ e.2, ¬ Satisfiable (codesOf obst e.1) e.1 o) :
    ∃ req', setReadMap obst req false = .ok ([], req') := by
  obtain ⟨m, req', h1, h2 | h2⟩ := C38_any_request obst req false hreq
  · rw [h2.1] at h1; exact ⟨_, h1⟩
  · obtain ⟨e, he, o, ho, hn⟩ := hmiss
    exact absurd (h2.2.2 rfl e he o ho) hn

/-- **C38**: an observable requested under another system than that of its first part makes the answer
empty, with and without `skip_missing`. -/
theorem C38_wrong_system_refused (obst : ObsTypes) (req : ReqMap) (skip : Bool) (hreq : ∀ e ∈ req, ∀ o ∈ e.2, o.vec ≠ [])
    (hw : ∃ e ∈ req, ∃ o ∈ e.2, ∃ p ps, o.vec = p :: ps ∧ p.type.sys ≠ e.1) :
    ∃ req', setReadMap obst req skip = .ok ([], req') := by
  have inner : ∀ (k : SatSys) (todo kept : List Observable) (out : List IdPairs), (∀ o ∈ todo, o.vec ≠ []) →
      (∃ o ∈ todo, ∃ p ps, o.vec = p :: ps ∧ p.type.sys ≠ k) → ∃ v, readMapSys obst skip k todo kept out = .ok (.inl v) := by
    intro k todo
    induction todo with
    | nil => rintro kept out _ ⟨o, ho, _⟩; simp at ho
    | cons x todo ih =>
      rintro kept out hne ⟨o, ho, p, ps, hv, hk⟩
      unfold readMapSys
      by_cases hx : ∃ p ps, x.vec = p :: ps ∧ p.type.sys ≠ k
      · obtain ⟨q, qs, hq, hqk⟩ := hx
        have : ∃ prs st, obsGetter obst x = .ok (prs, q.type.sys, st) := by
          unfold obsGetter; rw [hq]; simp only; split <;> exact ⟨_, _, rfl⟩
        obtain ⟨prs, st, e⟩ := this
        rw [e, Res.bind_ok, if_pos (Or.inl hqk)]
        exact ⟨_, rfl⟩
      · have ho' : o ∈ todo := by
          rcases List.mem_cons.1 ho with rfl | h
          · exact absurd ⟨p, ps, hv, hk⟩ hx
          · exact h
        have ih' := fun a b => ih a b (fun y hy => hne y (by simp [hy])) ⟨o, ho', p, ps, hv, hk⟩
        obtain ⟨g, hg⟩ := obsGetter_total (obst := obst) (hne x (by simp))
        rw [hg, Res.bind_ok]
        split
        · exact ⟨_, rfl⟩
        · split
          · exact ih' _ _
          · split
            · exact ih' _ _
            · exact ⟨_, rfl⟩
  have outer : ∀ (todo done : ReqMap) (res : ReadMap), (∀ e ∈ todo, ∀ o ∈ e.2, o.vec ≠ []) →
      (∃ e ∈ todo, ∃ o ∈ e.2, ∃ p ps, o.vec = p :: ps ∧ p.type.sys ≠ e.1) →
      ∃ r, readMapLoop obst skip todo done res = .ok ([], r) := by
    intro todo
    induction todo with
    | nil => rintro done res _ ⟨e, he, _⟩; simp at he
    | cons e todo ih =>
      rintro done res hne ⟨x, hx, hbad⟩
      obtain ⟨k, v⟩ := e
      unfold readMapLoop
      obtain ⟨r, hr⟩ := readMapSys_total (obst := obst) (skip := skip) (k := k) v [] [] (hne (k, v) (by simp))
      rw [hr, Res.bind_ok]
      cases r with
      | inl v' => exact ⟨_, rfl⟩
      | inr w =>
        rcases List.mem_cons.1 hx with rfl | hx
        · obtain ⟨v', hv'⟩ := inner k v [] [] (hne (k, v) (by simp)) hbad
          rw [hr] at hv'; cases hv'
        · exact ih _ _ (fun e he => hne e (by simp [he])) ⟨x, hx, hbad⟩
  unfold setReadMap
  split
  · rename_i h; subst h; obtain ⟨e, he, _⟩ := hw; simp at he
  · exact outer req [] [] hreq hw

end Ggnss
