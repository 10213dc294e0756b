import Verif.Model.Life
import Mathlib.Data.Finset.Card
import Mathlib.Data.List.Dedup
/-!
# C69: the buffer of an observation reader is freed exactly once
-/
namespace Ggnss

/-! ## Specification -/

/-- The history of a program that has `n` objects before and none at its end: every object named exists. -/
def LifeOK : Nat → List LifeOp → Prop
  | n, [] => n = 0
  | n, .construct :: ops => LifeOK (n + 1) ops
  | n, .constructFails :: ops => LifeOK n ops
  | n, .moveConstruct src :: ops => src < n ∧ LifeOK (n + 1) ops
  | n, .moveAssign dst src :: ops => dst < n ∧ src < n ∧ LifeOK n ops
  | n, .destroy i :: ops => i < n ∧ LifeOK (n - 1) ops

/-- No object is ever moved to another one. -/
def NeverMoved (ops : List LifeOp) : Prop :=
  (∀ i, LifeOp.moveConstruct i ∉ ops) ∧ ∀ i j, LifeOp.moveAssign i j ∈ ops → i = j

/-- The program frees every buffer exactly once. -/
def FreesAll (ops : List LifeOp) : Prop := ∃ s, lifeRun lifeStart ops = some (.ok s) ∧ s.live = []

/-! ## Proof -/

/-- Objects hold different allocated buffers, and every allocated buffer belongs to an object. -/
structure LifeInv (s : LifeState) : Prop where
  nodup : s.objs.Nodup
  held : ∀ p, p ∈ s.objs ↔ p ∈ s.live
  liveNodup : s.live.Nodup
  fresh : ∀ p ∈ s.live, p < s.next

theorem LifeInv.start : LifeInv lifeStart := ⟨by simp [lifeStart], by simp [lifeStart], by simp [lifeStart], by simp [lifeStart]⟩

theorem LifeInv.construct {s : LifeState} (h : LifeInv s) : LifeInv ⟨s.next :: s.live, s.next + 1, s.objs ++ [s.next]⟩ := by
  have hn : s.next ∉ s.live := fun hm => absurd (h.fresh _ hm) (Nat.lt_irrefl _)
  refine ⟨?_, ?_, ?_, ?_⟩
  · simp only [List.nodup_append, List.nodup_cons, List.not_mem_nil, not_false_eq_true, List.nodup_nil, and_self, List.mem_singleton,
      true_and]
    refine ⟨h.nodup, ?_⟩
    rintro a ha b rfl rfl
    exact hn ((h.held _).1 ha)
  · intro p; simp [h.held p, or_comm]
  · exact List.nodup_cons.2 ⟨hn, h.liveNodup⟩
  · intro p hp
    rcases List.mem_cons.1 hp with rfl | hp
    · exact Nat.lt_succ_self _
    · exact Nat.lt_succ_of_lt (h.fresh _ hp)

theorem mem_eraseIdx_nodup {l : List Nat} (hl : l.Nodup) {i : Nat} {p : Nat} (hi : l[i]? = some p) (q : Nat) :
    q ∈ l.eraseIdx i ↔ q ∈ l ∧ q ≠ p := by
  have hlt : i < l.length := (List.getElem?_eq_some_iff.1 hi).1
  have hp : l[i] = p := (List.getElem?_eq_some_iff.1 hi).2
  rw [List.mem_eraseIdx_iff_getElem]
  constructor
  · rintro ⟨j, hj, hne, rfl⟩
    refine ⟨List.getElem_mem _, ?_⟩
    rw [← hp]
    exact fun e => hne ((List.Nodup.getElem_inj_iff hl).1 e)
  · rintro ⟨hq, hne⟩
    obtain ⟨j, hj, rfl⟩ := List.mem_iff_getElem.1 hq
    refine ⟨j, hj, ?_, rfl⟩
    rintro rfl
    exact hne hp

theorem LifeInv.destroy {s : LifeState} (h : LifeInv s) {i p : Nat} (hi : s.objs[i]? = some p) :
    LifeInv { s with live := s.live.erase p, objs := s.objs.eraseIdx i } where
  nodup := h.nodup.sublist (List.eraseIdx_sublist _ _)
  held := by
    intro q
    rw [mem_eraseIdx_nodup h.nodup hi, h.liveNodup.mem_erase_iff, h.held q]
    exact and_comm
  liveNodup := h.liveNodup.erase _
  fresh := fun q hq => h.fresh q (List.mem_of_mem_erase hq)

theorem getElem?_of_lt {l : List Nat} {i : Nat} (h : i < l.length) : ∃ p, l[i]? = some p := ⟨l[i], List.getElem?_eq_getElem h⟩

theorem lifeRun_unmoved : ∀ (ops : List LifeOp) (s : LifeState), LifeInv s → LifeOK s.objs.length ops → NeverMoved ops →
    ∃ s', lifeRun s ops = some (.ok s') ∧ s'.live = []
  | [], s, h, hok, _ => by
      refine ⟨s, rfl, ?_⟩
      have : s.objs = [] := List.length_eq_zero_iff.1 hok
      refine List.eq_nil_iff_forall_not_mem.2 fun p hp => ?_
      have := (h.held p).2 hp
      simp_all
  | .construct :: ops, s, h, hok, hm => by
      refine lifeRun_unmoved ops _ h.construct ?_ ⟨fun i hi => hm.1 i (List.mem_cons_of_mem _ hi), fun i j hi => hm.2 i j (List.mem_cons_of_mem _ hi)⟩
      simpa using (show LifeOK (s.objs.length + 1) ops from hok)
  | .constructFails :: ops, s, h, hok, hm =>
      lifeRun_unmoved ops s h hok ⟨fun i hi => hm.1 i (List.mem_cons_of_mem _ hi), fun i j hi => hm.2 i j (List.mem_cons_of_mem _ hi)⟩
  | .moveConstruct src :: ops, s, h, hok, hm => absurd List.mem_cons_self (hm.1 src)
  | .moveAssign dst src :: ops, s, h, hok, hm => by
      obtain ⟨h1, h2, h3⟩ := hok
      obtain rfl := hm.2 _ _ List.mem_cons_self
      obtain ⟨p, hp⟩ := getElem?_of_lt h1
      have hset : s.objs.set dst p = s.objs := by
        apply List.ext_getElem?
        intro j
        rw [List.getElem?_set]
        split
        · rename_i e; subst e; rw [hp]
        · rfl
      have : lifeStep s (.moveAssign dst dst) = some (.ok s) := by
        simp only [lifeStep, hp, hset]
      simp only [lifeRun, this]
      exact lifeRun_unmoved ops s h h3 ⟨fun i hi => hm.1 i (List.mem_cons_of_mem _ hi), fun i j hi => hm.2 i j (List.mem_cons_of_mem _ hi)⟩
  | .destroy i :: ops, s, h, hok, hm => by
      obtain ⟨h1, h2⟩ := hok
      obtain ⟨p, hp⟩ := getElem?_of_lt h1
      have hl : p ∈ s.live := (h.held p).1 (List.mem_of_getElem? hp)
      simp only [lifeRun, lifeStep, hp, Option.map_some, if_pos hl]
      refine lifeRun_unmoved ops _ (h.destroy hp) ?_ ⟨fun i hi => hm.1 i (List.mem_cons_of_mem _ hi), fun i j hi => hm.2 i j (List.mem_cons_of_mem _ hi)⟩
      simpa [List.length_eraseIdx, h1] using h2

/-- Number of different allocated buffers held by objects. -/
def heldCount (s : LifeState) : Nat := (s.objs.toFinset.filter (· ∈ s.live)).card

theorem heldCount_le (s : LifeState) : heldCount s ≤ s.objs.length :=
  (Finset.card_filter_le _ _).trans (List.toFinset_card_le _)

theorem heldCount_dup {s : LifeState} {i j p : Nat} (hij : i ≠ j) (hi : s.objs[i]? = some p) (hj : s.objs[j]? = some p) :
    heldCount s < s.objs.length := by
  refine lt_of_le_of_lt (Finset.card_filter_le _ _) (lt_of_le_of_ne (List.toFinset_card_le _) ?_)
  intro h
  have hnd : s.objs.Nodup := by
    rw [List.card_toFinset] at h
    have := (List.dedup_sublist s.objs).eq_of_length h
    rw [← this]; exact List.nodup_dedup _
  have h1 := List.getElem?_eq_some_iff.1 hi
  have h2 := List.getElem?_eq_some_iff.1 hj
  exact hij ((List.Nodup.getElem_inj_iff hnd).1 (h1.2.trans h2.2.symm))

/-- Once two objects share a buffer, the program cannot end well. -/
theorem lifeRun_shared : ∀ (ops : List LifeOp) (s : LifeState), heldCount s < s.objs.length → LifeOK s.objs.length ops →
    (∀ p ∈ s.live, p < s.next) ∧ s.live.Nodup → lifeRun s ops = some .ub
  | [], s, h, hok, _ => by rw [show s.objs.length = 0 from hok] at h; omega
  | .construct :: ops, s, h, hok, hf => by
      refine lifeRun_shared ops ⟨s.next :: s.live, s.next + 1, s.objs ++ [s.next]⟩ ?_ (by simpa using (show LifeOK (s.objs.length + 1) ops from hok)) ⟨?_, ?_⟩
      · have : heldCount ⟨s.next :: s.live, s.next + 1, s.objs ++ [s.next]⟩ ≤ heldCount s + 1 := by
          unfold heldCount
          refine (Finset.card_le_card (t := insert s.next (s.objs.toFinset.filter (· ∈ s.live))) ?_).trans (Finset.card_insert_le _ _)
          intro q hq
          simp only [List.toFinset_append, List.toFinset_cons, List.toFinset_nil, Finset.mem_filter, Finset.mem_union, List.mem_toFinset,
            Finset.mem_insert, Finset.notMem_empty, or_false, List.mem_cons] at hq ⊢
          tauto
        simp only [List.length_append, List.length_cons, List.length_nil]
        omega
      · intro q hq
        rcases List.mem_cons.1 hq with rfl | hq
        · exact Nat.lt_succ_self _
        · exact Nat.lt_succ_of_lt (hf.1 _ hq)
      · exact List.nodup_cons.2 ⟨fun hm => absurd (hf.1 _ hm) (Nat.lt_irrefl _), hf.2⟩
  | .constructFails :: ops, s, h, hok, hf => lifeRun_shared ops s h hok hf
  | .moveConstruct src :: ops, s, h, hok, hf => by
      obtain ⟨p, hp⟩ := getElem?_of_lt hok.1
      simp only [lifeRun, lifeStep, hp, Option.map_some]
      refine lifeRun_shared ops _ ?_ (by simpa using hok.2) hf
      have : heldCount { s with objs := s.objs ++ [p] } = heldCount s := by
        unfold heldCount
        congr 2
        ext q
        have := List.mem_of_getElem? hp
        simp only [List.toFinset_append, List.toFinset_cons, List.toFinset_nil, Finset.mem_union, List.mem_toFinset,
            Finset.mem_insert, Finset.notMem_empty, or_false]
        constructor
        · rintro (h | rfl) <;> assumption
        · exact Or.inl
      rw [this]
      simp only [List.length_append, List.length_cons, List.length_nil]
      omega
  | .moveAssign dst src :: ops, s, h, hok, hf => by
      obtain ⟨h1, h2, h3⟩ := hok
      obtain ⟨o, ho⟩ := getElem?_of_lt h1
      obtain ⟨p, hp⟩ := getElem?_of_lt h2
      simp only [lifeRun, lifeStep, ho, hp]
      refine lifeRun_shared ops _ ?_ (by simpa using h3) hf
      have : heldCount { s with objs := s.objs.set dst p } ≤ heldCount s := by
        unfold heldCount
        refine Finset.card_le_card (Finset.filter_subset_filter _ ?_)
        intro q hq
        rw [List.mem_toFinset] at hq ⊢
        rcases List.mem_or_eq_of_mem_set hq with h | rfl
        · exact h
        · exact List.mem_of_getElem? hp
      simp only [List.length_set]
      omega
  | .destroy i :: ops, s, h, hok, hf => by
      obtain ⟨h1, h2⟩ := hok
      obtain ⟨p, hp⟩ := getElem?_of_lt h1
      simp only [lifeRun, lifeStep, hp, Option.map_some]
      by_cases hl : p ∈ s.live
      · rw [if_pos hl]
        refine lifeRun_shared ops _ ?_ (by simpa [List.length_eraseIdx, h1] using h2) ⟨fun q hq => hf.1 q (List.mem_of_mem_erase hq),
          hf.2.erase _⟩
        have hmem : p ∈ s.objs.toFinset.filter (· ∈ s.live) := by
          simp [List.mem_of_getElem? hp, hl]
        have : heldCount { s with live := s.live.erase p, objs := s.objs.eraseIdx i } + 1 ≤ heldCount s := by
          unfold heldCount
          rw [← Finset.card_erase_add_one hmem]
          refine Nat.add_le_add_right (Finset.card_le_card ?_) 1
          intro q hq
          simp only [Finset.mem_filter, List.mem_toFinset, Finset.mem_erase] at hq ⊢
          have := hf.2.mem_erase_iff.1 hq.2
          exact ⟨this.1, List.mem_of_mem_eraseIdx hq.1, this.2⟩
        simp only [List.length_eraseIdx, if_pos h1]
        omega
      · rw [if_neg hl]

theorem not_neverMoved_cons {op : LifeOp} {ops : List LifeOp} (h : ¬ NeverMoved (op :: ops)) :
    (∃ i, op = .moveConstruct i) ∨ (∃ i j, i ≠ j ∧ op = .moveAssign i j) ∨ ¬ NeverMoved ops := by
  by_contra hc
  push Not at hc
  obtain ⟨h1, h2, h3⟩ := hc
  refine h ⟨?_, ?_⟩
  · intro i hi
    rcases List.mem_cons.1 hi with e | hi
    · exact h1 i e.symm
    · exact h3.1 i hi
  · intro i j hi
    rcases List.mem_cons.1 hi with e | hi
    · by_contra hne
      exact h2 i j hne e.symm
    · exact h3.2 i j hi

theorem lifeRun_moved : ∀ (ops : List LifeOp) (s : LifeState), LifeInv s → LifeOK s.objs.length ops → ¬ NeverMoved ops →
    lifeRun s ops = some .ub
  | [], s, h, hok, hm => absurd ⟨by simp, by simp⟩ hm
  | .construct :: ops, s, h, hok, hm => by
      rcases not_neverMoved_cons hm with ⟨_, e⟩ | ⟨_, _, _, e⟩ | hm
      · cases e
      · cases e
      · exact lifeRun_moved ops _ h.construct (by simpa using (show LifeOK (s.objs.length + 1) ops from hok)) hm
  | .constructFails :: ops, s, h, hok, hm => by
      rcases not_neverMoved_cons hm with ⟨_, e⟩ | ⟨_, _, _, e⟩ | hm
      · cases e
      · cases e
      · exact lifeRun_moved ops s h hok hm
  | .moveConstruct src :: ops, s, h, hok, hm => by
      obtain ⟨p, hp⟩ := getElem?_of_lt hok.1
      simp only [lifeRun, lifeStep, hp, Option.map_some]
      refine lifeRun_shared ops _ ?_ (by simpa using hok.2) ⟨h.fresh, h.liveNodup⟩
      refine heldCount_dup (i := src) (j := s.objs.length) (p := p) (Nat.ne_of_lt hok.1) ?_ ?_
      · simp only; rw [List.getElem?_append_left hok.1, hp]
      · simp
  | .moveAssign dst src :: ops, s, h, hok, hm => by
      obtain ⟨h1, h2, h3⟩ := hok
      obtain ⟨o, ho⟩ := getElem?_of_lt h1
      obtain ⟨p, hp⟩ := getElem?_of_lt h2
      by_cases hne : dst = src
      · subst hne
        have hset : s.objs.set dst p = s.objs := by
          apply List.ext_getElem?
          intro j
          rw [List.getElem?_set]
          split
          · rename_i e; subst e; rw [hp]
          · rfl
        have e : lifeStep s (.moveAssign dst dst) = some (.ok s) := by simp only [lifeStep, hp, hset]
        simp only [lifeRun, e]
        rcases not_neverMoved_cons hm with ⟨_, e⟩ | ⟨i, j, hij, e⟩ | hm
        · cases e
        · cases e; exact absurd rfl hij
        · exact lifeRun_moved ops s h h3 hm
      · simp only [lifeRun, lifeStep, ho, hp]
        refine lifeRun_shared ops _ ?_ (by simpa using h3) ⟨h.fresh, h.liveNodup⟩
        refine heldCount_dup (i := dst) (j := src) (p := p) hne ?_ ?_
        · simp [h1]
        · simp only; rw [List.getElem?_set_ne hne, hp]
  | .destroy i :: ops, s, h, hok, hm => by
      obtain ⟨h1, h2⟩ := hok
      obtain ⟨p, hp⟩ := getElem?_of_lt h1
      have hl : p ∈ s.live := (h.held p).1 (List.mem_of_getElem? hp)
      simp only [lifeRun, lifeStep, hp, Option.map_some, if_pos hl]
      rcases not_neverMoved_cons hm with ⟨_, e⟩ | ⟨_, _, _, e⟩ | hm
      · cases e
      · cases e
      · exact lifeRun_moved ops _ (h.destroy hp) (by simpa [List.length_eraseIdx, h1] using h2) hm

/-- **C69 (partial)**: a program that moves no reader to another one frees every buffer exactly once.  Missing: programs that move
readers, although the class offers it: see `C69_moved_freed_twice`. -/
theorem C69_freed_once_partial (ops : List LifeOp) (h : LifeOK 0 ops) (hm : NeverMoved ops) : FreesAll ops :=
  lifeRun_unmoved ops lifeStart LifeInv.start h hm

/-- **C69, counterexamples**: every program that constructs a reader by moving another one, or assigns a reader by moving
another one, is undefined: some buffer is freed twice. -/
theorem C69_moved_freed_twice (ops : List LifeOp) (h : LifeOK 0 ops) (hm : ¬ NeverMoved ops) : lifeRun lifeStart ops = some .ub :=
  lifeRun_moved ops lifeStart LifeInv.start h hm

/-- **C69, exact**: the programs that free every buffer exactly once are those that move no reader to another one. -/
theorem C69_iff (ops : List LifeOp) (h : LifeOK 0 ops) : FreesAll ops ↔ NeverMoved ops := by
  refine ⟨fun ⟨s, h1, _⟩ => ?_, C69_freed_once_partial ops h⟩
  by_contra hm
  rw [C69_moved_freed_twice ops h hm] at h1
  cases h1

/-- Two readers, one of them after a failed attempt. -/
example : LifeOK 0 [.construct, .constructFails, .construct, .destroy 0, .destroy 0] ∧
    NeverMoved [.construct, .constructFails, .construct, .destroy 0, .destroy 0] := by
  refine ⟨by simp [LifeOK], by simp [NeverMoved]⟩

/-- A reader returned from a function by moving it. -/
example : lifeRun lifeStart [.construct, .moveConstruct 0, .destroy 0, .destroy 0] = some .ub :=
  C69_moved_freed_twice _ (by simp [LifeOK]) (by simp [NeverMoved])

end Ggnss
