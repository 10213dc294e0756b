import Verif.Model.Pp
import Verif.Spec.Pp
import Verif.Props.NavAny
/-!
# C63: messages used by the positioning program are in force
-/
namespace Ggnss
open NavItem

theorem first_split {α : Type} (P : α → Prop) (l : List α) :
    (∀ x ∈ l, ¬ P x) ∨ ∃ pre x post, l = pre ++ x :: post ∧ P x ∧ ∀ y ∈ pre, ¬ P y := by
  induction l with
  | nil => exact Or.inl (by simp)
  | cons a l ih =>
    by_cases h : P a
    · exact Or.inr ⟨[], a, l, rfl, h, by simp⟩
    · rcases ih with ih | ⟨pre, x, post, h1, h2, h3⟩
      · exact Or.inl (by simpa using ⟨h, ih⟩)
      · exact Or.inr ⟨a :: pre, x, post, by simp [h1], h2, by simpa using ⟨h, h3⟩⟩

/-- One search of the whole file, from a position `s` in front of its records. -/
theorem findNextValid_file {dateOf : List Char → Res DateTime} (junk : Nat → List Char) (fuel : Nat) (t : Int)
    {sys : SatSys} (prn : Int) {f : NavFrame} {s : Stream} {rs : List NavItem} (hs : Handled sys)
    (hg : s.good = true) (hrest : s.rest = fileText rs) (hl : f.data.length = 31) (hok : NavFileOK dateOf rs)
    (hfuel : rs.length < fuel) :
    ∃ st f' s', findNextValid dateOf junk fuel t sys prn f s 0 = .ok (some s.pos, ⟨st, f', s', 0⟩) ∧
      (∀ e, navRewind e s' (some s.pos) = s) ∧
      ((st = 0 ∧ ∃ r ∈ rs, r.Of sys prn ∧ r.ValidAt t ∧ Carries f' r) ∨ (st = -1 ∧ NoneBefore rs sys prn t)) := by
  have passed : ∀ p ∈ rs, ¬ (p.Of sys prn ∧ (p.TooLate t ∨ p.ValidAt t)) → PassedValid dateOf t sys prn p := by
    intro p hp hn
    by_cases h : p.sys = sys
    · refine Or.inr ⟨h, hok.handled p hp (h ▸ hs), ?_⟩
      by_cases h2 : p.prn = prn
      · right
        constructor
        · exact fun hh => hn ⟨⟨h, h2⟩, Or.inl hh⟩
        · exact fun hh => hn ⟨⟨h, h2⟩, Or.inr hh⟩
      · exact Or.inl h2
    · exact Or.inl ⟨h, hok.block p hp⟩
  rcases first_split (fun p : NavItem => p.Of sys prn ∧ (p.TooLate t ∨ p.ValidAt t)) rs with hnone | ⟨pre, r, post, he, ⟨ho, hr⟩, hpre⟩
  · obtain ⟨f', s', h1, h2, h3, h4⟩ := C19_gives_up_eof dateOf junk fuel t sys prn f s rs hg hrest hl
      (fun p hp => passed p hp (hnone p hp)) hfuel
    refine ⟨-1, f', s', h1, h4, Or.inr ⟨rfl, ?_⟩⟩
    intro pre r post he ho hv
    exact absurd ⟨ho, Or.inr hv⟩ (hnone r (by simp [he]))
  · have hrest' : s.rest = fileText pre ++ (r.text ++ fileText post) := by
      rw [hrest, he]; simp [fileText]
    have hpre' : ∀ p ∈ pre, PassedValid dateOf t sys prn p := fun p hp => passed p (by simp [he, hp]) (hpre p hp)
    have hlen : pre.length < fuel := by rw [he] at hfuel; simp at hfuel; omega
    have hw : r.WFV dateOf := hok.handled r (by simp [he]) (ho.1 ▸ hs)
    by_cases hlate : r.TooLate t
    · obtain ⟨f', s', h1, h2⟩ := C19_gives_up_late dateOf junk fuel t sys prn f s pre r _ hg hrest' hl hpre' hw ho.1 ho.2
        hlate hlen
      refine ⟨-1, f', s', h1, h2, Or.inr ⟨rfl, ?_⟩⟩
      intro pre' r' post' he' ho' hv'
      -- the first late message is not behind `r'`
      rw [he] at he'
      rcases List.append_eq_append_iff.1 he' with ⟨c, hc1, hc2⟩ | ⟨c, hc1, hc2⟩
      · cases c with
        | nil =>
          simp at hc2
          exact ⟨r, by simp [hc2.1], ho, hlate⟩
        | cons x c =>
          simp at hc2
          refine ⟨r, ?_, ho, hlate⟩
          rw [hc1, hc2.1]; simp
      · cases c with
        | nil =>
          simp at hc2
          exact ⟨r, by simp [hc2.1], ho, hlate⟩
        | cons x c =>
          simp at hc2
          exact absurd ⟨ho', Or.inr hv'⟩ (hpre r' (by rw [hc1, ← hc2.1]; simp))
    · have hv : r.ValidAt t := hr.resolve_left hlate
      obtain ⟨f', s', h1, h2, _, _, h5⟩ := C19_first_valid dateOf junk fuel t sys prn f s pre r _ hg hrest' hl hpre' hw ho.1
        ho.2 hv hlate hlen
      exact ⟨0, f', s', h1, h5, Or.inl ⟨rfl, r, by simp [he], ho, hv, h2⟩⟩

open Classical in
theorem checkNavMsg_spec {dateOf : List Char → Res DateTime} {f : NavFrame} {r : NavItem} (hc : Carries f r)
    (hr : r.WFV dateOf) (h0 : r.HealthIs 0) (t : Int) : checkNavMsg f t = .ok (if r.ValidAt t then 0 else 1) := by
  unfold checkNavMsg
  obtain ⟨fit, hf⟩ := hr.fit
  simp only [svHealth_spec hc h0, Res.bind_ok, ne_eq, not_true_eq_false, if_false, fitInterval_spec hc hf]
  rw [hc.sys, hc.toc]
  by_cases hglo : r.sys = .glonass
  · rw [if_pos hglo]
    obtain ⟨toe, htoe⟩ := hr.toe
    rw [hc.toe (HealthIs.handled h0) toe htoe]
    simp only [Res.pure_eq]
    congr 1
    by_cases hv : r.ValidAt t
    · rw [if_pos hv, if_pos]
      obtain ⟨_, fit', hf', hw⟩ := hv
      rw [if_pos hglo] at hw
      obtain ⟨toe', ht', hw1, hw2⟩ := hw
      have e1 := FitIs.unique hf hf'
      have e2 : toe = toe' := by
        rw [← hc.toe (HealthIs.handled h0) toe htoe, hc.toe (HealthIs.handled h0) toe' ht']
      subst e1; subst e2; omega
    · rw [if_neg hv, if_neg]
      intro hw
      exact hv ⟨h0, fit, hf, by rw [if_pos hglo]; exact ⟨toe, htoe, by omega, by omega⟩⟩
  · rw [if_neg hglo]
    by_cases hv : r.ValidAt t
    · rw [if_pos hv]
      obtain ⟨_, fit', hf', hw⟩ := hv
      rw [if_neg hglo] at hw
      have e1 := FitIs.unique hf hf'
      subst e1
      rw [if_pos (by omega), if_pos (by omega)]; rfl
    · rw [if_neg hv]
      by_cases h1 : t ≥ 1000 * r.toc.total
      · rw [if_pos h1, if_neg]
        · rfl
        · intro hw
          exact hv ⟨h0, fit, hf, by rw [if_neg hglo]; omega⟩
      · rw [if_neg h1]; rfl

/-- The vector of messages as the program keeps it: healthy messages of the file, one per satellite. -/
structure CacheOK (rs : List NavItem) (cache : List NavFrame) : Prop where
  carries : ∀ f ∈ cache, ∃ r ∈ rs, Handled r.sys ∧ r.HealthIs 0 ∧ Carries f r
  distinct : cache.Pairwise fun f g => ¬ (f.sys = g.sys ∧ f.prn = g.prn)

/-- What the search in the vector gives. -/
theorem findCached_spec {dateOf : List Char → Res DateTime} {rs : List NavItem} (hok : NavFileOK dateOf rs)
    (sys : SatSys) (prn t : Int) : ∀ (cache : List NavFrame) (i : Nat) (st : Int), CacheOK rs cache → st ≠ 0 →
    ((∃ k f r, findCached sys prn t i cache st = .ok (0, i + k) ∧ cache[k]? = some f ∧ r ∈ rs ∧ r.Of sys prn ∧
        r.ValidAt t ∧ Carries f r) ∨
     (∃ k f, findCached sys prn t i cache st = .ok (1, i + cache.length) ∧ cache[k]? = some f ∧ f.sys = sys ∧ f.prn = prn ∧
        findSat sys prn i cache = i + k ∧ k < cache.length) ∨
     (findCached sys prn t i cache st = .ok (st, i + cache.length) ∧ ∀ f ∈ cache, ¬ (f.sys = sys ∧ f.prn = prn))) := by
  intro cache
  induction cache with
  | nil => intro i st _ _; right; right; simp [findCached]
  | cons p ps ih =>
    intro i st hc hst
    have hd := List.pairwise_cons.1 hc.distinct
    have hc' : CacheOK rs ps := ⟨fun f hf => hc.carries f (by simp [hf]), hd.2⟩
    unfold findCached
    by_cases h : sys = p.sys ∧ prn = p.prn
    · rw [if_pos h]
      obtain ⟨r, hr, hh, h0, hca⟩ := hc.carries p (by simp)
      rw [checkNavMsg_spec hca (hok.handled r hr hh) h0]
      by_cases hv : r.ValidAt t
      · left
        refine ⟨0, p, r, by simp [hv], by simp, hr, ⟨?_, ?_⟩, hv, hca⟩
        · rw [← hca.sys, h.1]
        · rw [← hca.prn, h.2]
      · right; left
        refine ⟨0, p, ?_, by simp, h.1.symm, h.2.symm, ?_, by simp⟩
        · simp only [hv, if_false, Res.bind_ok, one_ne_zero]
          rcases ih (i + 1) 1 hc' (by decide) with ⟨k, f, r', h1, h2, h3, h4, h5, h6⟩ | ⟨k, f, h1, h2, h3, h4, h5⟩ | ⟨h1, h2⟩
          · exfalso
            exact hd.1 f (List.mem_of_getElem? h2) ⟨by rw [h6.sys, h4.1, h.1], by rw [h6.prn, h4.2, h.2]⟩
          · exfalso
            exact hd.1 f (List.mem_of_getElem? h2) ⟨by rw [h3, h.1], by rw [h4, h.2]⟩
          · rw [h1]; simp; omega
        · simp [findSat, h]
    · rw [if_neg h]
      rcases ih (i + 1) st hc' hst with ⟨k, f, r', h1, h2, h3⟩ | ⟨k, f, h1, h2, h3, h4, h5, h6⟩ | ⟨h1, h2⟩
      · left
        exact ⟨k + 1, f, r', by rw [h1]; congr 2; omega, by simpa using h2, h3⟩
      · right; left
        refine ⟨k + 1, f, by rw [h1]; simp; omega, by simpa using h2, h3, h4, ?_, by simpa using h6⟩
        unfold findSat
        rw [if_neg h, h5]; omega
      · right; right
        refine ⟨by rw [h1]; simp; omega, ?_⟩
        intro f hf
        rcases List.mem_cons.1 hf with rfl | hf
        · intro hh; exact h ⟨hh.1.symm, hh.2.symm⟩
        · exact h2 f hf

/-- What the caller of one request may rely on: a message of the satellite, read from the file, healthy and in
force; or status -1 and `end()`, and the file has none that the search could have found. -/
def Answered (rs : List NavItem) (q : SatSys × Int × Int) (o : Int × Option NavFrame) : Prop :=
  (o.1 = 0 ∧ ∃ f r, o.2 = some f ∧ r ∈ rs ∧ r.Of q.1 q.2.1 ∧ r.ValidAt q.2.2 ∧ Carries f r) ∨
  (o.1 = -1 ∧ o.2 = none ∧ NoneBefore rs q.1 q.2.1 q.2.2)

theorem distinct_set {cache : List NavFrame} {k : Nat} {f g : NavFrame}
    (h : cache.Pairwise fun f g => ¬ (f.sys = g.sys ∧ f.prn = g.prn)) (hk : cache[k]? = some f)
    (hs : g.sys = f.sys) (hp : g.prn = f.prn) : (cache.set k g).Pairwise fun f g => ¬ (f.sys = g.sys ∧ f.prn = g.prn) := by
  have e : (cache.set k g).map (fun f => (f.sys, f.prn)) = cache.map fun f => (f.sys, f.prn) := by
    rw [List.map_set]
    apply List.ext_getElem?
    intro i
    rw [List.getElem?_set]
    split
    · rename_i hi; subst hi
      simp only [List.length_map, List.getElem?_map, hk, Option.map_some, hs, hp]
      rw [if_pos (List.getElem?_eq_some_iff.1 hk).1]
    · rfl
  have h' : (cache.map fun f => (f.sys, f.prn)).Pairwise (· ≠ ·) := by
    rw [List.pairwise_map]
    exact h.imp fun hn he => hn (by simpa using he)
  rw [← e, List.pairwise_map] at h'
  exact h'.imp fun hn he => hn (by simpa using he)

/-- C63, one request, with any vector the program can have. -/
theorem getValidMsg_spec {dateOf : List Char → Res DateTime} (junk : Nat → List Char) (fuel endOfHead : Nat) (fresh : NavFrame)
    {sys : SatSys} (prn t : Int) {cache : List NavFrame} {s : Stream} {rs : List NavItem} (hs : Handled sys)
    (hg : s.good = true) (hrest : s.rest = fileText rs) (hl : fresh.data.length = 31) (hok : NavFileOK dateOf rs)
    (hfuel : rs.length < fuel) (hc : CacheOK rs cache) :
    ∃ o, getValidMsg dateOf junk fuel endOfHead fresh sys prn t cache s 0 = .ok o ∧ o.strm = s ∧ o.errno = 0 ∧
      CacheOK rs o.cache ∧ Answered rs (sys, prn, t) (o.status, o.cache[o.at_]?) := by
  unfold getValidMsg
  obtain ⟨st, f', s', hf, hrew, hres⟩ := findNextValid_file (f := fresh) junk fuel t prn hs hg hrest hl hok hfuel
  have hup : updateMsg dateOf junk fuel endOfHead fresh t s 0 { fresh with sys := sys, prn := prn } =
      .ok (st, (if st = 0 then f' else { fresh with sys := sys, prn := prn }), s, 0) := by
    unfold updateMsg
    simp only [hf, Res.bind_ok, Res.pure_eq, hrew]
  have hcar : ∀ r ∈ rs, r.Of sys prn → r.ValidAt t → Carries f' r →
      ∃ r ∈ rs, Handled r.sys ∧ r.HealthIs 0 ∧ Carries f' r := fun r hr _ hv hca =>
    ⟨r, hr, HealthIs.handled hv.1, hv.1, hca⟩
  rcases findCached_spec hok sys prn t cache 0 (-200) hc (by decide) with
    ⟨k, f, r, h1, h2, h3, h4, h5, h6⟩ | ⟨k, f, h1, h2, h3, h4, h5, h6⟩ | ⟨h1, h2⟩
  · rw [h1]
    simp only [Res.bind_ok, if_true, Res.pure_eq, Nat.zero_add]
    exact ⟨_, rfl, rfl, rfl, hc, Or.inl ⟨rfl, f, r, h2, h3, h4, h5, h6⟩⟩
  · rw [h1]
    simp only [Res.bind_ok, one_ne_zero, if_false, hup]
    rcases hres with ⟨rfl, r, hr, ho, hv, hca⟩ | ⟨rfl, hn⟩
    · simp only [ne_eq, not_true_eq_false, if_false, if_true, h5, Nat.zero_add, h6]
      refine ⟨_, rfl, rfl, rfl, ⟨?_, ?_⟩, Or.inl ⟨rfl, f', r, ?_, hr, ho, hv, hca⟩⟩
      · intro g hgm
        rcases List.mem_or_eq_of_mem_set hgm with hgm | rfl
        · exact hc.carries g hgm
        · exact hcar r hr ho hv hca
      · exact distinct_set hc.distinct h2 (by rw [hca.sys, ho.1, h3]) (by rw [hca.prn, ho.2, h4])
      · simp [h6]
    · simp only [ne_eq, Int.reduceNeg, neg_eq_zero, one_ne_zero, not_false_eq_true, if_true]
      exact ⟨_, rfl, rfl, rfl, hc, Or.inr ⟨rfl, by simp, hn⟩⟩
  · rw [h1]
    simp only [Res.bind_ok, hup]
    rw [if_neg (by decide)]
    rcases hres with ⟨rfl, r, hr, ho, hv, hca⟩ | ⟨rfl, hn⟩
    · simp only [ne_eq, not_true_eq_false, if_false, if_true]
      rw [if_neg (by decide)]
      refine ⟨_, rfl, rfl, rfl, ⟨?_, ?_⟩, Or.inl ⟨rfl, f', r, ?_, hr, ho, hv, hca⟩⟩
      · intro g hgm
        rcases List.mem_append.1 hgm with hgm | hgm
        · exact hc.carries g hgm
        · simp at hgm; subst hgm; exact hcar r hr ho hv hca
      · rw [List.pairwise_append]
        refine ⟨hc.distinct, by simp, ?_⟩
        intro a ha b hb
        simp at hb; subst hb
        rintro ⟨e1, e2⟩
        exact h2 a ha ⟨by rw [e1, hca.sys, ho.1], by rw [e2, hca.prn, ho.2]⟩
      · simp
    · simp only [ne_eq, Int.reduceNeg, neg_eq_zero, one_ne_zero, not_false_eq_true, if_true]
      exact ⟨_, rfl, rfl, rfl, hc, Or.inr ⟨rfl, by simp, hn⟩⟩

/-- C63: whatever satellites and epochs the program has asked for before, every answer is a message of the
file for that satellite, healthy and in force at that epoch, or -1 when the search finds none; the navigation file is
left where it was and the vector has at most one message per satellite. -/
theorem C63_every_history {dateOf : List Char → Res DateTime} (junk : Nat → List Char) (fuel endOfHead : Nat) (fresh : NavFrame)
    {s : Stream} {rs : List NavItem} (hg : s.good = true) (hrest : s.rest = fileText rs) (hl : fresh.data.length = 31)
    (hok : NavFileOK dateOf rs) (hfuel : rs.length < fuel) (qs : List (SatSys × Int × Int)) (hq : ∀ q ∈ qs, Handled q.1) :
    ∃ out cache, getValidMsgs dateOf junk fuel endOfHead fresh qs [] s 0 = .ok (out, cache, s, 0) ∧
      List.Forall₂ (Answered rs) qs out ∧ cache.Pairwise (fun f g => ¬ (f.sys = g.sys ∧ f.prn = g.prn)) := by
  have key : ∀ (qs : List (SatSys × Int × Int)) (cache : List NavFrame), (∀ q ∈ qs, Handled q.1) → CacheOK rs cache →
      ∃ out cache', getValidMsgs dateOf junk fuel endOfHead fresh qs cache s 0 = .ok (out, cache', s, 0) ∧
        List.Forall₂ (Answered rs) qs out ∧ CacheOK rs cache' := by
    intro qs
    induction qs with
    | nil => intro cache _ hc; exact ⟨[], cache, rfl, .nil, hc⟩
    | cons q qs ih =>
      intro cache hq hc
      obtain ⟨o, h1, h2, h3, h4, h5⟩ := getValidMsg_spec (cache := cache) junk fuel endOfHead fresh q.2.1 q.2.2 (hq q (by simp)) hg hrest hl
        hok hfuel hc
      obtain ⟨out, c', h6, h7, h8⟩ := ih o.cache (fun q' h => hq q' (by simp [h])) h4
      refine ⟨(o.status, o.cache[o.at_]?) :: out, c', ?_, .cons h5 h7, h8⟩
      unfold getValidMsgs
      simp only [h1, Res.bind_ok, h2, h3, h6, Res.pure_eq]
  obtain ⟨out, cache, h1, h2, h3⟩ := key qs [] hq ⟨by simp, .nil⟩
  exact ⟨out, cache, h1, h2, h3.distinct⟩

/-- In a chronological file every message in force is found. -/
theorem noneBefore_chronological {rs : List NavItem}
    (hch : Chronological rs) {sys : SatSys} {prn t : Int} : NoneBefore rs sys prn t ↔ ¬ HasValid rs sys prn t := by
  constructor
  · rintro hn ⟨r, hr, ho, hv⟩
    obtain ⟨pre, post, he⟩ := List.append_of_mem hr
    obtain ⟨p, hp, hop, hlate⟩ := hn pre r post he ho hv
    have hle : p.toc.total ≤ r.toc.total := by
      rcases List.mem_append.1 hp with hp | hp
      · have := hch.sorted
        rw [he, List.pairwise_append] at this
        exact this.2.2 p hp r (by simp) (hop.1.trans ho.1.symm) (hop.2.trans ho.2.symm)
      · simp at hp; subst hp; exact le_refl _
    unfold TooLate at hlate
    obtain ⟨h0, fit, hfit, hw⟩ := hv
    by_cases hglo : r.sys = .glonass
    · rw [if_pos hglo] at hw
      obtain ⟨toe, ht, hw1, hw2⟩ := hw
      have := hch.glo r hr hglo toe ht
      unfold FitIs at hfit
      rw [hglo] at hfit
      simp only at hfit
      rw [abs_le] at this
      omega
    · rw [if_neg hglo] at hw
      omega
  · intro hn pre r post he ho hv
    exact absurd ⟨r, by simp [he], ho, hv⟩ hn

/-- C63, in a file whose messages are in chronological order: an answer is given exactly when the file has a message
of the satellite in force at the epoch, however the requests before went. -/
theorem C63_exactly_when {dateOf : List Char → Res DateTime} (junk : Nat → List Char) (fuel endOfHead : Nat) (fresh : NavFrame)
    {s : Stream} {rs : List NavItem} (hg : s.good = true) (hrest : s.rest = fileText rs) (hl : fresh.data.length = 31)
    (hok : NavFileOK dateOf rs) (hch : Chronological rs) (hfuel : rs.length < fuel) (qs : List (SatSys × Int × Int))
    (hq : ∀ q ∈ qs, Handled q.1) :
    ∃ out cache, getValidMsgs dateOf junk fuel endOfHead fresh qs [] s 0 = .ok (out, cache, s, 0) ∧
      List.Forall₂ (fun q o => (o.1 = 0 ∨ o.1 = -1) ∧ (o.1 = 0 ↔ HasValid rs q.1 q.2.1 q.2.2)) qs out := by
  obtain ⟨out, cache, h1, h2, _⟩ := C63_every_history junk fuel endOfHead fresh hg hrest hl hok hfuel qs hq
  refine ⟨out, cache, h1, h2.imp ?_⟩
  rintro q o (⟨h, f, r, _, hr, ho, hv, _⟩ | ⟨h, _, hn⟩)
  · exact ⟨Or.inl h, by simp only [h, true_iff]; exact ⟨r, hr, ho, hv⟩⟩
  · refine ⟨Or.inr h, ?_⟩
    rw [h]
    simp only [show (-1 : Int) ≠ 0 by decide, false_iff]
    exact (noneBefore_chronological hch).1 hn

/-- C63 for arbitrary bytes and an arbitrary vector of messages: if the status is 0, the message returned is of
the satellite, its health word is 0 and the epoch lies in its interval. -/
theorem C63_sound {strptime : List Char → Res DateTime} {junk : Nat → List Char} {fuel endOfHead : Nat} {fresh : NavFrame}
    {sys : SatSys} {prn t : Int} {cache : List NavFrame} {s : Stream} {errno : Int} {o : MsgOut}
    (h : getValidMsg strptime junk fuel endOfHead fresh sys prn t cache s errno = .ok o) (h0 : o.status = 0) :
    ∃ f fit, o.cache[o.at_]? = some f ∧ f.sys = sys ∧ f.prn = prn ∧ svHealth f = .ok 0 ∧ fitInterval f = .ok fit ∧
      (if sys = .glonass then 1000 * (f.toe.total - fit) ≤ t ∧ t < 1000 * (f.toe.total + fit)
       else 1000 * f.toc.total ≤ t ∧ t < 1000 * (f.toc.total + fit)) := by
  have hcheck : ∀ f, checkNavMsg f t = .ok 0 → ∃ fit, svHealth f = .ok 0 ∧ fitInterval f = .ok fit ∧
      (if f.sys = .glonass then 1000 * (f.toe.total - fit) ≤ t ∧ t < 1000 * (f.toe.total + fit)
       else 1000 * f.toc.total ≤ t ∧ t < 1000 * (f.toc.total + fit)) := by
    intro f hf
    unfold checkNavMsg at hf
    rw [Res.bind_eq_ok] at hf
    obtain ⟨hh, h1, hf⟩ := hf
    split at hf
    · simp at hf
    · rename_i hz
      rw [Res.bind_eq_ok] at hf
      obtain ⟨fit, h2, hf⟩ := hf
      refine ⟨fit, by rw [h1]; simpa using hz, h2, ?_⟩
      split at hf
      · rename_i hg
        rw [if_pos hg]
        by_cases hw : t ≥ 1000 * f.toe.total - 1000 * fit ∧ t < 1000 * f.toe.total + 1000 * fit
        · omega
        · simp at hf; omega
      · rename_i hg
        rw [if_neg hg]
        split at hf
        · by_cases hw : t < 1000 * f.toc.total + 1000 * fit
          · omega
          · simp [hw] at hf
        · simp at hf
  have hfc : ∀ (c : List NavFrame) (i : Nat) (st : Int) (r : Int × Nat), findCached sys prn t i c st = .ok r → r.1 = 0 → st ≠ 0 →
      ∃ k f, r.2 = i + k ∧ c[k]? = some f ∧ f.sys = sys ∧ f.prn = prn ∧ checkNavMsg f t = .ok 0 := by
    intro c
    induction c with
    | nil => intro i st r h h0 hst; simp only [findCached, Res.ok.injEq] at h; subst h; exact absurd h0 hst
    | cons p ps ih =>
      intro i st r h h0 hst
      unfold findCached at h
      split at h
      · rename_i hp
        rw [Res.bind_eq_ok] at h
        obtain ⟨x, hx, h⟩ := h
        split at h
        · rename_i hx0
          simp only [Res.pure_eq, Res.ok.injEq] at h
          subst h
          exact ⟨0, p, rfl, by simp, hp.1.symm, hp.2.symm, by rw [hx, hx0]⟩
        · rename_i hx0
          obtain ⟨k, f, h1, h2, h3⟩ := ih (i + 1) x r h h0 hx0
          exact ⟨k + 1, f, by omega, by simpa using h2, h3⟩
      · obtain ⟨k, f, h1, h2, h3⟩ := ih (i + 1) st r h h0 hst
        exact ⟨k + 1, f, by omega, by simpa using h2, h3⟩
  unfold getValidMsg at h
  rw [Res.bind_eq_ok] at h
  obtain ⟨c, hc, h⟩ := h
  split at h
  · rename_i hz
    simp only [Res.pure_eq, Res.ok.injEq] at h
    subst h
    obtain ⟨k, f, h1, h2, h3, h4, h5⟩ := hfc cache 0 (-200) c hc hz (by decide)
    obtain ⟨fit, g1, g2, g3⟩ := hcheck f h5
    exact ⟨f, fit, by simp only [h1, Nat.zero_add]; exact h2, h3, h4, g1, g2, by rw [h3] at g3; exact g3⟩
  · rw [Res.bind_eq_ok] at h
    obtain ⟨u, hu, h⟩ := h
    split at h
    · rename_i hne
      simp only [Res.pure_eq, Res.ok.injEq] at h
      subst h
      exact absurd h0 hne
    · rename_i hz
      have hz : u.1 = 0 := by simpa using hz
      unfold updateMsg at hu
      rw [Res.bind_eq_ok] at hu
      obtain ⟨r, hr, hu⟩ := hu
      simp only [Res.pure_eq, Res.ok.injEq] at hu
      subst hu
      simp only at hz
      obtain ⟨g1, g2, g3, fit, g4, g5, _⟩ := C19_sound strptime junk fuel t sys prn fresh s errno r.1 r.2 hr hz
      simp only [hz, if_true] at h
      split at h
      · split at h
        · rename_i hlt
          simp only [Res.pure_eq, Res.ok.injEq] at h
          subst h
          exact ⟨r.2.frame, fit, by simp [hlt], g1, g2, g3, g4, g5⟩
        · exact absurd h (by simp)
      · simp only [Res.pure_eq, Res.ok.injEq] at h
        subst h
        exact ⟨r.2.frame, fit, by simp, g1, g2, g3, g4, g5⟩

end Ggnss
