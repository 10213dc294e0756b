import Verif.Props.BernProg
import Verif.Props.BernExample

/-!
C49, files whose records reach to the end: exactly which histories change an answer.
-/
namespace Ggnss

/-- The array of a lookup does not happen to hold an `M` where the flag of a record stands. -/
def BernQuery.Clean (q : BernQuery) : Prop := (∃ c, q.junk[5]? = some c ∧ c ≠ 'M') ∧ 6 < q.junk.length

theorem bernRuns_spoiled {strptime : List Char → Res DateTime} (part2 : Nat) (errno : Int) : ∀ (qs : List BernQuery) (s : Stream), s.fail = true →
    (∀ q ∈ qs, q.Clean) → ∃ s', bernRuns strptime part2 qs s errno = .ok (s', errno) ∧ s'.fail = true := by
  intro qs
  induction qs with
  | nil => intro s h _; exact ⟨s, rfl, h⟩
  | cons q qs ih =>
    intro s h hj
    obtain ⟨s1, h1, h2⟩ := lookup_spoiled (strptime := strptime) part2 q s h errno (hj q (by simp)).1 (hj q (by simp)).2
    obtain ⟨s2, h3, h4⟩ := ih s1 h2 (fun x hx => hj x (by simp [hx]))
    exact ⟨s2, by rw [bernRuns, h1, Res.bind_ok]; exact h3, h4⟩

/-- **C49** (records that reach to the end of the file; exact).  After any sequence of lookups, the next lookup gives the answer it would
have given as the first one, if and only if no record of the file is in force for it, or each of the earlier lookups had a record in force. -/
theorem C49_history_iff {strptime : List Char → Res DateTime} (recs : List BernRec) (hne : recs ≠ []) (hlen : recs.length ≤ 1000)
    (hwf : ∀ r ∈ recs, r.WF strptime) (part2 : Nat) (qs : List BernQuery) (q : BernQuery) (hclean : ∀ x ∈ qs, x.Clean) (hq : q.Clean) (s : Stream)
    (hs : s.fail = false) (hc : s.content.drop part2 = bernText recs .eof) {errno : Int} (he : errno ≠ ERANGE) :
    ∃ (s' : Stream) (first later : BernOut), bernRuns strptime part2 qs s errno = .ok (s', errno) ∧ q.run strptime part2 s errno = .ok first ∧
      q.run strptime part2 s' errno = .ok later ∧
      ((later.status, later.ifrqn, later.prn) = (first.status, first.ifrqn, first.prn) ↔
        ((∃ r ∈ recs, r.InForce q.svn q.eph) → ∀ x ∈ qs, ∃ r ∈ recs, r.InForce x.svn x.eph)) := by
  have key : ∃ s', bernRuns strptime part2 qs s errno = .ok (s', errno) ∧
      (((∀ x ∈ qs, ∃ r ∈ recs, r.InForce x.svn x.eph) ∧ s'.fail = false ∧ s'.content = s.content) ∨
        (¬ (∀ x ∈ qs, ∃ r ∈ recs, r.InForce x.svn x.eph) ∧ s'.fail = true)) := by
    induction qs generalizing s with
    | nil => exact ⟨s, rfl, Or.inl ⟨by simp, hs, rfl⟩⟩
    | cons a qs ih =>
      rcases bern_tells recs a.svn a.eph with hn | ⟨p, ch, hf⟩
      · obtain ⟨s1, h1, h2⟩ := lookup_none_eof recs hne hlen hwf part2 a s hs hn hc he
        obtain ⟨s2, h3, h4⟩ := bernRuns_spoiled (strptime := strptime) part2 errno qs s1 h2 (fun x hx => hclean x (by simp [hx]))
        refine ⟨s2, by rw [bernRuns, h1, Res.bind_ok]; exact h3, Or.inr ⟨?_, h4⟩⟩
        intro h
        obtain ⟨r, hr, hin⟩ := h a (by simp)
        exact hn r hr hin
      · obtain ⟨s1, h1, h2, h3⟩ := (lookup_first hwf hlen .eof hf a.ifrqn a.prn a.junk part2 s hs hc he).is
        obtain ⟨s2, h4, h5⟩ := ih (fun x hx => hclean x (by simp [hx])) s1 h2 (by rw [h3]; exact hc)
        obtain ⟨pre, r, post, v, start, stop, p', e1, e2, e3, _⟩ := hf
        have ha : ∃ r ∈ recs, r.InForce a.svn a.eph := ⟨r, by rw [e1]; simp, e3⟩
        have h1' : a.run strptime part2 s errno = .ok ⟨0, ch, p, s1, errno⟩ := h1
        refine ⟨s2, by rw [bernRuns, h1', Res.bind_ok]; exact h4, ?_⟩
        rcases h5 with ⟨g1, g2, g3⟩ | ⟨g1, g2⟩
        · refine Or.inl ⟨?_, g2, by rw [g3, h3]⟩
          intro x hx
          rcases List.mem_cons.1 hx with rfl | hx
          · exact ha
          · exact g1 x hx
        · exact Or.inr ⟨fun h => g1 (fun x hx => h x (by simp [hx])), g2⟩
  obtain ⟨s', h1, h2⟩ := key
  rcases bern_tells recs q.svn q.eph with hn | ⟨p, ch, hf⟩
  · have hno : ¬ ∃ r ∈ recs, r.InForce q.svn q.eph := by
      rintro ⟨r, hr, hin⟩; exact hn r hr hin
    obtain ⟨s1, g1, _⟩ := lookup_none_eof recs hne hlen hwf part2 q s hs hn hc he
    rcases h2 with ⟨_, g2, g3⟩ | ⟨_, g2⟩
    · obtain ⟨s2, g4, _⟩ := lookup_none_eof recs hne hlen hwf part2 q s' g2 hn (by rw [g3]; exact hc) he
      exact ⟨s', _, _, h1, g1, g4, by simp [hno]⟩
    · obtain ⟨s2, g4, _⟩ := lookup_spoiled (strptime := strptime) part2 q s' g2 errno hq.1 hq.2
      exact ⟨s', _, _, h1, g1, g4, by simp [hno]⟩
  · have hyes : ∃ r ∈ recs, r.InForce q.svn q.eph := by
      obtain ⟨pre, r, post, v, start, stop, p', e1, e2, e3, _⟩ := hf
      exact ⟨r, by rw [e1]; simp, e3⟩
    obtain ⟨s1, g1, _⟩ := (lookup_first hwf hlen .eof hf q.ifrqn q.prn q.junk part2 s hs hc he).is
    rcases h2 with ⟨k, g2, g3⟩ | ⟨k, g2⟩
    · obtain ⟨s2, g4, _⟩ := (lookup_first hwf hlen .eof hf q.ifrqn q.prn q.junk part2 s' g2 (by rw [g3]; exact hc) he).is
      exact ⟨s', _, _, h1, g1, g4, ⟨fun _ _ => k, fun _ => rfl⟩⟩
    · obtain ⟨s2, g4, _⟩ := lookup_spoiled (strptime := strptime) part2 q s' g2 errno hq.1 hq.2
      refine ⟨s', _, _, h1, g1, g4, ⟨fun h => ?_, fun h => absurd (h hyes) k⟩⟩
      simp at h

namespace BernExample

/-- `C49_history_iff`: the query for 701 in 2005 after one for a satellite the file does not have: another answer. -/
example : ∃ (s' : Stream) (first later : BernOut), bernRuns years 0 [⟨noise, 5, ⟨365 * 2005, 0⟩, 99, 98⟩] ⟨bernText recs .eof, 0, false, false⟩ 0 = .ok (s', 0) ∧
    (BernQuery.mk noise 701 ⟨365 * 2005, 0⟩ 99 98).run years 0 ⟨bernText recs .eof, 0, false, false⟩ 0 = .ok first ∧
    (BernQuery.mk noise 701 ⟨365 * 2005, 0⟩ 99 98).run years 0 s' 0 = .ok later ∧
    (later.status, later.ifrqn, later.prn) ≠ (first.status, first.ifrqn, first.prn) := by
  have hcl : ∀ v t, (BernQuery.mk noise v t 99 98).Clean := fun v t => ⟨⟨'?', rfl, by decide⟩, by show 6 < noise.length; rw [show noise.length = 256 from List.length_replicate]; decide⟩
  obtain ⟨s', a, b, h1, h2, h3, h4⟩ := C49_history_iff (strptime := years) recs (by simp [recs]) (by simp [recs]) recs_wf 0
    [⟨noise, 5, ⟨365 * 2005, 0⟩, 99, 98⟩] ⟨noise, 701, ⟨365 * 2005, 0⟩, 99, 98⟩ (by simpa using hcl _ _) (hcl _ _)
    ⟨bernText recs .eof, 0, false, false⟩ rfl rfl (errno := 0) (by decide)
  refine ⟨s', a, b, h1, h2, h3, fun h => ?_⟩
  have h5 := h4.1 h ⟨r1, by simp [recs], _, _, _, _, _, rfl, rfl, by decide, by rintro e ⟨⟩; decide⟩
  obtain ⟨r, hr, v, start, stop, p, ch, hm, hv, _⟩ := h5 _ (List.mem_singleton.2 rfl)
  simp only [recs, List.mem_cons, List.not_mem_nil, or_false] at hr
  rcases hr with rfl | rfl | rfl
  · simp only [r1, Option.some.injEq, Prod.mk.injEq] at hm
    obtain ⟨rfl, _⟩ := hm
    simp at hv
  · simp [r2] at hm
  · simp only [r3, Option.some.injEq, Prod.mk.injEq] at hm
    obtain ⟨rfl, _⟩ := hm
    simp at hv

end BernExample

end Ggnss
