import Verif.Props.NavAny
import Verif.Props.PpExample
import Verif.Lemmas.Fuel
/-!
# C20, exactly: when a search of a navigation file with a line that begins with 'M' returns
-/
namespace Ggnss

theorem findLoop_mixed (strptime : List Char → Res DateTime) (junk : Nat → List Char) (accept : NavFrame → Res (Option Int)) {sys : SatSys} (hs : sys ≠ .mixed)
    {s : Stream} {tl : List Char} (hg : s.good = true) (hr : s.rest = 'M' :: tl) (f : NavFrame) (errno : Int) :
    ∀ fuel, findLoop strptime junk accept sys fuel f s errno = .diverge := by
  intro fuel
  induction fuel with
  | zero => rfl
  | succ fuel ih =>
    have h1 : peakSatsys s = (0, .mixed, s) := by
      unfold peakSatsys; simp [Stream.peek_cons hg hr, peekedEof, charToSatsys]
    have h2 : ignoreNextBlock s = (0, s) := by
      unfold ignoreNextBlock; simp [Stream.peek_cons hg hr, peekedEof, charToSatsys, linesPerSatsys, skipLines]
    rw [findLoop]
    simp only [h1, h2, ne_eq, not_true_eq_false, if_false, if_neg (Ne.symm hs)]
    exact ih

theorem findLoop_pass_mixed (strptime : List Char → Res DateTime) (junk : Nat → List Char) (accept : NavFrame → Res (Option Int)) {sys : SatSys} (hs : sys ≠ .mixed)
    {rs : List NavItem} (hrs : ∀ r ∈ rs, Passed strptime accept sys r) {s : Stream} {tl : List Char} (hg : s.good = true)
    (hr : s.rest = fileText rs ++ 'M' :: tl) {f : NavFrame} (hl : f.data.length = 31) (fuel : Nat) :
    findLoop strptime junk accept sys fuel f s 0 = .diverge := by
  obtain ⟨g, _, h⟩ := findLoop_pass strptime junk accept sys ('M' :: tl) fuel rs f s hrs hg hr hl
  rw [findLoop_mixed strptime junk accept hs (by simpa using hg) (Stream.adv_rest_append hr)] at h
  rcases findLoop_le strptime junk accept sys (show fuel ≤ rs.length + fuel by omega) f s 0 with h' | h'
  · exact h'
  · rw [h', h]

/-- The first element of a list with a property. -/
theorem firstSplit {α : Type} {P : α → Prop} : ∀ {l : List α}, (∃ a ∈ l, P a) → ∃ pre a post, l = pre ++ a :: post ∧ P a ∧ ∀ b ∈ pre, ¬ P b
  | [], h => by obtain ⟨_, h, _⟩ := h; cases h
  | x :: l, h => by
      by_cases hx : P x
      · exact ⟨[], x, l, rfl, hx, by simp⟩
      · obtain ⟨pre, a, post, rfl, h1, h2⟩ := firstSplit (l := l) (P := P) (by
          obtain ⟨a, ha, hp⟩ := h
          rcases List.mem_cons.1 ha with rfl | ha
          · exact absurd hp hx
          · exact ⟨a, ha, hp⟩)
        exact ⟨x :: pre, a, post, rfl, h1, by
          intro b hb
          rcases List.mem_cons.1 hb with rfl | hb
          · exact hx
          · exact h2 b hb⟩

/-- The blocks of a file as far as a search for `sys` looks into them. -/
def BlocksFor (dateOf : List Char → Res DateTime) (sys : SatSys) (rs : List NavItem) : Prop :=
  ∀ r ∈ rs, (r.sys ≠ sys ∧ IsBlock r.sys r.lines) ∨ (r.sys = sys ∧ r.WF dateOf)

/-- **C20, exactly**: in a file whose records `rs` are followed by a line that begins with 'M', `find_next` for a satellite never returns if and only if none of the
records is of this satellite. -/
theorem C20_find_next_iff (dateOf : List Char → Res DateTime) (junk : Nat → List Char) {sys : SatSys} (hs : sys ≠ .mixed) {prn : Int} (hp : prn ≠ -1)
    {rs : List NavItem} (hrs : BlocksFor dateOf sys rs) {s : Stream} {tl : List Char} (hg : s.good = true) (hr : s.rest = fileText rs ++ 'M' :: tl)
    {f : NavFrame} (hl : f.data.length = 31) :
    (∀ fuel, findNext dateOf junk fuel sys prn f s 0 = .diverge) ↔ ∀ r ∈ rs, ¬ (r.sys = sys ∧ r.prn = prn) := by
  constructor
  · intro h r hr' hrp
    obtain ⟨pre, a, post, rfl, h1, h2⟩ := firstSplit (P := fun r : NavItem => r.sys = sys ∧ r.prn = prn) ⟨r, hr', hrp⟩
    have ha : a.WF dateOf := by
      rcases hrs a (by simp) with ⟨h3, _⟩ | ⟨_, h3⟩
      · exact absurd h1.1 h3
      · exact h3
    obtain ⟨f', s', e, _⟩ := C18_first_match dateOf junk (pre.length + 1) sys prn f s pre a (fileText post ++ 'M' :: tl) hg (by rw [hr]; simp [fileText]) hl
      (by
        intro p hpm
        rcases hrs p (by simp [hpm]) with h3 | ⟨h3, h4⟩
        · exact Or.inl h3
        · exact Or.inr ⟨h3, h4, hp, fun h5 => h2 p hpm ⟨h3, h5⟩⟩) ha h1.1 (Or.inr h1.2) (by omega)
    rw [h] at e
    cases e
  · intro h fuel
    unfold findNext
    simp only [tellg_good hg]
    rw [findLoop_pass_mixed dateOf junk _ hs (fun r hm => by
      rcases hrs r hm with h3 | ⟨h3, h4⟩
      · exact Or.inl h3
      · refine Or.inr ⟨h3, h4, fun f hf => ?_⟩
        unfold acceptPrn
        rw [if_neg]
        rintro (h5 | h5)
        · exact hp h5
        · exact h r hm ⟨h3, by rw [h5, hf.prn]⟩) hg hr hl]
    rfl

/-- **C20, exactly**: ... `find_next_valid` never returns if and only if no record of the satellite is in force at the requested time or more than four hours later. -/
theorem C20_find_next_valid_iff (dateOf : List Char → Res DateTime) (junk : Nat → List Char) {sys : SatSys} (hs : sys ≠ .mixed) (prn t : Int)
    {rs : List NavItem} (hrs : ∀ r ∈ rs, (r.sys ≠ sys ∧ IsBlock r.sys r.lines) ∨ (r.sys = sys ∧ r.WFV dateOf)) {s : Stream} {tl : List Char} (hg : s.good = true)
    (hr : s.rest = fileText rs ++ 'M' :: tl) {f : NavFrame} (hl : f.data.length = 31) :
    (∀ fuel, findNextValid dateOf junk fuel t sys prn f s 0 = .diverge) ↔
      ∀ r ∈ rs, r.sys = sys → r.prn = prn → ¬ r.ValidAt t ∧ ¬ r.TooLate t := by
  constructor
  · intro h r hm h3 h4
    by_contra hc
    have hc : r.TooLate t ∨ r.ValidAt t := by
      by_contra hx
      push Not at hx
      exact hc ⟨hx.2, hx.1⟩
    obtain ⟨pre, a, post, rfl, ⟨h5, h6, h7⟩, h2⟩ := firstSplit (P := fun r : NavItem => r.sys = sys ∧ r.prn = prn ∧ (r.TooLate t ∨ r.ValidAt t)) ⟨r, hm, h3, h4, hc⟩
    have ha : a.WFV dateOf := by
      rcases hrs a (by simp) with ⟨h3, _⟩ | ⟨_, h3⟩
      · exact absurd h5 h3
      · exact h3
    have hpre : ∀ p ∈ pre, PassedValid dateOf t sys prn p := by
      intro p hpm
      rcases hrs p (by simp [hpm]) with h8 | ⟨h8, h9⟩
      · exact Or.inl h8
      · refine Or.inr ⟨h8, h9, ?_⟩
        by_cases h10 : p.prn = prn
        · refine Or.inr ⟨fun h11 => h2 p hpm ⟨h8, h10, Or.inl h11⟩, fun h11 => h2 p hpm ⟨h8, h10, Or.inr h11⟩⟩
        · exact Or.inl h10
    have hrest : s.rest = fileText pre ++ (a.text ++ (fileText post ++ 'M' :: tl)) := by rw [hr]; simp [fileText]
    by_cases hl8 : a.TooLate t
    · obtain ⟨f', s', e, _⟩ := C19_gives_up_late dateOf junk (pre.length + 1) t sys prn f s pre a _ hg hrest hl hpre ha h5 h6 hl8 (by omega)
      rw [h] at e
      cases e
    · obtain ⟨f', s', e, _⟩ := C19_first_valid dateOf junk (pre.length + 1) t sys prn f s pre a _ hg hrest hl hpre ha h5 h6 (h7.resolve_left hl8) hl8 (by omega)
      rw [h] at e
      cases e
  · intro h fuel
    unfold findNextValid
    simp only [tellg_good hg]
    rw [findLoop_pass_mixed dateOf junk _ hs (fun r hm => PassedValid.passed (t := t) (prn := prn) (by
      rcases hrs r hm with h3 | ⟨h3, h4⟩
      · exact Or.inl h3
      · refine Or.inr ⟨h3, h4, ?_⟩
        by_cases h10 : r.prn = prn
        · exact Or.inr ⟨(h r hm h3 h10).2, (h r hm h3 h10).1⟩
        · exact Or.inl h10)) hg hr hl]
    rfl

/-- A file of two GLONASS records (satellite 1) and a line "M": asked for satellite 1 the search returns, for satellite 2 it does not. -/
example (junk : Nat → List Char) : (∀ fuel, findNext NavExample.dateOf junk fuel .glonass 2 NavExample.frame
      ⟨fileText [NavExample.gloBad, NavExample.glo] ++ c!"M\n", 0, false, false⟩ 0 = .diverge) ∧
    ¬ ∀ fuel, findNext NavExample.dateOf junk fuel .glonass 1 NavExample.frame
      ⟨fileText [NavExample.gloBad, NavExample.glo] ++ c!"M\n", 0, false, false⟩ 0 = .diverge := by
  have hb : BlocksFor NavExample.dateOf .glonass [NavExample.gloBad, NavExample.glo] := by
    intro r hr
    simp at hr
    rcases hr with rfl | rfl
    · exact Or.inr ⟨rfl, NavExample.gloBad_wfv.toWF⟩
    · exact Or.inr ⟨rfl, NavExample.glo_wfv.toWF⟩
  constructor
  · refine (C20_find_next_iff _ _ (by decide) (by decide) hb (tl := c!"\n") rfl (by simp [Stream.rest]) rfl).2 ?_
    intro r hr
    simp at hr
    rcases hr with rfl | rfl <;> (rintro ⟨_, h⟩; revert h; decide)
  · rw [C20_find_next_iff _ _ (by decide) (by decide) hb (tl := c!"\n") rfl (by simp [Stream.rest]) rfl]
    intro h
    exact h NavExample.glo (by simp) ⟨rfl, rfl⟩

end Ggnss
