import Verif.Props.NavTabProg
import Verif.Props.NavExample
import Verif.Props.PpProgExample
/-!
# Files for the orbit table program that meet the hypotheses of C87

Two messages of the GPS satellite G01, valid for an hour each, the second one two hours after the first; an ANTEX file with that
satellite.  The date readers of the examples are made up.
-/
namespace Ggnss
open NavItem

/-- **C87** is false where messages leave a gap: at an epoch of the table at which no message is in force, but some message has not
expired, the program prints a line all the same. -/
theorem C87_gap (W : TabWorld) (hW : W.OK) (o : StateClock) {a0 a1 a2 a3 : List Char} {more : List (List Char)} {sys : SatSys} {prn : Int}
    (ha : SatArg a2 sys prn) (hh : NavItem.Handled sys) (hk : sys ≠ .glonass) {q : NavItem} {rs : List NavItem} {bs : List AtxBlock} {K : Nat}
    (hF : TabFiles W a1 a3 sys prn q rs bs K) (hatx : ∃ b ∈ bs, b.For prn sys q.toc) (hz : ∀ r ∈ rs, r.Of sys prn → r.HealthIs 0)
    (k : Nat) (hk1 : k < 1440) (hgap : ∀ r ∈ rs, r.Of sys prn → ¬ r.ValidAt (1000 * q.toc.total + 60000 * k))
    (hlate : ∃ r ∈ rs, r.Of sys prn ∧ ¬ r.Expired (1000 * q.toc.total + 60000 * k)) :
    ∃ lines l, tabMain W o (a0 :: a1 :: a2 :: a3 :: more) = .ok (0, lines) ∧ lines[k]? = some l ∧
      l.t = 1000 * q.toc.total + 60000 * k ∧ ∀ r ∈ rs, r.Of sys prn → ¬ r.ValidAt l.t := by
  obtain ⟨lines, h1, h2⟩ := C87_table_partial W hW o (a0 := a0) (more := more) ha hh hk hF hatx hz
  obtain ⟨r, r1, r2, r3⟩ := hlate
  have hlen : k < lines.length := by
    by_contra hc
    have := h2.complete (by rw [List.length_map]; omega) r (messagesOf_mem.2 ⟨r1, r2⟩)
    rw [List.length_map] at this
    exact r3 (this.mono (by omega))
  have hl : lines[k]? = some lines[k] := List.getElem?_eq_getElem hlen
  obtain ⟨g1, _⟩ := h2.line k lines[k].row (by rw [List.getElem?_map, hl]; rfl)
  have g1' : lines[k].t = 1000 * q.toc.total + 60000 * (k : Int) := g1
  exact ⟨lines, lines[k], h1, hl, g1', by rw [g1']; exact hgap⟩

namespace NavTabEx
open NavExample (zero one value_zero value_one fieldCheck fieldCheck_sound lineOK_of)

/-- " 5.153600000000D+03" -/
def sqA : Numeral := ⟨1, none, c!"5", some c!"153600000000", some (some false, c!"03")⟩

def gnum : Nat → Nat → Numeral
  | 2, 3 => sqA
  | 7, 1 => one
  | _, _ => zero

def z : List Char := c!"     0.000000000000D+00 0.000000000000D+00 0.000000000000D+00 0.000000000000D+00"
def z2 : List Char := c!"     0.000000000000D+00 0.000000000000D+00 0.000000000000D+00 5.153600000000D+03"
def z7 : List Char := c!"     0.000000000000D+00 1.000000000000D+00"

/-- A healthy message of G01 that is valid for an hour. -/
def msg (l : List Char) (toc : DateTime) : NavItem := ⟨.gps, 1, toc, gnum, [l, z, z2, z, z, z, z, z7]⟩

def la : List Char := c!"G01 2000 01 01 00 00 00 0.000000000000D+00 0.000000000000D+00 0.000000000000D+00"
def lb : List Char := c!"G01 2000 01 01 02 00 00 0.000000000000D+00 0.000000000000D+00 0.000000000000D+00"

def first : NavItem := msg la ⟨730000, 0⟩
def second : NavItem := msg lb ⟨730000, 7200⟩

def dateOf (l : List Char) : Res DateTime := if l.take 14 = c!" 2000 01 01 00" then .ok ⟨730000, 0⟩ else .ok ⟨730000, 7200⟩

theorem int0 {l : List Char} {toc : DateTime} {j k : Nat} (h : gnum j k = zero) : (msg l toc).IntAt j k 0 := by
  refine ⟨?_, by decide, by decide⟩
  show specUnit .gps j k * (gnum j k).value = ((0 : Int) : Rat)
  rw [h, value_zero]; simp

theorem health (l : List Char) (toc : DateTime) : (msg l toc).HealthIs 0 := int0 rfl
theorem fit (l : List Char) (toc : DateTime) : (msg l toc).FitIs 3600 := by
  refine ⟨1, ⟨?_, by decide, by decide⟩, by decide, by decide, by decide⟩
  show specUnit .gps 7 1 * one.value = ((1 : Int) : Rat)
  rw [value_one]; simp [specUnit]

theorem fields {x : List Char} {n : Nat} {j : Nat} {off : Nat} (h : ∀ k < n, fieldCheck x (off + 19 * k) (gnum j k) = true) :
    ∀ k < n, FieldAt x (off + 19 * k) (gnum j k) := fun k hk => fieldCheck_sound (h k hk)

set_option maxRecDepth 20000 in
theorem msg_wf {l : List Char} {toc : DateTime} (h1 : LineOK l) (h2 : l.head? = some 'G') (h3 : PrnAt l 1)
    (h4 : ∀ k < 3, fieldCheck l (23 + 19 * k) zero = true) (h5 : dateOf (l.drop 3) = .ok toc)
    (h6 : 44244 ≤ toc.mjd ∧ 0 ≤ toc.sec ∧ toc.sec < 86400) : (msg l toc).WFV dateOf := by
  have hz : LineOK z := lineOK_of _ (by decide)
  have hz2 : LineOK z2 := lineOK_of _ (by decide)
  have hz7 : LineOK z7 := lineOK_of _ (by decide)
  refine ⟨⟨⟨⟨by show SatSys.gps ≠ .mixed; decide, rfl, ?_, ?_⟩, ?_, ?_⟩, ?_, h6, ⟨86400 * 44244, 0, 0, int0 rfl, int0 rfl, by decide⟩⟩, ⟨0, health l toc⟩, ⟨3600, fit l toc⟩⟩
  · intro x hx
    simp [msg] at hx
    rcases hx with rfl | rfl | rfl | rfl | rfl
    exacts [h1, hz, hz2, hz, hz7]
  · intro x hx; simp [msg] at hx; subst hx; exact h2
  · intro x hx; simp [msg] at hx; subst hx; exact h3
  · have f1 : ∀ j, j ≠ 0 → j ≠ 2 → j ≠ 7 → ∀ k < 4, FieldAt z (4 + 19 * k) (gnum j k) := by
      intro j hj hj2 hj7 k hk
      have : gnum j k = zero := by
        unfold gnum; split
        · exact absurd rfl hj2
        · exact absurd rfl hj7
        · rfl
      rw [this]
      apply fieldCheck_sound
      exact (by decide : ∀ k < 4, fieldCheck z (4 + 19 * k) zero = true) k hk
    intro j x hx k hk
    match j, hx with
    | 0, hx =>
      simp [msg] at hx; subst hx
      have hk' : k < 3 := by simpa [specCount] using hk
      have : gnum 0 k = zero := by unfold gnum; split <;> first | omega | rfl
      show FieldAt l (23 + 19 * k) (gnum 0 k)
      rw [this]
      exact fieldCheck_sound (h4 k hk')
    | 1, hx => simp [msg] at hx; subst hx; exact f1 1 (by omega) (by omega) (by omega) k (by simpa [specCount, msg] using hk)
    | 2, hx =>
      simp [msg] at hx; subst hx
      have hk' : k < 4 := by simpa [specCount, msg] using hk
      apply fieldCheck_sound
      exact (by decide : ∀ k < 4, fieldCheck z2 (4 + 19 * k) (gnum 2 k) = true) k hk'
    | 3, hx => simp [msg] at hx; subst hx; exact f1 3 (by omega) (by omega) (by omega) k (by simpa [specCount, msg] using hk)
    | 4, hx => simp [msg] at hx; subst hx; exact f1 4 (by omega) (by omega) (by omega) k (by simpa [specCount, msg] using hk)
    | 5, hx => simp [msg] at hx; subst hx; exact f1 5 (by omega) (by omega) (by omega) k (by simpa [specCount, msg] using hk)
    | 6, hx => simp [msg] at hx; subst hx; exact f1 6 (by omega) (by omega) (by omega) k (by simpa [specCount, msg] using hk)
    | 7, hx =>
      simp [msg] at hx; subst hx
      have hk' : k < 2 := by simpa [specCount, msg] using hk
      apply fieldCheck_sound
      exact (by decide : ∀ k < 2, fieldCheck z7 (4 + 19 * k) (gnum 7 k) = true) k hk'
    | j + 8, hx => simp [msg] at hx
  · intro x hx; simp [msg] at hx; subst hx; exact h5

set_option maxRecDepth 20000 in
theorem first_wf : first.WFV dateOf :=
  msg_wf (lineOK_of _ (by decide)) rfl ⟨0, c!"01", la.drop 3, by decide, by decide, by decide, by decide, by decide, by decide, by decide⟩
    (by decide) (by decide) (by decide)
set_option maxRecDepth 20000 in
theorem second_wf : second.WFV dateOf :=
  msg_wf (lineOK_of _ (by decide)) rfl ⟨0, c!"01", lb.drop 3, by decide, by decide, by decide, by decide, by decide, by decide, by decide⟩
    (by decide) (by decide) (by decide)

def recs : List NavItem := [first, second]
def navText : List Char := linesText NavHeadExample.hdr.lines ++ fileText recs
def ants : List AtxBlock := [AntexExample.b1, AntexExample.b3]
def atx : List Char := atxText AntexExample.hdr ants

def W : TabWorld where
  files := fun n => if n = c!"nav" then some navText else if n = c!"atx" then some atx else none
  navDate := dateOf
  atxDate := BernExample.years
  junkNav := c!"??"
  navJunk := fun _ => c!"??"
  J := AntexExample.J
  cospar := List.replicate 10 '?'
  fresh := NavExample.frame
  fuel := 5000 + atx.length

theorem W_ok : W.OK := ⟨AntexExample.J_wf, AntexExample.J_nul, rfl⟩

theorem recs_ok : NavFileOK dateOf recs := by
  have h : ∀ r ∈ recs, r.WFV dateOf := by
    intro r hr
    simp only [recs, List.mem_cons, List.not_mem_nil, or_false] at hr
    rcases hr with rfl | rfl
    exacts [first_wf, second_wf]
  exact ⟨fun r hr _ => h r hr, fun r hr => (h r hr).record.toIsBlock⟩

theorem arg : SatArg c!"G01" .gps 1 := ⟨⟨c!"01", rfl, by decide, by decide, by decide⟩, by decide, by decide⟩

theorem files : TabFiles W c!"nav" c!"atx" .gps 1 first recs ants 1440 where
  nav := ⟨NavHeadExample.hdr, NavHeadExample.hdr_wf, rfl⟩
  recs := recs_ok
  first := ⟨[second], rfl⟩
  tame := by
    intro _ r hr _
    simp only [recs, List.mem_cons, List.not_mem_nil, or_false] at hr
    rcases hr with rfl | rfl
    all_goals
      have : ∀ l t, (msg l t).el.e = 0 := by
        intro l t
        show (((msg l t).val 2 1 : ℚ) : ℝ) = 0
        have : (msg l t).val 2 1 = 0 := by
          show specUnit .gps 2 1 * zero.value = 0
          rw [value_zero]; simp
        rw [this]; simp
      first | unfold first | unfold second
      rw [this]; norm_num
  atx := ⟨AntexExample.hdr, AntexExample.hdr_wf, rfl, by show atx.length < 5000 + atx.length; omega⟩
  ants := ⟨by simp [ants], by
    intro b hb
    simp only [ants, List.mem_cons, List.not_mem_nil, or_false] at hb
    rcases hb with rfl | rfl
    exacts [AntexExample.b1_wf, AntexExample.b3_wf]⟩
  late := by
    intro r hr _
    simp only [recs, List.mem_cons, List.not_mem_nil, or_false] at hr
    rcases hr with rfl | rfl <;> decide
  fuel := by show 3 * 1441 < 5000 + atx.length; omega

theorem healthy : ∀ r ∈ recs, r.Of .gps 1 → r.HealthIs 0 := by
  intro r hr _
  simp only [recs, List.mem_cons, List.not_mem_nil, or_false] at hr
  rcases hr with rfl | rfl
  exacts [health _ _, health _ _]

theorem inAntex : ∃ b ∈ ants, b.For 1 .gps first.toc := ⟨AntexExample.b3, by simp [ants], AntexExample.valid⟩

/-- A run of the program on these files: an hour and a half after the first message neither message is in force, but the table has a line. -/
theorem gap_line (o : StateClock) : ∃ lines l, tabMain W o [c!"tab", c!"nav", c!"G01", c!"atx"] = .ok (0, lines) ∧ lines[90]? = some l ∧
    ∀ r ∈ recs, r.Of .gps 1 → ¬ r.ValidAt l.t := by
  obtain ⟨lines, l, h1, h2, _, h3⟩ := C87_gap W W_ok o (a0 := c!"tab") (more := []) arg (Or.inl rfl) (by decide) files inAntex healthy 90 (by decide)
    (by
      intro r hr _
      simp only [recs, List.mem_cons, List.not_mem_nil, or_false] at hr
      rintro ⟨_, f, hf, hv⟩
      rcases hr with rfl | rfl
      · rw [FitIs.unique hf (fit la ⟨730000, 0⟩)] at hv
        rw [if_neg (by decide)] at hv
        revert hv; decide
      · rw [FitIs.unique hf (fit lb ⟨730000, 7200⟩)] at hv
        rw [if_neg (by decide)] at hv
        revert hv; decide)
    ⟨second, by simp [recs], ⟨rfl, rfl⟩, by rintro ⟨h, _⟩; revert h; decide⟩
  exact ⟨lines, l, h1, h2, h3⟩

/-- The first message alone. -/
def navText1 : List Char := linesText NavHeadExample.hdr.lines ++ fileText [first]
def W1 : TabWorld := { W with files := fun n => if n = c!"nav" then some navText1 else if n = c!"atx" then some atx else none }

theorem W1_ok : W1.OK := ⟨AntexExample.J_wf, AntexExample.J_nul, rfl⟩

theorem files1 : TabFiles W1 c!"nav" c!"atx" .gps 1 first [first] ants 1440 where
  nav := ⟨NavHeadExample.hdr, NavHeadExample.hdr_wf, rfl⟩
  recs := ⟨fun r hr h => files.recs.handled r (by simp at hr; simp [recs, hr]) h, fun r hr => files.recs.block r (by simp at hr; simp [recs, hr])⟩
  first := ⟨[], rfl⟩
  tame := fun h r hr => files.tame h r (by simp at hr; simp [recs, hr])
  atx := ⟨AntexExample.hdr, AntexExample.hdr_wf, rfl, by show atx.length < 5000 + atx.length; omega⟩
  ants := files.ants
  late := fun r hr => files.late r (by simp at hr; simp [recs, hr])
  fuel := by show 2 * 1441 < 5000 + atx.length; omega

/-- With the first message alone: 60 lines, all in force (`C87_in_force_partial`'s hypotheses are met). -/
theorem hour (o : StateClock) : ∃ lines, tabMain W1 o [c!"tab", c!"nav", c!"G01", c!"atx"] = .ok (0, lines) ∧ lines.length = 60 ∧
    ∀ (k : Nat) (l : TabLine), lines[k]? = some l → l.t = 1000 * first.toc.total + 60000 * k ∧ SatAt [first] (.gps, 1) l.t l.pos l.clock := by
  have hz : ∀ r ∈ [first], r.Of .gps 1 → r.HealthIs 0 := fun r hr => healthy r (by simp at hr; simp [recs, hr])
  obtain ⟨lines, h1, h2⟩ := C87_table_partial W1 W1_ok o (a0 := c!"tab") (more := []) arg (Or.inl rfl) (by decide) files1 inAntex hz
  obtain ⟨lines', g1, g2⟩ := C87_in_force_partial W1 W1_ok o (a0 := c!"tab") (more := []) arg (Or.inl rfl) (by decide) files1 inAntex hz
    (by
      intro pre a b post h
      have : (messagesOf .gps 1 [first]).length = 1 := rfl
      rw [h] at this
      simp at this
      omega)
  rw [h1] at g1
  cases g1
  refine ⟨lines, h1, ?_, g2⟩
  have ht : (1000 * first.toc.total : Int) = 1000 * (86400 * 730000) := by decide
  rw [ht] at h2
  have hx : ∀ t : Int, first.Expired t ↔ 1000 * (86400 * 730000) + 3600000 ≤ t := by
    intro t
    constructor
    · rintro ⟨_, f, hf, hv⟩
      rw [FitIs.unique hf (fit la ⟨730000, 0⟩)] at hv
      have : first.toc.total = 86400 * 730000 := by decide
      rw [this] at hv; omega
    · intro h
      refine ⟨by rw [ht]; omega, 3600, fit la ⟨730000, 0⟩, ?_⟩
      have : first.toc.total = 86400 * 730000 := by decide
      rw [this]; omega
  have hle : ¬ 60 < lines.length := by
    intro h
    obtain ⟨g1, _, q, ⟨a, b, hm, _, hn⟩, _⟩ := h2.line 60 (lines[60].row) (by rw [List.getElem?_map, List.getElem?_eq_getElem h]; rfl)
    have hq : q = first := by
      have h3 : q ∈ messagesOf .gps 1 [first] := by rw [hm]; simp
      simpa using (messagesOf_mem.1 h3).1
    subst hq
    rw [hx, g1] at hn
    omega
  have hge : ¬ lines.length < 60 := by
    intro h
    have := h2.complete (by rw [List.length_map]; omega) first (messagesOf_mem.2 ⟨by simp, rfl, rfl⟩)
    rw [hx, List.length_map] at this
    omega
  omega

/-- A satellite that the navigation file does not have (`C87_no_message`). -/
example (o : StateClock) : tabMain W o [c!"tab", c!"nav", c!"E07"] = .ok (10, []) :=
  C87_no_message W W_ok o (sys := .galileo) (prn := 7) ⟨⟨c!"07", rfl, by decide, by decide, by decide⟩, by decide, by decide⟩ (Or.inr (Or.inr (Or.inl rfl)))
    NavHeadExample.hdr_wf recs_ok rfl (by
      intro r hr h
      simp only [recs, List.mem_cons, List.not_mem_nil, or_false] at hr
      rcases hr with rfl | rfl <;> exact absurd h.1 (by decide)) (by show 2 < 5000 + atx.length; omega)

/-! GLONASS: the record of `NavExample`, and an antenna entry of R01 without end of validity. -/

def bg : AtxBlock := AntexExample.mk c!"GLONASS-M           R01                 R701      2003-056A" (some ⟨.glonass, 1, some 701, some c!"2003-056"⟩) c!"     1"
  [.validFrom ⟨365 * 100, 0⟩ (AntexExample.lab c!"0100    12    10     0     0    0.0000000" c!"VALID FROM")] [AntexExample.f1]

set_option maxRecDepth 20000 in
theorem bg_wf : bg.WF BernExample.years := by
  refine AntexExample.mk_wf (by decide) ⟨by decide, natCheck_sound (k := 0) (ds := c!"01") (by decide),
      ⟨by decide, natCheck_sound (k := 0) (ds := c!"701") (by decide)⟩, ⟨by decide, by decide⟩⟩ (by decide)
    (natCheck_sound (k := 5) (ds := c!"1") (by decide)) (by simp) ?_ (by decide) (by decide) ?_ (by decide)
  · intro o ho
    simp only [List.mem_cons, List.not_mem_nil, or_false] at ho
    subst ho
    exact ⟨by decide, BernExample.years_at (by decide) (by decide)⟩
  · intro f hf
    rw [List.mem_singleton] at hf
    subst hf
    exact AntexExample.f1_wf

theorem bg_for : bg.For 1 .glonass NavExample.glo.toc := by
  refine ⟨⟨.glonass, 1, some 701, some c!"2003-056"⟩, rfl, rfl, rfl, ⟨⟨365 * 100, 0⟩, rfl, by decide⟩, ?_⟩
  intro e he
  have : bg.validUntil = none := rfl
  rw [this] at he
  cases he

def navTextG : List Char := linesText NavHeadExample.hdr.lines ++ fileText [NavExample.glo]
def atxG : List Char := atxText AntexExample.hdr [bg]

def Wg : TabWorld := { W with
  files := fun n => if n = c!"nav" then some navTextG else if n = c!"atx" then some atxG else none
  navDate := NavExample.dateOf
  fuel := 5000 + atxG.length }

theorem filesG : TabFiles Wg c!"nav" c!"atx" .glonass 1 NavExample.glo [NavExample.glo] [bg] 1440 where
  nav := ⟨NavHeadExample.hdr, NavHeadExample.hdr_wf, rfl⟩
  recs := ⟨fun r hr _ => by simp at hr; subst hr; exact NavExample.glo_wfv, fun r hr => by simp at hr; subst hr; exact NavExample.glo_wfv.record.toIsBlock⟩
  first := ⟨[], rfl⟩
  tame := fun h => absurd rfl h
  atx := ⟨AntexExample.hdr, AntexExample.hdr_wf, rfl, by show atxG.length < 5000 + atxG.length; omega⟩
  ants := ⟨by simp, by intro b hb; simp at hb; subst hb; exact bg_wf⟩
  late := by intro r hr _; simp at hr; subst hr; omega
  fuel := by show 2 * 1441 < 5000 + atxG.length; omega

/-- The program asked for the GLONASS satellite writes outside its array. -/
example (o : StateClock) : tabMain Wg o [c!"tab", c!"nav", c!"R01", c!"atx"] = .ub :=
  C87_glonass_overflow Wg ⟨AntexExample.J_wf, AntexExample.J_nul, rfl⟩ o (more := []) ⟨⟨c!"01", rfl, by decide, by decide, by decide⟩, by decide, by decide⟩
    filesG ⟨bg, by simp, bg_for⟩ (by
      show NavExample.glo.IntAt 1 3 0
      refine ⟨?_, by decide, by decide⟩
      simp [NavItem.val, specUnit, NavExample.glo, NavExample.gloNum, NavExample.value_zero])
    (by show 720 < 5000 + atxG.length; omega)

end NavTabEx
end Ggnss
