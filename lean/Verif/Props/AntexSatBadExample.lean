import Verif.Props.AntexSoundText
import Verif.Props.AntexSatBad
import Verif.Props.AntexExample
/-! # A concrete ANTEX file with damaged satellite records, meeting the hypotheses of C88 -/
namespace Ggnss
namespace AntexSatBadEx
open AntexExample
open BernExample (years years_at)

/-- Dates: the year only; text that does not begin with a digit is refused. -/
def dates (t : List Char) : Res DateTime :=
  match t with
  | c :: _ => if c.isDigit then years t else .throw .invalid_argument
  | [] => .throw .invalid_argument

theorem dates_at {l : List Char} {c : Char} {d : DateTime} (hc : l.head? = some c) (hd : c.isDigit = true) (h : 4 ≤ l.length)
    (he : d = ⟨365 * (digitsVal ((l.drop 0).take 4) : Int), 0⟩) : DateAt dates l 0 d := by
  intro tail
  have := years_at (off := 0) (by omega) he tail
  rw [List.drop_zero] at this ⊢
  cases l with
  | nil => simp at hc
  | cons x xs =>
    simp only [List.head?_cons, Option.some.injEq] at hc
    subst hc
    show (if x.isDigit then years _ else _) = _
    rw [if_pos hd]; exact this

def vf : List Char := lab c!"1992    11    22     0     0    0.0000000" c!"VALID FROM"
def vu : List Char := lab c!"2008    10    16    23    59   59.9999999" c!"VALID UNTIL"
def badFrom : List Char := lab c!"x992    11    22     0     0    0.0000000" c!"VALID FROM"
def g01 : List Char := lab c!"BLOCK IIA           G01                 G032      1992-079A" c!"TYPE / SERIAL NO"

/-- A record. -/
def rec (type : List Char) (inner : List (List Char)) : AtxRaw := ⟨lab [] c!"START OF ANTENNA", type, inner, lab [] c!"END OF ANTENNA"⟩

/-- G01 without method line, though otherwise good. -/
def s1 : SatRaw := ⟨rec g01 ([b3.dazi, vf, vu] ++ f1.lines), some (.gps, 1), none⟩
/-- G01, the date is damaged. -/
def s2 : SatRaw := ⟨rec g01 ([b3.meth, badFrom, vu] ++ f1.lines), some (.gps, 1), none⟩
/-- A record whose satellite number is damaged. -/
def s3 : SatRaw := ⟨rec (lab c!"BLOCK IIA           Gx1                 G032      1992-079A" c!"TYPE / SERIAL NO") ([b3.meth, vf, vu] ++ f1.lines), none, none⟩
/-- A record of another satellite, with nothing in it but a remark. -/
def s4 : SatRaw := ⟨rec (lab c!"BLOCK IIF           G02" c!"TYPE / SERIAL NO") [lab c!"nothing" c!"COMMENT"], some (.gps, 2), none⟩
/-- The intact record of G01. -/
def s5 : SatRaw := ⟨rec g01 (b3.top ++ (b3.freqs.map (·.lines)).flatten), some (.gps, 1), some (⟨365 * 1992, 0⟩, some ⟨365 * 2008, 0⟩)⟩

def sats : List SatRaw := [s1, s2, s3, s4, s5]

set_option maxRecDepth 20000 in
theorem named_g01 : SatNamed g01 (some (.gps, 1)) :=
  .sat ⟨.gps, 1, some 32, some c!"1992-079"⟩ ⟨by decide, natCheck_sound (k := 0) (ds := c!"01") (by decide),
      ⟨by decide, natCheck_sound (k := 0) (ds := c!"032") (by decide)⟩, ⟨by decide, by decide⟩⟩

set_option maxRecDepth 20000 in
theorem s1_wf : s1.WF dates 1 .gps :=
  ⟨⟨by decide, by decide, by decide, by decide, by decide⟩, named_g01, fun _ => .noMethod _ _ (by decide)⟩

set_option maxRecDepth 20000 in
theorem s2_wf : s2.WF dates 1 .gps := by
  refine ⟨⟨by decide, by decide, by decide, by decide, by decide⟩, named_g01, fun _ => .method b3.meth [badFrom] (vu :: f1.lines) none (by decide) ?_⟩
  exact .bad _ _ _ (Or.inl rfl) (by decide) (Or.inl (by decide)) (fun tail => ⟨.invalid_argument, rfl⟩)

set_option maxRecDepth 20000 in
theorem s3_wf : s3.WF dates 1 .gps := by
  refine ⟨⟨by decide, by decide, by decide, by decide, by decide⟩, .noNumber .gps (by decide) ⟨0, none, c!"x1   ", by decide, ?_⟩, ?_⟩
  · intro c hc
    simp only [List.head?_cons, Option.some.injEq] at hc
    subst hc
    decide
  · rintro ⟨n, h, _⟩; cases h

set_option maxRecDepth 20000 in
theorem s4_wf : s4.WF dates 1 .gps := by
  refine ⟨⟨by decide, by decide, by decide, by decide, by decide⟩, .sat ⟨.gps, 2, none, none⟩ ⟨by decide,
    natCheck_sound (k := 0) (ds := c!"02") (by decide), ?_, ?_⟩, ?_⟩
  · intro i h1 h2
    exact (by decide : ∀ i < 50, 40 ≤ i → s4.raw.type[i]? = some ' ') i h2 h1
  · intro i h1 h2
    exact (by decide : ∀ i < 60, 50 ≤ i → s4.raw.type[i]? = some ' ') i h2 h1
  · rintro ⟨n, h, hp⟩
    simp only [s4, Option.some.injEq, Prod.mk.injEq, true_and] at h
    omega

set_option maxRecDepth 20000 in
theorem valid_lines : ValidLines dates none none [b3.dazi, b3.zen, b3.num, vf, vu] (some (⟨365 * 1992, 0⟩, some ⟨365 * 2008, 0⟩)) := by
  refine .other _ _ _ _ _ (Or.inl rfl) (by decide) (by decide) (by decide) (by decide) ?_
  refine .other _ _ _ _ _ (Or.inl rfl) (by decide) (by decide) (by decide) (by decide) ?_
  refine .other _ _ _ _ _ (Or.inl rfl) (by decide) (by decide) (by decide) (by decide) ?_
  refine .from_ _ _ ⟨365 * 1992, 0⟩ _ _ _ (Or.inl rfl) (by decide) (by decide) (dates_at (c := '1') (by decide) (by decide) (by decide) (by decide)) ?_
  refine .until_ _ _ ⟨365 * 2008, 0⟩ _ _ _ (Or.inr rfl) (by decide) (by decide) (dates_at (c := '2') (by decide) (by decide) (by decide) (by decide)) ?_
  exact .both _ _

set_option maxRecDepth 20000 in
theorem s5_wf : s5.WF dates 1 .gps :=
  ⟨⟨by decide, by decide, by decide, by decide, by decide⟩, named_g01,
    fun _ => .method b3.meth [b3.dazi, b3.zen, b3.num, vf, vu] (f1.lines) _ (by decide) valid_lines⟩

theorem sats_wf : ∀ r ∈ sats, r.WF dates 1 .gps := by
  intro r hr
  simp only [sats, List.mem_cons, List.not_mem_nil, or_false] at hr
  rcases hr with rfl | rfl | rfl | rfl | rfl
  exacts [s1_wf, s2_wf, s3_wf, s4_wf, s5_wf]

def ep : DateTime := ⟨365 * 2000, 0⟩

theorem s5_for : s5.For 1 .gps ep := by
  refine ⟨⟨1, rfl, rfl⟩, ⟨365 * 1992, 0⟩, some ⟨365 * 2008, 0⟩, rfl, by decide, ?_⟩
  intro e he
  simp only [Option.some.injEq] at he
  subst he
  decide

theorem first : FirstSat sats (SatRaw.For 1 .gps ep) 4 s5 := by
  refine ⟨rfl, s5_for, ?_⟩
  have hn : ∀ r ∈ sats.take 4, ¬ r.For 1 .gps ep := by
    intro r hr
    simp only [sats, List.take_succ_cons, List.take_zero, List.mem_cons, List.not_mem_nil, or_false] at hr
    rcases hr with rfl | rfl | rfl | rfl <;> (rintro ⟨_, d, u, h, _⟩; cases h)
  intro j hj q hq
  exact hn q (List.mem_take_iff_getElem.2 (by
    obtain ⟨h1, h2⟩ := List.getElem?_eq_some_iff.1 hq
    exact ⟨j, by simp [sats] at h1 ⊢; omega, h2⟩))

set_option maxRecDepth 20000 in
theorem b3_dates : b3.WF dates := by
  obtain ⟨a1, a2, a3, a4, a5, a6, a7, a8, a9, a10, a11, a12, a13, a14, a15⟩ := b3_wf
  refine ⟨a1, a2, a3, a4, a5, a6, a7, a8, a9, ?_, a11, a12, a13, a14, a15⟩
  intro o ho
  simp only [b3, mk, List.mem_cons, List.not_mem_nil, or_false] at ho
  rcases ho with rfl | rfl
  · exact ⟨by decide, dates_at (c := '1') (by decide) (by decide) (by decide) (by decide)⟩
  · exact ⟨by decide, dates_at (c := '2') (by decide) (by decide) (by decide) (by decide)⟩

set_option maxRecDepth 20000 in
/-- The file is opened, and both queries for G01 get the intact fifth record: two damaged records of the same
satellite, one whose satellite cannot be made out and one of another satellite are passed over. -/
example (cospar : List Char) : ∃ f, atxOpen J (hdr.text ++ atxRawText (sats.map (·.raw))) = .ok f ∧
    (∃ s f', atxSatInfo dates J cospar (f.strm.content.length + 1) f 1 .gps ep = .ok (0, some s, f') ∧ satAntText s.ant = .ok (g01.take 20)) ∧
    (∃ l sv f', atxPcoSatellite dates J cospar (f.strm.content.length + 1) f 1 .gps ep = .ok (0, l, some sv, f') ∧ l.map Pco.flat = b3.offsets) ∧
    (∃ f', atxPcoSatellite dates J cospar (f.strm.content.length + 1) f 1 .gps ⟨365 * 2010, 0⟩ = .ok (10, [], none, f')) := by
  obtain ⟨f, p, h1, _, h3, h4, h5, h6, h7⟩ := C52_open_before J hdr_wf (atxRawText (sats.map (·.raw)))
  have hf : AtxOnRaw (sats.map (·.raw)) f := ⟨⟨p, h4, h5⟩, h6⟩
  refine ⟨f, h1, ?_, ?_, ?_⟩
  · obtain ⟨st, sv, f', e1, _, _, e4⟩ := C88_satellite_partial (eph := ep) J_wf (by simp [sats]) sats_wf hf J_nul cospar (Nat.lt_succ_self _)
    rcases e4 with ⟨i, r, s, x1, x2, x3, _, _, x6⟩ | ⟨x1, _⟩
    · have hi : i = 4 := by
        rcases Nat.lt_trichotomy i 4 with h | h | h
        · exact absurd x1.2.1 (first.2.2 i h r x1.1)
        · exact h
        · exact absurd s5_for (x1.2.2 4 h s5 rfl)
      subst hi
      have hr : r = s5 := by have := x1.1; simp only [sats, List.getElem?_cons_succ, List.getElem?_cons_zero, Option.some.injEq] at this; exact this.symm
      subst hr
      rw [x2, x3] at e1
      exact ⟨s, f', e1, x6⟩
    · exact absurd s5_for (x1 s5 (by simp [sats]))
  · obtain ⟨l, sv, f', e1, e2, _⟩ := C88_offsets_partial J_wf sats_wf hf J_nul cospar first b3_dates (E := []) (by rw [List.append_nil]; rfl)
      (AtxSays.intact b3.last (by decide)) (Nat.lt_succ_self _)
    exact ⟨l, sv, f', e1, e2⟩
  · obtain ⟨f', e1, _⟩ := C88_no_offsets (eph := ⟨365 * 2010, 0⟩) J_wf (by simp [sats]) sats_wf hf J_nul cospar (by
      intro r hr
      simp only [sats, List.mem_cons, List.not_mem_nil, or_false] at hr
      rcases hr with rfl | rfl | rfl | rfl | rfl
      · rintro ⟨_, d, u, h, _⟩; cases h
      · rintro ⟨_, d, u, h, _⟩; cases h
      · rintro ⟨_, d, u, h, _⟩; cases h
      · rintro ⟨_, d, u, h, _⟩; cases h
      · rintro ⟨_, d, u, h, _, h2⟩
        simp only [s5, Option.some.injEq, Prod.mk.injEq] at h
        obtain ⟨rfl, rfl⟩ := h
        exact absurd (h2 _ rfl) (by decide)) (Nat.lt_succ_self _)
    exact ⟨f', e1⟩

/-- A record of G01 that has lost everything after the method line. -/
def bare : AtxRaw := rec g01 [b3.meth, b3.dazi]

set_option maxRecDepth 20000 in
theorem bare_wf : bare.WF := ⟨by decide, by decide, by decide, by decide, by decide⟩

set_option maxRecDepth 20000 in
/-- Before the record `s5` it borrows its interval; at the end of the file the query hangs. -/
example (cospar : List Char) {f g : AtxFile} (hf : AtxOnRaw [bare, s5.raw] f) (hg : AtxOnRaw [bare] g) :
    (∃ s f', atxSatInfo dates J cospar (f.strm.content.length + 1) f 1 .gps ep = .ok (0, some s, f')) ∧
    ∀ fuel, atxSatInfo dates J cospar fuel g 1 .gps ep = .diverge := by
  constructor
  · obtain ⟨s, f', e1, _⟩ := C88_borrowed_interval (eph := ep) (prn := 1) (ss := .gps) J_wf (pre := []) (by simp) (by simp) (r := bare) (r' := s5.raw) (rs := []) hf J_nul cospar
      bare_wf named_g01 rfl (m := b3.meth) (ls := [b3.dazi]) rfl (by decide) (by decide) s5_wf.raw (s5_wf.span ⟨1, rfl, rfl⟩) (by decide) (by
        intro e he
        simp only [Option.some.injEq] at he
        subst he
        decide) (Nat.lt_succ_self _)
    exact ⟨s, f', e1⟩
  · exact C88_last_record_hangs J_wf (pre := []) (by simp) (by simp) hg J_nul cospar bare_wf named_g01 rfl (m := b3.meth) (ls := [b3.dazi]) rfl (by decide) (by decide)

set_option maxRecDepth 20000 in
/-- `C37_sound_text`: the hypotheses are met by the file of the first example, where the query for G01 is answered; the record the theorem speaks of has
the interval 1992 to 2008. -/
example (cospar : List Char) : ∃ f p ls f' sv, f.strm.fail = false ∧ f.endOfHead = some p ∧ f.strm.content.drop p = linesText ls ∧ (∀ l ∈ ls, GridLine l) ∧
    atxSatInfo dates J cospar (f.strm.content.length + 1) f 1 .gps ep = .ok (0, sv, f') ∧
    ∃ d u, SatSeen dates ls .gps 1 d u ∧ d.total ≤ ep.total ∧ ∀ e, u = some e → ep.total ≤ e.total := by
  obtain ⟨f, p, h1, _, h3, h4, h5, h6, h7⟩ := C52_open_before J hdr_wf (atxRawText (sats.map (·.raw)))
  have hf : AtxOnRaw (sats.map (·.raw)) f := ⟨⟨p, h4, h5⟩, h6⟩
  obtain ⟨st, sv, f', e1, _, _, e4⟩ := C88_satellite_partial (eph := ep) J_wf (by simp [sats]) sats_wf hf J_nul cospar (Nat.lt_succ_self _)
  have hw : ∀ l ∈ ((sats.map (·.raw)).map (·.lines)).flatten, GridLine l := by decide
  rcases e4 with ⟨i, r, s, x1, x2, x3, _⟩ | ⟨x1, _⟩
  · subst x2
    obtain ⟨sat, _, _, _, hs⟩ := C37_sound_text h6 h4 h5 hw e1
    exact ⟨f, p, _, f', sv, h6, h4, h5, hw, e1, hs⟩
  · exact absurd s5_for (x1 s5 (by simp [sats]))

end AntexSatBadEx
end Ggnss
