import Verif.Props.NavShort
import Verif.Props.NavExample
/-!
# Concrete records that meet the hypotheses of C75
-/
namespace Ggnss
namespace NavBadEx

open NavItem NavExample

/-- A line with a number of which only asterisks are left. -/
def lx : List Char := c!"     1.500000000000D+04 1.500000000000D+04*******************0.000000000000D+00"
/-- A line whose last number does not fit a `double`. -/
def lh : List Char := c!"     1.500000000000D+04 1.500000000000D+04 0.000000000000D+00              1D999"
/-- A first line whose last number is blank. -/
def lb : List Char := c!"R01 2020 01 01 00 15 00-4.101768136024D-05 0.000000000000D+00                   "
/-- A first line without a satellite number. -/
def lp : List Char := c!"R   2020-01-01 00 15 00-4.101768136024D-05 0.000000000000D+00 2.601000000000D+05"
/-- A first line with satellite number 00. -/
def lz : List Char := c!"R00 2020 01 01 00 15 00-4.101768136024D-05 0.000000000000D+00 2.601000000000D+05"

set_option maxRecDepth 20000 in
theorem lx_ok : LineOK lx := lineOK_of _ (by decide)
set_option maxRecDepth 20000 in
theorem lb_ok : LineOK lb := lineOK_of _ (by decide)
set_option maxRecDepth 20000 in
theorem lz_ok : LineOK lz := lineOK_of _ (by decide)

theorem l0_good : ∀ k < 3, FieldGood l0 (navCol 0 k) := fun k hk =>
  ⟨_, glo_wfv.record.numbers 0 l0 rfl k hk⟩
theorem l1_good : ∀ i, ∀ k < 4, FieldGood l1 (navCol (i + 1) k) := fun i k hk => by
  have := glo_wfv.record.numbers 2 l1 rfl k hk
  exact ⟨_, by simpa [navCol] using this⟩

set_option maxRecDepth 20000 in
theorem lx_bad : FieldBad lx 42 :=
  ⟨by decide, Or.inl (Or.inr ⟨0, '*', c!"******************0.000000000000E+00", by decide, by decide, by decide, by decide⟩)⟩

set_option maxRecDepth 20000 in
theorem lx_cols : ∀ k < 4, FieldGood lx (4 + 19 * k) ∨ FieldBad lx (4 + 19 * k) := by
  intro k hk
  match k, hk with
  | 0, _ => exact Or.inl ⟨km, fieldCheck_sound rfl⟩
  | 1, _ => exact Or.inl ⟨km, fieldCheck_sound rfl⟩
  | 2, _ => exact Or.inr lx_bad
  | 3, _ => exact Or.inl ⟨⟨0, none, c!"0", some c!"000000000000", some (some false, c!"00")⟩, fieldCheck_sound rfl⟩

set_option maxRecDepth 20000 in
theorem lh_ok : LineOK lh := lineOK_of _ (by decide)

set_option maxRecDepth 20000 in
theorem lh_bad : FieldBad lh 61 :=
  ⟨by decide, Or.inr ⟨hugeNum 14, [], (hugeNum_bad 14).1, by decide, (fun _ h => by cases h), (hugeNum_bad 14).2⟩⟩

set_option maxRecDepth 20000 in
theorem lh_cols : ∀ k < 4, FieldGood lh (4 + 19 * k) ∨ FieldBad lh (4 + 19 * k) := by
  intro k hk
  match k, hk with
  | 0, _ => exact Or.inl ⟨km, fieldCheck_sound rfl⟩
  | 1, _ => exact Or.inl ⟨km, fieldCheck_sound rfl⟩
  | 2, _ => exact Or.inl ⟨zero, fieldCheck_sound rfl⟩
  | 3, _ => exact Or.inr lh_bad

set_option maxRecDepth 20000 in
theorem lb_bad : FieldBad lb 61 := ⟨by decide, Or.inl (Or.inl (by decide))⟩

set_option maxRecDepth 20000 in
theorem lb_cols : ∀ k < 3, FieldGood lb (23 + 19 * k) ∨ FieldBad lb (23 + 19 * k) := by
  intro k hk
  match k, hk with
  | 0, _ => exact Or.inl ⟨bias, fieldCheck_sound rfl⟩
  | 1, _ => exact Or.inl ⟨zero, fieldCheck_sound rfl⟩
  | 2, _ => exact Or.inr lb_bad

theorem lb_prn : PrnAt lb 1 :=
  ⟨0, c!"01", lb.drop 3, by decide, by decide, by decide, by decide, by decide, by decide, by decide⟩

/-- Asterisks on the second orbit line. -/
theorem rec_mid : BadRecord .glonass 1 2 [l0, l1, lx] where
  inside := by decide
  count := rfl
  fits := by intro l hl; simp at hl; rcases hl with rfl | rfl | rfl; exacts [l0_ok, l1_ok, lx_ok]
  letter := by intro l hl; simp at hl; subst hl; rfl
  prn := by intro l hl; simp at hl; subst hl; exact prn1
  before := by
    intro i l hi hl k hk
    match i, hi with
    | 0, _ => simp at hl; subst hl; exact l0_good k hk
    | 1, _ => simp at hl; subst hl; exact l1_good 0 k hk
  line := by
    intro l hl; simp at hl; subst hl
    exact ⟨fun k hk => lx_cols k hk, 2, by decide, lx_bad⟩

/-- A number too large on the last line. -/
theorem rec_last : BadRecord .glonass 1 3 [l0, l1, l1, lh] where
  inside := by decide
  count := rfl
  fits := by intro l hl; simp at hl; rcases hl with rfl | rfl | rfl; exacts [l0_ok, l1_ok, lh_ok]
  letter := by intro l hl; simp at hl; subst hl; rfl
  prn := by intro l hl; simp at hl; subst hl; exact prn1
  before := by
    intro i l hi hl k hk
    match i, hi with
    | 0, _ => simp at hl; subst hl; exact l0_good k hk
    | 1, _ => simp at hl; subst hl; exact l1_good 0 k hk
    | 2, _ => simp at hl; subst hl; exact l1_good 1 k hk
  line := by
    intro l hl; simp at hl; subst hl
    exact ⟨fun k hk => lh_cols k hk, 3, by decide, lh_bad⟩

/-- A blank number on the first line. -/
theorem rec_first : BadRecord .glonass 1 0 [lb] where
  inside := by decide
  count := rfl
  fits := by intro l hl; simp at hl; rcases hl with rfl; exact lb_ok
  letter := by intro l hl; simp at hl; subst hl; rfl
  prn := by intro l hl; simp at hl; subst hl; exact lb_prn
  before := by intro i l hi; omega
  line := by
    intro l hl; simp at hl; subst hl
    exact ⟨fun k hk => lb_cols k hk, 2, by decide, lb_bad⟩

/-- `C75_number_refused`: statuses 6, 8 and 3. -/
example (junk tail : List Char) : ∃ f' s', readNextRecord dateOf junk frame
    ⟨linesText [l0, l1, lx] ++ tail, 0, false, false⟩ 0 = .ok ⟨6, f', s', 0⟩ := by
  obtain ⟨f', h, -⟩ := C75_number_refused dateOf junk frame ⟨linesText [l0, l1, lx] ++ tail, 0, false, false⟩ .glonass 1 2 _ tail toc
    rec_mid (fun _ _ => rfl) rfl rfl rfl
  exact ⟨f', _, h⟩
example (junk tail : List Char) : ∃ f' s', readNextRecord dateOf junk frame
    ⟨linesText [l0, l1, l1, lh] ++ tail, 0, false, false⟩ 0 = .ok ⟨8, f', s', 0⟩ := by
  obtain ⟨f', h, -⟩ := C75_number_refused dateOf junk frame ⟨linesText [l0, l1, l1, lh] ++ tail, 0, false, false⟩ .glonass 1 3 _ tail toc
    rec_last (fun _ _ => rfl) rfl rfl rfl
  exact ⟨f', _, h⟩
example (junk tail : List Char) : ∃ f' s', readNextRecord dateOf junk frame
    ⟨linesText [lb] ++ tail, 0, false, false⟩ 0 = .ok ⟨3, f', s', 0⟩ := by
  obtain ⟨f', h, -⟩ := C75_number_refused dateOf junk frame ⟨linesText [lb] ++ tail, 0, false, false⟩ .glonass 1 0 _ tail toc
    rec_first (fun _ _ => rfl) rfl rfl rfl
  exact ⟨f', _, h⟩

/-- `C75_search_refused`: behind a GPS record, the GLONASS record that cannot be read ends the search. -/
example (junk : Nat → List Char) (tail : List Char) : ∃ f' s', findNext dateOf junk 2 .glonass 17 frame
    ⟨fileText [gps] ++ (linesText [l0, l1, lx] ++ tail), 0, false, false⟩ 0 = .ok (some 0, ⟨6, f', s', 0⟩) := by
  obtain ⟨f', s', h, -⟩ := C75_search_refused dateOf junk 2 .glonass 17 1 frame
    ⟨fileText [gps] ++ (linesText [l0, l1, lx] ++ tail), 0, false, false⟩ [gps] 2 _ tail toc rfl rfl rfl
    (fun p hp => by simp at hp; subst hp; exact Or.inl ⟨by decide, gps_block⟩) rec_mid (fun _ _ => rfl) (by decide)
  exact ⟨f', s', h⟩

/-- `C75_search_valid_refused`: behind an unhealthy record of the same satellite. -/
example (junk : Nat → List Char) (tail : List Char) : ∃ f' s', findNextValid dateOf junk 2 5084554500000 .glonass 1 frame
    ⟨fileText [gloBad] ++ (linesText [l0, l1, lx] ++ tail), 0, false, false⟩ 0 = .ok (some 0, ⟨6, f', s', 0⟩) := by
  obtain ⟨f', s', h, -⟩ := C75_search_valid_refused dateOf junk 2 5084554500000 .glonass 1 1 frame
    ⟨fileText [gloBad] ++ (linesText [l0, l1, lx] ++ tail), 0, false, false⟩ [gloBad] 2 _ tail toc rfl rfl rfl
    (fun p hp => by
      simp at hp; subst hp
      refine Or.inr ⟨rfl, gloBad_wfv, Or.inr ⟨by unfold TooLate; decide, fun hv => ?_⟩⟩
      have h1 : gloBad.IntAt 1 3 0 := hv.1
      have := h1.1
      simp [NavItem.val, specUnit, gloBad, gloNum, value_one] at this) rec_mid (fun _ _ => rfl) (by decide)
  exact ⟨f', s', h⟩

set_option maxRecDepth 20000 in
/-- `C75_satellite_refused`: satellite number 00. -/
example (junk tail : List Char) : ∃ f' s', readNextRecord dateOf junk frame
    ⟨lz ++ '\n' :: tail, 0, false, false⟩ 0 = .ok ⟨2, f', s', 0⟩ := by
  obtain ⟨f', h, -⟩ := C75_satellite_refused dateOf junk frame ⟨lz ++ '\n' :: tail, 0, false, false⟩ .glonass lz tail toc lz_ok rfl
    (by decide) rfl (Or.inr ⟨0, c!"00", lz.drop 3, by decide, by decide, by decide, by decide⟩) rfl rfl
  exact ⟨f', _, h⟩

/-- `C75_bad_date_kills`. -/
example (junk tail : List Char) : readNextRecord (fun _ => .throw .invalid_argument) junk frame
    ⟨lz ++ '\n' :: tail, 0, false, false⟩ 0 = .terminate :=
  C75_bad_date_kills _ junk frame ⟨lz ++ '\n' :: tail, 0, false, false⟩ .glonass lz tail .invalid_argument lz_ok rfl (by decide) rfl rfl rfl

/-- `C75_cut_refused`: two of four lines. -/
example (junk : List Char) : ∃ f' s', readNextRecord dateOf junk frame
    ⟨linesText [l0, l1], 0, false, false⟩ 0 = .ok ⟨5, f', s', 0⟩ := by
  obtain ⟨f', s', h, -⟩ := C75_cut_refused dateOf junk frame ⟨linesText [l0, l1], 0, false, false⟩ .glonass 1 [l0, l1] toc
    { nonempty := by decide, notAll := by decide
      fits := by intro l hl; simp at hl; rcases hl with rfl | rfl; exacts [l0_ok, l1_ok]
      letter := by intro l hl; simp at hl; subst hl; rfl
      prn := by intro l hl; simp at hl; subst hl; exact prn1
      numbers := by
        intro i l hl k hk
        match i, hl with
        | 0, hl => simp at hl; subst hl; exact l0_good k hk
        | 1, hl => simp at hl; subst hl; exact l1_good 0 k hk
        | i + 2, hl => simp at hl } (fun _ _ => rfl) rfl rfl rfl
  exact ⟨f', s', h⟩

/-- `C75_accepted`: the healthy record. -/
example (junk tail : List Char) (o : NavOut) (ho : readNextRecord dateOf junk frame ⟨linesText glo.lines ++ tail, 0, false, false⟩ 0 = .ok o)
    (hs : o.status = 0) : FieldGood l1 (navCol 3 2) :=
  C75_accepted dateOf junk frame ⟨linesText glo.lines ++ tail, 0, false, false⟩ .glonass 1 glo.lines tail toc glo_wfv.record.toIsBlock
    glo_wfv.record.prn (fun _ _ => rfl) (fun j l hl k hk => Or.inl ⟨_, glo_wfv.record.numbers j l hl k hk⟩) rfl rfl rfl o ho hs 3 l1 rfl 2
    (by decide)

/-- `C75_short_line_taken_for_previous`: the healthy record with an empty third line. -/
example (junk tail : List Char) : ∃ f' s', readNextRecord dateOf junk frame
    ⟨linesText [l0, l1, [], l1] ++ tail, 0, false, false⟩ 0 = .ok ⟨0, f', s', 0⟩ := by
  obtain ⟨f', h, -⟩ := C75_short_line_taken_for_previous dateOf junk frame ⟨linesText [l0, l1, [], l1] ++ tail, 0, false, false⟩ glo l0 l1 l1 l1 tail
    glo_wfv.toWF rfl rfl rfl rfl rfl
  exact ⟨f', _, h⟩

set_option maxRecDepth 20000 in
theorem lp_ok : LineOK lp := lineOK_of _ (by decide)

/-- The healthy GLONASS record without its satellite number. -/
def gloNoPrn : NavItem := ⟨.glonass, 2020, toc, gloNum zero, [lp, l1, l1, l1]⟩

set_option maxRecDepth 20000 in
theorem gloNoPrn_wf : gloNoPrn.WF dateOf := by
  refine ⟨⟨⟨by decide, rfl, ?_, ?_⟩, ?_, ?_⟩, fun _ _ => rfl, by decide, ⟨_, glo_toe gloNoPrn rfl rfl rfl⟩⟩
  · intro l hl
    simp [gloNoPrn] at hl
    rcases hl with rfl | rfl
    exacts [lp_ok, l1_ok]
  · intro l hl; simp [gloNoPrn] at hl; subst hl; rfl
  · intro l hl; simp [gloNoPrn] at hl; subst hl
    exact ⟨3, c!"2020", lp.drop 8, by decide, by decide, by decide, by decide, by decide, by decide, by decide⟩
  · intro j x hx k hk
    match j, hx with
    | 0, hx =>
      simp [gloNoPrn] at hx; subst hx
      have hk' : k < 3 := by simpa [specCount] using hk
      apply fieldCheck_sound
      match k, hk' with
      | 0, _ => rfl
      | 1, _ => rfl
      | 2, _ => rfl
    | j + 1, hx =>
      have hx' : glo.lines[j + 1]? = some x := by simpa [gloNoPrn, glo] using hx
      exact glo_wfv.record.numbers (j + 1) x hx' k hk

end NavBadEx

open NavBadEx NavExample in
/-- A missing satellite number is not noticed: the year of the date is taken for it. -/
theorem C75_blank_satellite_takes_year (junk tail : List Char) :
    lp.take 8 = c!"R   2020" ∧ ∃ f' s', readNextRecord dateOf junk frame ⟨linesText [lp, l1, l1, l1] ++ tail, 0, false, false⟩ 0 = .ok ⟨0, f', s', 0⟩ ∧
      f'.prn = 2020 := by
  obtain ⟨f', h, hc, -⟩ := C17_record dateOf junk frame ⟨linesText [lp, l1, l1, l1] ++ tail, 0, false, false⟩ gloNoPrn tail gloNoPrn_wf rfl rfl rfl
  exact ⟨by decide, f', _, h, hc.prn⟩

end Ggnss
