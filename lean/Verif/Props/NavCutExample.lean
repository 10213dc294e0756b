import Verif.Props.NavCut
import Verif.Props.NavExample
/-!
# Concrete navigation files that end early: the hypotheses of C84 are met, and what is delivered
-/
namespace Ggnss
namespace NavExample
open NavItem

/-- The last line of `glo`, of which the file holds eight chars. -/
def cutLine : List Char := c!"     1.5"
/-- " 1.5" -/
def short15 : Numeral := ⟨1, none, c!"1", some c!"5", none⟩

theorem cutLine_field : FieldAt cutLine 4 short15 := fieldCheck_sound (by decide)

theorem value_short15 : short15.value = 3 / 2 := by
  norm_num [short15, Numeral.value, Numeral.digVal, Numeral.fracDigits, Numeral.expVal, signVal, Nat.ofDigitChars, d1, d5]
theorem value_km : km.value = 15000 := by
  norm_num [km, Numeral.value, Numeral.digVal, Numeral.fracDigits, Numeral.expVal, signVal, Nat.ofDigitChars, d0, d1, d5, show '4'.toNat = 52 from rfl]

/-- **C84**, the full property is false: of the record `glo` (z coordinate 15000 km) the file holds all but the end of the last line, which
is cut within its first number, `1.5`.  The record is delivered with status 0, and z coordinate 1.5 km (1500 m). -/
theorem C84_cut_accepted (junk : List Char) :
    glo.val 3 0 = 15000000 ∧
    ∃ f' s', readNextRecord dateOf junk frame ⟨linesText [l0, l1, l1] ++ cutLine, 0, false, false⟩ 0 = .ok ⟨0, f', s', 0⟩ ∧
      f'.sys = .glonass ∧ f'.prn = 1 ∧ f'.data[specIndex 3 0]? = some 1500 ∧ AtEnd s' := by
  refine ⟨by norm_num [NavItem.val, specUnit, glo, gloNum, value_km], ?_⟩
  obtain ⟨st, f', s', h1, _, h3, h4, _, _, h7, _, _, h10⟩ := C84_cut_last dateOf junk frame ⟨linesText [l0, l1, l1] ++ cutLine, 0, false, false⟩ (r := glo)
    glo_wfv.toWF (pre := [l0, l1, l1]) (l := l1) (q := cutLine) rfl ⟨l1.drop 8, by decide⟩ (by decide) rfl rfl rfl
  have hnum : ∀ k < specCount glo.sys 3, ∃ v, LastNumber glo cutLine k v := by
    intro k hk
    match k, hk with
    | 0, _ => exact ⟨_, Or.inl ⟨short15, cutLine_field, rfl⟩⟩
    | 1, _ => exact ⟨_, Or.inr ⟨by decide, by decide, rfl⟩⟩
    | 2, _ => exact ⟨_, Or.inr ⟨by decide, by decide, rfl⟩⟩
    | 3, _ => exact ⟨_, Or.inr ⟨by decide, by decide, rfl⟩⟩
  obtain ⟨rfl, hv⟩ := h10 hnum
  refine ⟨f', s', h1, h3, h4, ?_, h7⟩
  have := hv 0 (by decide) _ (Or.inl ⟨short15, cutLine_field, rfl⟩)
  rw [value_short15] at this
  rw [show specIndex 3 0 = specIndex [l0, l1, l1].length 0 from rfl, this]
  norm_num [specUnit, glo]

/-- The file ends within the third line of `glo`: the record is refused. -/
example (junk : List Char) : ∃ st f' s', readNextRecord dateOf junk frame ⟨linesText [l0, l1] ++ l1.take 30, 0, false, false⟩ 0 = .ok ⟨st, f', s', 0⟩ ∧
    st ∈ [5, 6, 7] ∧ f'.prn = 1 := by
  obtain ⟨st, f', s', h1, h2, _, h4, _⟩ := C84_cut_middle dateOf junk frame ⟨linesText [l0, l1] ++ l1.take 30, 0, false, false⟩ (r := glo)
    glo_wfv.toWF (pre := [l0, l1]) (l := l1) (rest := [l1]) (q := l1.take 30) rfl (by simp) (List.take_prefix _ _) (Or.inl (by simp)) rfl rfl rfl
  exact ⟨st, f', s', h1, h2, h4⟩

/-- The file ends within the date of `glo`. -/
example (junk : List Char) (o : NavOut) (h : readNextRecord dateOf junk frame ⟨l0.take 14, 0, false, false⟩ 0 = .ok o) : o.status ≠ 0 :=
  (C84_cut_first dateOf junk frame ⟨l0.take 14, 0, false, false⟩ (r := glo) glo_wfv.toWF (rest := [l1, l1, l1]) (l := l0) (p := l0.take 14)
    rfl (List.take_prefix _ _) (by decide) rfl rfl rfl h).1

/-- The hypotheses of `C84_sequence` are met: a complete record, then the beginning of another. -/
example (junk : Nat → List Char) : ∃ (m : Nat) (p : List Char) (out : List (Int × NavFrame)), m ≤ 2 ∧
    gloBad.text ++ (linesText [l0, l1, l1] ++ cutLine) = fileText ([gloBad, glo].take m) ++ p ∧
    List.Forall₂ (fun r x => x.1 = 0 ∧ Carries x.2 r) ([gloBad, glo].take m) out := by
  obtain ⟨m, p, out, h1, h2, h3, _⟩ := C84_sequence dateOf 3 [gloBad, glo] junk frame ⟨gloBad.text ++ (linesText [l0, l1, l1] ++ cutLine), 0, false, false⟩
    rfl (by
      refine ⟨l1.drop 8 ++ ['\n'], ?_⟩
      simp only [Stream.rest, List.drop_zero, fileText, List.map_cons, List.map_nil, List.flatten_cons, List.flatten_nil, List.append_assoc, List.append_nil]
      congr 1) rfl
    (by
      intro r hr; simp at hr
      rcases hr with rfl | rfl
      · exact gloBad_wfv.toWF
      · exact glo_wfv.toWF)
  exact ⟨m, p, out, h1, h2, h3⟩

/-- Skipping: the file ends within the third line of the record. -/
example : (ignoreNextBlock ⟨linesText [l0, l1] ++ l1.take 30, 0, false, false⟩).1 = 2 := by
  obtain ⟨s', h, _⟩ := C84_skip (sys := .glonass) (pre := [l0, l1]) (l := l1) (rest := [l1]) (q := l1.take 30) glo_wfv.toWF.record.toIsBlock
    (List.take_prefix _ _) ⟨linesText [l0, l1] ++ l1.take 30, 0, false, false⟩ rfl rfl (by simp [Stream.rest, linesText])
  rw [h]; simp

end NavExample
end Ggnss
