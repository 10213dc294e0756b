import Verif.Props.ObsHeadBad
import Verif.Props.ObsHeadExample
import Verif.Spec.BadField
/-!
# C60: a version number out of range, and the positions behind it

(Theorems added after mutation testing.)
-/
namespace Ggnss

theorem char2double_err {line : List Char} (h : HeadArr line) : ∀ (N k : Nat), k + 14 * N ≤ 60 →
    ∃ vs, char2double true 14 N (line.drop k) = .ok (false, vs) := by
  intro N
  induction N with
  | zero => intro k _; exact ⟨[], rfl⟩
  | succ n ih =>
    intro k hk
    unfold char2double
    rw [h.strtod (by omega), Res.bind_ok]
    rcases strtod (line.drop k) with _ | ⟨v, r, er⟩
    · exact ⟨_, rfl⟩
    · obtain ⟨vs, hv⟩ := ih (k + 14) (by omega)
      simp only [Bool.true_or, List.drop_drop, hv, Res.bind_ok]
      exact ⟨_, rfl⟩

/-- **C60** (refusal).  When the version on the first line does not fit a `double`, the file is not refused at once, but its APPROX POSITION XYZ
line is, whatever it says: the error number of the C library is still set. -/
theorem C60_version_range_refuses_position {strptime : List Char → Res DateTime} {gAnt : Nat → List Char} {g0 : List Char} (hg0 : g0.length = 41)
    {junk : List Char} (hj : junk.length = 85) (buf0 : Nat → List Char) {first second pos : List Char} {sys : SatSys}
    (h1 : LineFits 84 first ∧ 60 ≤ first.length) (hv : TooBigNumber first) (hk : first[20]? = some 'O')
    (hs : first[40]? = some (satsysToChar sys)) (h2 : LineFits 84 second ∧ 60 ≤ second.length ∧ ¬ HasLabel second c!"END OF HEADER")
    (h3 : Labelled pos c!"APPROX POSITION XYZ") (tail : List Char) :
    obsOpen strptime gAnt false g0 junk buf0 (linesText [first, second, pos] ++ tail) = .throw .runtime_error := by
  generalize hct : linesText [first, second, pos] ++ tail = content
  have hg : (⟨content, 0, false, false⟩ : Stream).good = true := rfl
  have hr : (⟨content, 0, false, false⟩ : Stream).rest = linesText [first, second, pos] ++ tail := by rw [hct]; simp [Stream.rest]
  have hs0 : (⟨content, 0, false, false⟩ : Stream).seekg 0 = ⟨content, 0, false, false⟩ := rfl
  generalize hst : (⟨content, 0, false, false⟩ : Stream) = st at hg hr hs0
  have hg1 := getline_past (n := OBS_HEADER_CHARS) hg hr h1.1.1 h1.1.2.2
  have hr1 := rest_cons hr
  have hr2 := rest_cons hr1
  have hg2 := getline_past (n := OBS_HEADER_CHARS) (s := st.past [first]) hg hr1 h2.1.1 h2.1.2.2
  have hg3 := getline_past (n := OBS_HEADER_CHARS) (s := (st.past [first]).past [second]) hg hr2 h3.1.1 h3.1.2.2
  obtain ⟨n, rest, hn, hfe, hstop, hbig⟩ := hv
  obtain ⟨r, hn'⟩ : ∃ r, strtodA (fillLine junk first) = .ok (some (n.value, r, true)) := by
    unfold strtodA fillLine
    rw [if_pos (by simp), hfe, List.append_assoc]
    exact ⟨_, by rw [strtod_shape n hn _ (head_append_nul rest _ _ hstop (by decide)), (dblErange_iff _).2 hbig]⟩
  have hfl : strtofErr (some (n.value, r, true)) = true := rfl
  have harr : HeadArr (fillLine junk first) := by
    refine ⟨fill_length hj h1.1.2.2, ?_⟩
    unfold fillLine; rw [drop_line h1.2]; simp
  have hend := (labelsAre_line h2.1.2.1 h2.2.1 (fillLine junk first) c!"END OF HEADER" (by decide)).2 h2.2.2
  obtain ⟨vs, hc⟩ := char2double_err ((harr.fill h2.1.2.2).fill h3.1.2.2) 3 0 (by omega)
  rw [List.drop_zero] at hc
  unfold obsOpen
  rw [antInit_eq g0 hg0, Res.bind_ok]
  unfold obsReadHeader
  rw [hst]
  simp only [hs0, hg1, hn', Res.bind_ok, getAt_fill hk, getAt_fill hs, ne_eq, not_true_eq_false, if_false, charToSatsys_toChar, hg2, hfl, Bool.or_true]
  rw [show (1000 : Nat) = 999 + 1 from rfl, obsHeadLoop, hend, Res.bind_ok]
  simp only [Bool.false_eq_true, if_false, hg3, headLine_position (labelsAre_labelled h3 (by decide) _), hc, Res.bind_ok, Res.pure_eq]
  rfl

/-- A version that reads "inf" or "nan" (in any case of letters) is no range error: nothing is left in the error number of the C library for the
lines that follow. -/
theorem C60_infinite_version_no_range_error {w : List Char} (hw : w.map Char.toLower = c!"nan" ∨ w.map Char.toLower = c!"inf") :
    ∃ v r, strtod w = some (v, r, false) ∧ (v = HUGE ∨ v = -HUGE) ∧ strtofErr (strtod w) = false := by
  have key : ∃ v r, strtod w = some (v, r, false) ∧ (v = HUGE ∨ v = -HUGE) := by
    obtain ⟨a, b, c, rfl⟩ : ∃ a b c, w = [a, b, c] := by
      have hl : w.length = 3 := by
        rcases hw with h | h <;> simpa using congrArg List.length h
      match w, hl with
      | [a, b, c], _ => exact ⟨a, b, c, rfl⟩
    have hnsp : isSpace a = false ∧ a ≠ '-' ∧ a ≠ '+' := by
      refine ⟨?_, ?_, ?_⟩
      · cases h : isSpace a with
        | false => rfl
        | true =>
          exfalso
          simp [isSpace] at h
          rcases h with (((((h | h) | h) | h) | h) | h) <;> subst h <;> revert hw <;> simp [Char.toLower]
      · rintro rfl; revert hw; simp [Char.toLower]
      · rintro rfl; revert hw; simp [Char.toLower]
    have hd : ([a, b, c] : List Char).dropWhile isSpace = [a, b, c] := by rw [List.dropWhile_cons, hnsp.1]; rfl
    have hs : takeSign [a, b, c] = (false, [a, b, c]) := takeSign_other _ (fun x hx => by
      simp at hx; subst hx; exact ⟨hnsp.2.1, hnsp.2.2⟩)
    unfold strtod
    simp only [hd, hs]
    unfold strtodWord dropWord
    rcases hw with h | h
    · refine ⟨-HUGE, [], ?_, Or.inr rfl⟩
      simp only [List.length_cons, List.length_nil, List.take, h]
      have : ¬ (0 : Rat) < -HUGE := by
        have : (0 : Rat) ≤ HUGE := by unfold HUGE; exact_mod_cast Nat.zero_le _
        simpa using this
      simp [dropNanArg]
    · refine ⟨HUGE, [], ?_, Or.inl rfl⟩
      simp only [List.length_cons, List.length_nil, List.take, h]
      simp
  obtain ⟨v, r, h1, h2⟩ := key
  refine ⟨v, r, h1, h2, ?_⟩
  rw [h1]
  unfold strtofErr
  rcases h2 with h | h <;> simp [h]

namespace ObsHeadEx

example : ∃ v r, strtod c!"INF" = some (v, r, false) ∧ (v = HUGE ∨ v = -HUGE) ∧ strtofErr (strtod c!"INF") = false :=
  C60_infinite_version_no_range_error (Or.inr (by decide))

/-- A first line whose version is 1E999. -/
def hugeFirst : List Char := lab c!"     1E999          OBSERVATION DATA    M (MIXED)" c!"RINEX VERSION / TYPE"

set_option maxRecDepth 20000 in
/-- The hypotheses are met. -/
example {gAnt : Nat → List Char} {g0 : List Char} (hg0 : g0.length = 41) (buf0 : Nat → List Char) (t : List Char) :
    obsOpen years gAnt false g0 (List.replicate 85 'x') buf0 (linesText [hugeFirst, second, lab c!"  4027894.0060   307045.6000  4919474.9100" c!"APPROX POSITION XYZ"] ++ t) =
    .throw .runtime_error :=
  C60_version_range_refuses_position hg0 (by simp) buf0 (sys := .mixed) (by decide)
    ⟨hugeNum 5, hugeFirst.drop 10, (hugeNum_bad 5).1, by decide, by intro c hc; cases hc; decide, (hugeNum_bad 5).2⟩ (by decide) (by decide) header_wf.second
    (by decide) _

end ObsHeadEx
end Ggnss
