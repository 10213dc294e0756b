import Verif.Props.ObsHeadSound
import Verif.Props.ObsHeadExample
import Verif.Props.NavHeadSoundExample
/-! # Concrete lines meeting the hypotheses of C104 -/
namespace Ggnss.ObsHeadSoundEx
open ObsHeadEx (lab years lRec lPos lFst lOth first second)

theorem years_reads : ReadsString years years := by
  intro l j hl
  unfold years
  by_cases h6 : 6 ≤ l.length
  · rw [List.take_append_of_le_length h6]
  · have h1 : l.take 6 ≠ c!"  2019" := by
      intro h
      have := congrArg List.length h
      simp at this
      omega
    have h2 : (l ++ NUL :: j).take 6 ≠ c!"  2019" := by
      intro h
      have hm : NUL ∈ (l ++ NUL :: j).take 6 := by
        rw [List.take_append]
        obtain ⟨k, hk⟩ : ∃ k, 6 - l.length = k + 1 := ⟨6 - l.length - 1, by omega⟩
        rw [hk]
        simp
      rw [h] at hm
      revert hm
      decide
    rw [if_neg h1, if_neg h2]

/-- A header that nobody would call well formed: a name of two words, a radome, 13 codes with a further line that has none, a clock flag without a number. -/
def body : List (List Char) := [lab c!"NICO SIA" c!"MARKER NAME", lRec, lab c!"726261              LEIAR25.R4      LEIT" c!"ANT # / TYPE", lPos,
  lab c!"G   13 C1C L1C D1C S1C C2W L2W D2W S2W C2X L2X D2X S2X C5X" c!"SYS / # / OBS TYPES", lab c!"" c!"SYS / # / OBS TYPES", lab c!"R    1 C1" c!"SYS / # / OBS TYPES",
  lOth, lab c!"" c!"RCV CLOCK OFFS APPL", lFst]

def last : List Char := lab c!"" c!"END OF HEADER"

set_option maxRecDepth 20000 in
theorem headerLines : HeaderLines first second body last := by
  refine ⟨⟨by decide, by decide⟩, ⟨⟨by decide, by decide⟩, by decide⟩, ?_, ⟨by decide, by decide⟩, by decide⟩
  intro x hx
  simp only [body, List.mem_cons, List.not_mem_nil, or_false] at hx
  rcases hx with rfl | rfl | rfl | rfl | rfl | rfl | rfl | rfl | rfl | rfl <;> exact ⟨⟨by decide, by decide⟩, by decide⟩

def g41 : List Char := List.replicate 41 'x'

def opened : Res (ObsFileObj × Stream × List Char) :=
  obsOpen years (fun _ => g41) false g41 (List.replicate 85 'y') (fun n => List.replicate n 'z') (headerText first second body last c!"> 2019\n")

/-- The members of the object, as far as the example looks at them. -/
def looked : Option (List Char × Bool × Option DateTime × List (SatSys × Nat)) :=
  match opened with
  | .ok (o, _, _) => some (o.markerName, o.clkApplied, o.firstObs, o.obst.map (fun e => (e.1, e.2.length)))
  | _ => none

set_option synthInstance.maxSize 1000 in
set_option maxRecDepth 100000 in
theorem looked_eq : looked = some (c!"NICO", false, some ⟨58484, 0⟩, [(.gps, 13), (.glonass, 1)]) := by decide +kernel

/-- It is opened, so `C104_opened` applies to it. -/
example : ∃ o s b, opened = .ok (o, s, b) ∧ FirstGives first o ∧ (∃ entries, BodyGives years body entries ∧ ObsGiven entries o) ∧ s.rest = c!"> 2019\n" ∧
    o.markerName = c!"NICO" := by
  have h := looked_eq
  unfold looked at h
  cases ho : opened with
  | ok r =>
    obtain ⟨o, s, b⟩ := r
    rw [ho] at h
    simp only [Option.some.injEq, Prod.mk.injEq] at h
    obtain ⟨h1, h2, h3, h4, _⟩ := C104_opened years_reads (fun _ => rfl) rfl headerLines ho
    exact ⟨o, s, b, rfl, h1, h2, h4, h.1⟩
  | _ => rw [ho] at h; cases h

theorem vwf : ObsHeadEx.version.WF := ObsHeadEx.num_wf (by decide) (by decide) (by decide)

/-- The position is made of decimal numbers. -/
theorem plain : ∀ x ∈ body, PlainNumbers x := by
  intro x hx
  simp only [body, List.mem_cons, List.not_mem_nil, or_false] at hx
  rcases hx with rfl | rfl | rfl | rfl | rfl | rfl | rfl | rfl | rfl | rfl <;>
    exact fun _ => ⟨not_odd (by decide), not_odd (by decide), not_odd (by decide)⟩

/-- The same header with a system listed twice is not read in any way. -/
def twice : List (List Char) := [lab c!"G    1 C1C" c!"SYS / # / OBS TYPES", lab c!"G    1 L1C" c!"SYS / # / OBS TYPES"]

example : ¬ ∃ entries, BodyGives years twice entries := by
  rintro ⟨entries, hB⟩
  have hH : HeaderLines first second twice last := by
    refine ⟨headerLines.first, headerLines.second, ?_, headerLines.last⟩
    intro x hx
    simp only [twice, List.mem_cons, List.not_mem_nil, or_false] at hx
    rcases hx with rfl | rfl <;> exact ⟨⟨by decide, by decide⟩, by decide⟩
  have hver : ∀ v, DecBegins first v → v = ObsHeadEx.version.value := by
    intro v hv
    have h0 : NumberIn first ObsHeadEx.version.value :=
      numberIn_text (n := ObsHeadEx.version) vwf (rest := first.drop 9) (by intro c hc; revert c; decide)
    exact hv.unique (h0.resolve_left (not_odd (by decide))).1
  have hit := (C104_opened_iff (strptime := years) (g0 := g41) (junk := List.replicate 85 'y') (buf0 := fun n => List.replicate n 'z') (t := []) years_reads
    (gAnt := fun _ => g41) (fun _ => rfl) rfl hH (not_odd (by decide)) (fun v hv => by rw [hver v hv]; exact ObsHeadEx.version_fits)
    (by
      intro x hx
      simp only [twice, List.mem_cons, List.not_mem_nil, or_false] at hx
      rcases hx with rfl | rfl <;> exact fun _ => ⟨not_odd (by decide), not_odd (by decide), not_odd (by decide)⟩)).2
    ⟨⟨⟨ObsHeadEx.version.value, .mixed, none, [], [], [], [], [], [], [], false, none, []⟩, Or.inl ((numberIn_text (n := ObsHeadEx.version) vwf
      (rest := first.drop 9) (by intro c hc; revert c; decide)).resolve_left (not_odd (by decide))).1, by decide, by decide⟩, entries, hB⟩
  obtain ⟨r, hr⟩ := hit
  have : obsOpen years (fun _ => g41) false g41 (List.replicate 85 'y') (fun n => List.replicate n 'z') (headerText first second twice last []) =
      .throw .runtime_error := by decide +kernel
  rw [this] at hr
  cases hr

end Ggnss.ObsHeadSoundEx
