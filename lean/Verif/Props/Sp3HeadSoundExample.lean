import Verif.Props.Sp3HeadSound
import Verif.Props.Sp3HeadExample
/-! # A concrete header meeting the hypotheses of C102 -/
namespace Ggnss
namespace Sp3HeadSoundEx

/-- The lines of a header in a bad state: seconds and interval are words, text follows other numbers. -/
def ls : List (List Char) :=
  [c!"#dP2020 01+1  0  0x     none     3epochsORBIT IGS14 HLM  IGS", c!"## 2086 259200.0 seconds  unknown      58849 .0 more",
   c!"+ +2sat", c!"++", c!"anything", c!"%c M  cc GPS", c!"%c", c!"%f", c!"%f", c!"%i", c!"%i", c!"/* c", c!"*  2020"]

/-- The exact library. -/
abbrev lib : Sp3Lib := Sp3HeadEx.exactLib

def members? (r : Res Sp3File) : Option (Char × MicroTime × Int × Int × List Char × List Char × List Char × List Char × Int) :=
  match r with
  | .ok f => some f.members
  | _ => none

set_option synthInstance.maxSize 1000 in
set_option maxRecDepth 100000 in
theorem opened : members? (sp3Open lib false (List.replicate 85 'x') (linesText ls)) =
    some ('d', ⟨58849, 0⟩, 3, 2, c!"IGS14", c!"HLM", c!" IG", c!"GPS", 0) := by
  decide +kernel

theorem ls_fits : ∀ l ∈ ls, LineFits 84 l := by
  intro l hl
  apply Sp3HeadEx.fits
  revert l
  decide

/-- Without the exact value of `f`: this file is opened. -/
theorem opens : ∃ f, sp3Open lib false (List.replicate 85 'x') (linesText ls) = .ok f ∧
    f.members = ('d', ⟨58849, 0⟩, 3, 2, c!"IGS14", c!"HLM", c!" IG", c!"GPS", 0) := by
  have h := opened
  cases e : sp3Open lib false (List.replicate 85 'x') (linesText ls) with
  | ok f => rw [e] at h; exact ⟨f, rfl, Option.some.inj h⟩
  | throw x => rw [e] at h; cases h
  | terminate => rw [e] at h; cases h
  | ub => rw [e] at h; cases h
  | diverge => rw [e] at h; cases h

/-- The hypotheses of C102 are met by this file. -/
example : ∃ f : Sp3File, ∃ d : Sp3Lines ls, ∃ sat, d.sats.head? = some sat ∧ Sp3HeaderGives lib d.first d.second sat d.c1 f := by
  obtain ⟨f, h, _⟩ := opens
  obtain ⟨d, sat, h1, h2, _⟩ := C102_opened (by decide) ls_fits h
  exact ⟨f, d, sat, h1, h2⟩

end Sp3HeadSoundEx

/-- **C102**: an interval that cannot be read is not reported: whatever the library of dates, a file whose second line has no number in the columns of the interval
is opened (if at all) with the interval 0 ... -/
theorem C102_unreadable_interval {L : Sp3Lib} {e0 : Bool} {junk : List Char} (hj : junk.length = 85) {ls : List (List Char)}
    (hl : ∀ l ∈ ls, LineFits 84 l) {f : Sp3File} (h : sp3Open L e0 junk (linesText ls) = .ok f) {second : List Char} (h2 : ls[1]? = some second)
    (hlen : 24 ≤ second.length) (hodd : ¬ OddNumber (second.drop 24)) (hno : ∀ v, ¬ DecBegins (second.drop 24) v) : f.interval = 0 := by
  obtain ⟨d, sat, -, hg, -⟩ := C102_opened hj hl h
  have e : d.second = second := by
    have := d.eq ▸ h2
    simpa using this
  obtain ⟨q, hq, hc⟩ := hg.interval (by rw [e]; exact hlen)
  rw [e] at hq
  have hq0 : q = 0 := by
    rcases hq with (hq | hq) | hq
    · exact absurd hq hodd
    · exact absurd hq.1 (hno _)
    · exact hq.1
  rw [hq0] at hc
  refine trunc_unique hc ?_
  norm_num

/-- ... and such files are opened: a header with a word in the place of the interval. -/
theorem C102_word_for_interval : ∃ f, sp3Open Sp3HeadEx.exactLib false (List.replicate 85 'x') (linesText Sp3HeadSoundEx.ls) = .ok f ∧ f.interval = 0 ∧
    ∀ v, ¬ DecBegins ((Sp3HeadSoundEx.ls.getD 1 []).drop 24) v := by
  obtain ⟨f, h, hm⟩ := Sp3HeadSoundEx.opens
  refine ⟨f, h, ?_, strtod_not_begins (by decide +kernel)⟩
  have := congrArg (fun m => m.2.2.2.2.2.2.2.2) hm
  exact this

end Ggnss
