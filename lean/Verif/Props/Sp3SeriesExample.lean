import Verif.Props.Sp3Series
import Verif.Props.Sp3FateExample
/-! # Concrete files meeting the hypotheses of C115 -/
namespace Ggnss
namespace Sp3SeriesEx
open Sp3SoundEx Sp3FateEx

/-- A header without the blank behind the star. -/
def noHead : List Char := c!"*2020 what ever follows this"

/-- Two epochs, and one whose header has no blank. -/
def file : List Sp3EpochText := [(h, body), (h, body), (noHead, body)]

theorem ok : ∀ e ∈ file, e.OK := by
  intro e he
  simp only [file, List.mem_cons, List.not_mem_nil, or_false] at he
  rcases he with rfl | rfl | rfl
  · exact ⟨h_ok, by decide, by decide, body_lines⟩
  · exact ⟨h_ok, by decide, by decide, body_lines⟩
  · exact ⟨⟨by decide, by decide, by decide⟩, by decide, by decide, body_lines⟩

theorem plain : ∀ e ∈ file, e.Plain := by
  intro e he
  simp only [file, List.mem_cons, List.not_mem_nil, or_false] at he
  rcases he with rfl | rfl | rfl
  · exact ⟨h_plain, body_plain⟩
  · exact ⟨h_plain, body_plain⟩
  · exact ⟨not_odd (by decide), body_plain⟩

def rec7 : Sp3Rec := ⟨.gps, 7, [15000500, -12000650, 5000000, 7], ⟨0b011100⟩⟩

/-- With room for two: two epochs, then status 2. -/
theorem story {date : Sp3Epoch → Res MicroTime} {d : MicroTime} (hd : date ⟨2020, 1, 1, 0, 0, 5000000⟩ = .ok d) (closed : Bool) :
    Sp3FileSays date closed file [{}, {}] 0 [.epoch 0 d [rec7, {}] 1, .epoch 0 d [rec7, {}] 1, .defect 2 [rec7, {}] 1] :=
  .next _ _ _ _ _ _ _ _ _ (.epoch _ d [rec7] head ⟨by decide, by decide⟩ hd room (by decide) rfl)
    (.next _ _ _ _ _ _ _ _ _ (.epoch _ d [rec7] head ⟨by decide, by decide⟩ hd room (by decide) rfl) (.last _ _ _ _ (.header 2 (.start (by decide)))))

example (t0 d : MicroTime) (L : Sp3Lib) (hL : ∀ t, L.Takes t ∨ ∃ e, L.date t = .throw e) (hd : L.date ⟨2020, 1, 1, 0, 0, 5000000⟩ = .ok d) (junk : Nat → List Char)
    (hj : ∀ p, (junk p).length = 128) :
    ∃ out, out.map Sp3Answer.core = [(0, some d, [rec7, {}].map Sp3Rec.core, 1, 0), (0, some d, [rec7, {}].map Sp3Rec.core, 1, 0), (2, none, [rec7, {}].map Sp3Rec.core, 1, 1)] ∧
      List.Forall₂ Sp3Seen out (sp3Calls L junk 4 7 t0 [{}, {}] 0 ⟨sp3EpochsText file ++ c!"EOF", 0, false, false⟩ 0) :=
  C115_answers (s := ⟨sp3EpochsText file ++ c!"EOF", 0, false, false⟩) hL hj (by decide) (closed := true) (tail := c!"EOF")
    ⟨.eof c!"EOF" [] ⟨by decide, by decide, by decide⟩ rfl (Or.inl rfl), by decide⟩ (by decide) ok plain (by decide) (by decide) t0 rfl (by simp [Stream.rest]) (story hd true)

/-- With room for none the first call is undefined. -/
example {date : Sp3Epoch → Res MicroTime} {d : MicroTime} (hd : date ⟨2020, 1, 1, 0, 0, 5000000⟩ = .ok d) (closed : Bool) : Sp3FileSays date closed file [] 0 [.undefined] :=
  .stop _ _ _ _ _ _ (.overflow _ d [] 1 l1 _ head ⟨by decide, by decide⟩ hd rfl (by decide) pos (by simp [body, isPLine]) rfl) nofun

end Sp3SeriesEx
end Ggnss
