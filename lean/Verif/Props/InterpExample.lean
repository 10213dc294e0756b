import Verif.Props.InterpFile
import Verif.Props.Sp3Example
/-! # Concrete files for C86 -/
namespace Ggnss
namespace InterpEx
open Sp3Example

set_option maxRecDepth 20000 in
theorem body1 : IsEpochBody [p2.line] [p2] := by
  refine ⟨?_, ?_, by decide, ?_⟩
  · intro l hl
    simp only [List.mem_cons, List.not_mem_nil, or_false] at hl
    rcases hl with rfl
    exact p2_wf.ok
  · decide
  · intro p hp
    simp only [List.mem_cons, List.not_mem_nil, or_false] at hp
    rcases hp with rfl
    exact p2_wf

/-- Three epochs; the second one lacks the satellite G01. -/
def blocks3 : List EpochBlock := [⟨hdr, ls, [p1, p2]⟩, ⟨hdr2, [p2.line], [p2]⟩, ⟨hdr2, ls, [p1, p2]⟩]
def file3 : Stream := ⟨(blocks3.map EpochBlock.text).flatten ++ (c!"EOF" ++ ['\n']), 0, false, false⟩

theorem blocks3_wf : ∀ b ∈ blocks3, b.WF 2 10 := by
  intro b hb
  simp only [blocks3, List.mem_cons, List.not_mem_nil, or_false] at hb
  rcases hb with rfl | rfl | rfl
  exacts [⟨hdr_wf, body, by simp, by simp [ls]⟩, ⟨hdr2_wf, body1, by simp, by simp⟩, ⟨hdr2_wf, body, by simp, by simp [ls]⟩]

theorem blocks3_sats : ∀ b ∈ blocks3, b.sats.Nodup ∧ ∀ y ∈ b.sats, y ∈ [(SatSys.gps, (1 : Int)), (.glonass, 24)] := by
  intro b hb
  simp only [blocks3, List.mem_cons, List.not_mem_nil, or_false] at hb
  rcases hb with rfl | rfl | rfl <;> simp [EpochBlock.sats, p1, p2]

/-- An object with two slots, for `K + 1` epochs. -/
def fresh (K : Int) : Interp := ⟨K, 0, [[{}], [{}]], []⟩

theorem fresh_ok (K : Int) : (fresh K).Fresh 2 := ⟨rfl, rfl, rfl⟩

theorem run (K : Int) (hK : -1 ≤ K ∧ K < 2147483647) :
    ∃ o' s' eps, interpInit (fun _ => noise) 10 0 0 t0 (some 0) 2 (fresh K) file3 0 = .ok (if K + 1 < 3 then 0 else -1, o', s') ∧
      EpochsAre (blocks3.take (if K + 1 < 3 then (K + 1).toNat else 2)) eps ∧ o'.Holds eps ∧ o'.K = K :=
  C86_file_partial (fun _ => noise) (fun _ => by simp [noise]) 10 0 t0 (by decide) c!"EOF" ['\n'] (lineOK_dec _ (by decide)) rfl
    (Or.inr ⟨[], rfl⟩) blocks3 (by simp [blocks3]) 2 blocks3_wf [(.gps, 1), (.glonass, 24)] (by simp) blocks3_sats (fresh_ok K) hK rfl rfl

/-- **C86** is false of the code (witness): the first two of these epochs are loaded with status 0, but the record in the slot
of G01 and the two times cannot be matched. -/
theorem C86_misaligned : ∃ o' s' eps, interpInit (fun _ => noise) 10 0 0 t0 (some 0) 2 (fresh 1) file3 0 = .ok (0, o', s') ∧
    EpochsAre (blocks3.take 2) eps ∧ o'.Holds eps ∧ ¬ o'.Aligned eps := by
  obtain ⟨o', s', eps, h1, h2, h3, _⟩ := run 1 (by decide)
  refine ⟨o', s', eps, h1, h2, h3, ?_⟩
  have h2' : EpochsAre [⟨hdr, ls, [p1, p2]⟩, ⟨hdr2, [p2.line], [p2]⟩] eps := h2
  unfold EpochsAre at h2'
  rcases h2' with _ | ⟨a1, h2'⟩
  rcases h2' with _ | ⟨a2, h2'⟩
  cases h2'
  rename_i e1 e2
  have q1 := decoded_sats a1.2
  have q2 := decoded_sats a2.2
  have hd : ∀ e ∈ [e1, e2], (e.2.map Sp3Rec.sat).Nodup := by
    intro e he
    simp only [List.mem_cons, List.not_mem_nil, or_false] at he
    rcases he with rfl | rfl
    · simp only [q1]; simp [p1, p2]
    · simp only [q2]; simp
  rw [C86_aligned_iff h3 hd]
  intro hall
  have hm : (SatSys.gps, (1 : Int)) ∈ e1.2.map Sp3Rec.sat := by simp only [q1]; simp [p1]
  obtain ⟨r, hr1, hr2⟩ := List.mem_map.1 hm
  obtain ⟨r', g1, g2⟩ := hall e1 (by simp) r hr1 e2 (by simp)
  have : (SatSys.gps, (1 : Int)) ∈ e2.2.map Sp3Rec.sat := List.mem_map.2 ⟨r', g1, by rw [g2, hr2]⟩
  simp only [q2] at this
  simp [p2] at this

/-- **C86** is false of the code (witness): asked for the three epochs of the file it loads two, with status -1. -/
theorem C86_last_epoch_lost : ∃ o' s' eps, interpInit (fun _ => noise) 10 0 0 t0 (some 0) 2 (fresh 2) file3 0 = .ok (-1, o', s') ∧
    EpochsAre (blocks3.take 2) eps ∧ o'.Holds eps := by
  obtain ⟨o', s', eps, h1, h2, h3, _⟩ := run 2 (by decide)
  exact ⟨o', s', eps, h1, h2, h3⟩

/-- `C86_never_emptied` and `C86_nothing_loaded` speak of calls that return. -/
example : (fresh 2).tvec = [] ∧ interpInit (fun _ => noise) 10 7 0 t0 (some 0) (2 : Nat) (fresh 2) file3 0 = .ok (0, fresh 2, sp3Rewind (some 0) file3 none) :=
  ⟨rfl, C86_nothing_loaded _ 10 (by decide) 0 t0 (some 0) 2 (fresh 2) file3 0⟩

end InterpEx
end Ggnss
