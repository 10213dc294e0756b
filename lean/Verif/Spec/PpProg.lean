import Verif.Model.PpProg
import Verif.Props.AntexSat
/-!
# Specification: what the positioning program lists
-/
namespace Ggnss

/-- The satellites listed for the antennas `bs` of an ANTEX file at date `dt`: exactly the GLONASS slots from 1 to 32 that have a record in force
at `dt`, in order, each with antenna, SVN and COSPAR id of its (first such) record. -/
structure SatsListed (bs : List AtxBlock) (dt : DateTime) (sats : List AtxSat) : Prop where
  order : (sats.map (·.prn)).Pairwise (· < ·)
  slots : ∀ k, k ∈ sats.map (·.prn) ↔ (1 ≤ k ∧ k ≤ 32) ∧ ∃ b ∈ bs, b.For k .glonass dt
  own : ∀ s ∈ sats, s.sys = .glonass ∧ ∃ i b id, FirstIdx bs (AtxBlock.For s.prn .glonass dt) i b ∧ b.sat = some id ∧
    satAntText s.ant = .ok b.model ∧ (∀ n, id.svn = some n → s.svn = n) ∧ ∀ c, id.cospar = some c → cstrOf s.cospar = .ok c

/-- The site of a header: the coordinates of "APPROX POSITION XYZ" and their latitude, longitude and height. -/
noncomputable def siteOf (car2ell : ℝ → ℝ → ℝ → ℝ × ℝ × ℝ) (p : List Rat) : PpSite :=
  let x : ℝ := ((p.getD 0 0 : ℚ) : ℝ)
  let y : ℝ := ((p.getD 1 0 : ℚ) : ℝ)
  let z : ℝ := ((p.getD 2 0 : ℚ) : ℝ)
  ⟨x, y, z, (car2ell x y z).1, (car2ell x y z).2.1, (car2ell x y z).2.2⟩

end Ggnss
