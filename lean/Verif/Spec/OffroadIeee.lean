import Verif.Model.IeeeOffroad
import Verif.Model.MachineOffroad
import Verif.Spec.Overflow
import Verif.Spec.OffroadMachine
/-
Vocabulary for the statements about the off-road metric with NaN, infinities and overflow.
-/

namespace Waymax

variable {n T : Nat}

/-- A road point without special values seen in the arithmetic with infinities and NaN. -/
noncomputable def RgPoint.ieee (F : IeeeFormat) (p : RgPoint (Flt F.fmt)) : RgPoint (Ieee F) :=
  { x := Ieee.ofFlt F p.x, y := Ieee.ofFlt F p.y, z := Ieee.ofFlt F p.z, dirX := Ieee.ofFlt F p.dirX, dirY := Ieee.ofFlt F p.dirY,
    dirZ := Ieee.ofFlt F p.dirZ, type := p.type, id := p.id, valid := p.valid }

/-- The same for a scenario with its map. -/
noncomputable def SimState.ieeeRoad (F : IeeeFormat) (s : SimState (Flt F.fmt) n T) : SimState (Ieee F) n T :=
  { s.ieee F with roadgraphPoints := s.roadgraphPoints.map fun rg => rg.map (RgPoint.ieee F) }

/-- The sums of products of Model/IeeeOffroad.lean, without overflow. -/
noncomputable def Libm.roadKernel {φ : Format} (L : Libm φ) : RoadKernel φ :=
  { L.kernel with
    square3 := fun a b c => ((a.mul a).add (b.mul b)).add (c.mul c)
    cross := fun a b => (a.1.mul b.2).sub (a.2.mul b.1)
    norm := fun a => L.sqrt ((a.1.mul a.1).add (a.2.mul a.2)) }

/-- A road point of moderate coordinates and a direction no longer than a unit vector in either coordinate. -/
structure RoadWithin {φ : Format} (B : ℕ) (p : RgPoint (Flt φ)) : Prop where
  x : |p.x.val| ≤ 2 ^ B
  y : |p.y.val| ≤ 2 ^ B
  z : |p.z.val| ≤ 2 ^ B
  dirX : |p.dirX.val| ≤ 1
  dirY : |p.dirY.val| ≤ 1

/-- The box of an object is broken: one of the five numbers that describe it is NaN. -/
def Pt.BoxNan {F : IeeeFormat} (p : Pt (Ieee F)) : Prop := p.x = .nan ∨ p.y = .nan ∨ p.length = .nan ∨ p.width = .nan ∨ p.yaw = .nan

/-- A usable road-edge point: valid, of type road-edge boundary (15) or road-edge median (16). -/
def IsEdgeIe {F : IeeeFormat} (p : RgPoint (Ieee F)) : Prop := p.valid = true ∧ (p.type = 15 ∨ p.type = 16)

/-- All three coordinates of a road point are finite. -/
def RgPoint.Finite {F : IeeeFormat} (p : RgPoint (Ieee F)) : Prop :=
  p.x.isFinite = true ∧ p.y.isFinite = true ∧ p.z.isFinite = true

end Waymax
