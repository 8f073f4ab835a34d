import Verif.Model.Ieee
/-
Vocabulary for C160: data without special values seen as data of the arithmetic with overflow. Nothing here is used by the model.
-/

namespace Waymax

variable {n T : Nat}

/-- A state all of whose numbers are below the overflow threshold, seen in the arithmetic with infinities and NaN. -/
noncomputable def Pt.ieee (F : IeeeFormat) (p : Pt (Flt F.fmt)) : Pt (Ieee F) :=
  { x := Ieee.ofFlt F p.x, y := Ieee.ofFlt F p.y, z := Ieee.ofFlt F p.z, velX := Ieee.ofFlt F p.velX, velY := Ieee.ofFlt F p.velY,
    yaw := Ieee.ofFlt F p.yaw, valid := p.valid, timestampMicros := p.timestampMicros,
    length := Ieee.ofFlt F p.length, width := Ieee.ofFlt F p.width, height := Ieee.ofFlt F p.height }

/-- The same for a path. -/
noncomputable def SdcPath.ieee (F : IeeeFormat) (p : SdcPath (Flt F.fmt)) : SdcPath (Ieee F) :=
  { points := p.points.map fun q => { x := Ieee.ofFlt F q.x, y := Ieee.ofFlt F q.y, z := Ieee.ofFlt F q.z, id := q.id, valid := q.valid,
                                      arcLength := Ieee.ofFlt F q.arcLength }
    onRoute := p.onRoute }

/-- The same for a scenario; the map, which none of the functions of Model/Ieee.lean reads, is left out. -/
noncomputable def SimState.ieee (F : IeeeFormat) (s : SimState (Flt F.fmt) n T) : SimState (Ieee F) n T :=
  { simTrajectory := fun i t => (s.simTrajectory i t).ieee F, logTrajectory := fun i t => (s.logTrajectory i t).ieee F,
    logTrafficLight := [], objectMetadata := s.objectMetadata, timestep := s.timestep,
    sdcPaths := s.sdcPaths.map fun paths => paths.map (SdcPath.ieee F), roadgraphPoints := none }

/-- The same for a metric. -/
noncomputable def MetricResultFl.ieee (F : IeeeFormat) (r : MetricResultFl F.fmt) : MetricResultIe F :=
  { value := Ieee.ofFlt F r.value, valid := r.valid }

/-- All coordinates of objects and path points are at most `2 ^ B` metres from the origin. -/
structure CoordinatesWithin {φ : Format} (B : ℕ) (s : SimState (Flt φ) n T) : Prop where
  sim : ∀ i t, |(s.simTrajectory i t).x.val| ≤ 2 ^ B ∧ |(s.simTrajectory i t).y.val| ≤ 2 ^ B
  log : ∀ i t, |(s.logTrajectory i t).x.val| ≤ 2 ^ B ∧ |(s.logTrajectory i t).y.val| ≤ 2 ^ B
  paths : ∀ paths, s.sdcPaths = some paths → ∀ path ∈ paths, ∀ p ∈ path.points, |p.x.val| ≤ 2 ^ B ∧ |p.y.val| ≤ 2 ^ B

/-- A square root that is not negative and neither above 1 nor above its argument, whichever is larger. -/
def SaneSqrt {φ : Format} (L : Libm φ) : Prop := ∀ x, 0 ≤ x.val → 0 ≤ (L.sqrt x).val ∧ (L.sqrt x).val ≤ max 1 x.val

/-- A sine and a cosine between -1 and 1. -/
def SaneTrig {φ : Format} (L : Libm φ) : Prop := ∀ x, |(L.sin x).val| ≤ 1 ∧ |(L.cos x).val| ≤ 1

/-- The sine, cosine and matrix product of Model/Ieee.lean, without overflow. -/
noncomputable def Libm.kernel {φ : Format} (L : Libm φ) : Kernel φ :=
  { sin := L.sin, cos := L.cos, dot := fun p a => (p.1.mul a.1).add (p.2.mul a.2) }

/-- Two results are the same: equally valid, and of equal value if valid. -/
def AgreeIfValid {F : IeeeFormat} (r : MetricResultIe F) (r' : MetricResultFl F.fmt) : Prop :=
  r.valid = r'.valid ∧ (r.valid = true → r.value = Ieee.ofFlt F r'.value)

/-- The machine number is finite and has this value. -/
def HasVal {F : IeeeFormat} (a : Ieee F) (r : ℝ) : Prop := ∃ x h, a = .fin x h ∧ x.val = r

/-- A box of moderate size at a moderate position. -/
structure BoxWithin {φ : Format} (B : ℕ) (p : Pt (Flt φ)) : Prop where
  x : |p.x.val| ≤ 2 ^ B
  y : |p.y.val| ≤ 2 ^ B
  length : |p.length.val| ≤ 2 ^ B
  width : |p.width.val| ≤ 2 ^ B
  yaw : |p.yaw.val| ≤ 2 ^ B

end Waymax
