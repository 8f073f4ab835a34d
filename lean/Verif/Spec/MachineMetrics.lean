import Verif.Model.MachineMetrics
import Verif.Spec.Metrics
/-
Vocabulary for the statements about metrics in machine arithmetic: the exact positions behind machine numbers, and the tolerance of a
computed distance.
-/

namespace Waymax

variable {φ : Format}

/-- The exact position of an object. -/
def Pt.exactXy (p : Pt (Flt φ)) : ℝ × ℝ := (p.x.val, p.y.val)

/-- A path of machine numbers, seen as a path of real numbers. -/
def SdcPath.exact (path : SdcPath (Flt φ)) : SdcPath ℝ :=
  { points := path.points.map fun p => { x := p.x.val, y := p.y.val, z := p.z.val, id := p.id, valid := p.valid, arcLength := p.arcLength.val }
    onRoute := path.onRoute }

/-- The distances from `xy` to the valid points of the paths with the given on-route flags. -/
def exactDistances (paths : List (SdcPath (Flt φ))) (use : SdcPath ℝ → Prop) (xy : ℝ × ℝ) : Set ℝ :=
  distancesTo (paths.map SdcPath.exact) use xy

/-- The tolerance of a computed distance: five relative errors, and an absolute term far below any length on a road. -/
noncomputable def distanceTolerance (ε d : ℝ) : ℝ := 5 * ε * d + 2 ^ (-40 : ℤ)

/-- What a metric contributes to the reward of one object: its value, or 0 where the entry is marked invalid. -/
noncomputable def contributionFl {n : Nat} : MetricArrFl φ n → Fin n → ℝ
  | .perObject r, i => if (r i).valid = true then (r i).value.val else 0
  | .scalar r, _ => if r.valid = true then r.value.val else 0

/-- The tolerance of a reward that combines `k` metrics: `total` is the sum of the absolute values of the terms, `values` the sum of the
absolute values of the metrics. The second part is below the smallest positive number of the format times a few units. -/
noncomputable def rewardTolerance (φ : Format) (k : Nat) (total values : ℝ) : ℝ :=
  ((1 + φ.u) ^ (k + 2) - 1) * total + (1 + φ.u) ^ (k + 1) * 2 ^ φ.emin * (k + values)

end Waymax
