import Verif.Model.TimeTensors
/-
Vocabulary for the statements about preprocessing dictionaries of tensors. Nothing here is used by the model.
-/

namespace Waymax

/-- Tensor `a` is `p`, then `c`, then `u` along one axis; the axes `pre` come before it and the axes `post` after it. -/
def JoinedInTime (pre post : List Nat) (p c u a : Nd ℝ) : Prop :=
  ∃ dp dc du, p.shape = pre ++ dp :: post ∧ c.shape = pre ++ dc :: post ∧ u.shape = pre ++ du :: post ∧
    a.shape = pre ++ (dp + dc + du) :: post ∧
    ∀ i j : List Nat, i.length = pre.length →
      (∀ k < dp, a.get (i ++ k :: j) = p.get (i ++ k :: j)) ∧
      (∀ k < dc, a.get (i ++ (dp + k) :: j) = c.get (i ++ k :: j)) ∧
      (∀ k < du, a.get (i ++ (dp + dc + k) :: j) = u.get (i ++ k :: j))

/-- The key has the form `<kind>/<past|current|future>/<feature>` and the dictionary has `<kind>/current/<feature>`. -/
def IsTimeKey (d : Feats) (key : List Char) : Prop :=
  ∃ kind ∈ ["state/".toList, "traffic_light_state/".toList], ∃ time ∈ ["past".toList, "current".toList, "future".toList],
    ∃ feature, key = kind ++ time ++ "/".toList ++ feature ∧ (d.get? (kind ++ "current/".toList ++ feature)).isSome

end Waymax
