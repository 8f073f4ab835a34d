import Verif.Lemmas.Float
import Verif.Model.Rollout
/-
Model of wrap_yaws, of DeltaGlobal and of the Discretizer in machine arithmetic: the same functions as in Model/Geometry.lean,
Model/Continuous.lean and Model/Discretizer.lean, with every operation rounded as the hardware does it.
-/

namespace Waymax

open Real

/-- Numbers of a format. waymax/datatypes/object_state.py:127-166 -/
abbrev Flt (φ : Format) := {x : ℝ // φ.Rep x}

namespace Flt

variable {φ : Format}

/-- The number nearest to a real number; also the conversion of a Python float to the type of an array.
waymax/utils/geometry.py:338 -/
noncomputable def round (φ : Format) (x : ℝ) : Flt φ := ⟨φ.fl x, φ.rep_fl x⟩

/-- `+`. waymax/dynamics/delta.py:88-90 -/
noncomputable def add (a b : Flt φ) : Flt φ := round φ (a.val + b.val)

/-- `-`. waymax/dynamics/delta.py:144 -/
noncomputable def sub (a b : Flt φ) : Flt φ := round φ (a.val - b.val)

/-- `*`. waymax/dynamics/discretizer.py:73 -/
noncomputable def mul (a b : Flt φ) : Flt φ := round φ (a.val * b.val)

/-- `/`; division by zero, which gives inf or nan in the code, gives zero here. waymax/dynamics/delta.py:85-86 -/
noncomputable def div (a b : Flt φ) : Flt φ := round φ (a.val / b.val)

/-- Unary minus is exact. waymax/dynamics/delta.py:65 -/
noncomputable def neg (a : Flt φ) : Flt φ := ⟨-a.val, a.property.neg⟩

/-- Remainder of division with truncation, `a - trunc(a / b) * b`. Used at waymax/utils/geometry.py:338 -/
noncomputable def truncRem (a b : ℝ) : ℝ := a - b * (if 0 ≤ a / b then ⌊a / b⌋ else ⌈a / b⌉)

theorem truncRem_le (a b : ℝ) : |truncRem a b| ≤ |a| ∧ (b ≠ 0 → |truncRem a b| < |b|) := by
  by_cases hb : b = 0
  · subst hb
    simp [truncRem]
  have hq : b * (a / b) = a := by field_simp
  have hbp : 0 < |b| := abs_pos.2 hb
  have ha : |a| = |b| * |a / b| := by rw [← abs_mul, hq]
  unfold truncRem
  split_ifs with h
  · have f0 := Int.floor_le (a / b)
    have f1 := Int.lt_floor_add_one (a / b)
    have fn : (0 : ℝ) ≤ ⌊a / b⌋ := by exact_mod_cast Int.floor_nonneg.2 h
    have e : |a - b * (⌊a / b⌋ : ℝ)| = |b| * (a / b - ⌊a / b⌋) := by
      rw [show a - b * (⌊a / b⌋ : ℝ) = b * (a / b - ⌊a / b⌋) by rw [mul_sub, hq], abs_mul, abs_of_nonneg (by linarith : 0 ≤ a / b - ⌊a / b⌋)]
    rw [e, ha, abs_of_nonneg h]
    exact ⟨mul_le_mul_of_nonneg_left (by linarith) hbp.le, fun _ => by nlinarith⟩
  · rw [not_le] at h
    have f0 := Int.le_ceil (a / b)
    have f1 := Int.ceil_lt_add_one (a / b)
    have fn : (⌈a / b⌉ : ℝ) ≤ 0 := by
      have : ⌈a / b⌉ ≤ 0 := Int.ceil_le.2 (by simpa using h.le)
      exact_mod_cast this
    have e : |a - b * (⌈a / b⌉ : ℝ)| = |b| * (⌈a / b⌉ - a / b) := by
      rw [show a - b * (⌈a / b⌉ : ℝ) = b * (a / b - ⌈a / b⌉) by rw [mul_sub, hq], abs_mul, abs_of_nonpos (by linarith : a / b - ⌈a / b⌉ ≤ 0)]
      ring
    rw [e, ha, abs_of_neg h]
    exact ⟨mul_le_mul_of_nonneg_left (by linarith) hbp.le, fun _ => by nlinarith⟩

end Flt

namespace Format

variable {φ : Format}

/-- An integer combination of two numbers of the format is a number of the format if it is no larger than both. -/
theorem rep_combination {x y : ℝ} (hx : φ.Rep x) (hy : φ.Rep y) (k : ℤ) (h1 : |x - y * k| ≤ |x|) (h2 : |x - y * k| ≤ |y|) :
    φ.Rep (x - y * k) := by
  obtain ⟨m, e, hm, he, ex⟩ := hx
  obtain ⟨n, f, hn, hf, ey⟩ := hy
  have bound {c : ℤ} {a : ℤ} (hc : |c| < 2 ^ φ.prec) : |(c : ℝ) * 2 ^ a| ≤ 2 ^ (a + φ.prec) := by
    rw [abs_mul, abs_of_pos (two_zpow_pos a), zpow_add₀ (by norm_num), zpow_natCast, mul_comm]
    apply mul_le_mul_of_nonneg_left _ (two_zpow_pos a).le
    exact_mod_cast hc.le
  rcases le_total e f with h | h
  · obtain ⟨l, hl⟩ := lift_grid h n
    have e' : x - y * k = ((m - l * k : ℤ) : ℝ) * 2 ^ e := by
      rw [ex, ey, hl]
      push_cast
      ring
    rw [e']
    apply rep_of_grid he
    rw [← e']
    exact h1.trans (ex ▸ bound hm)
  · obtain ⟨l, hl⟩ := lift_grid h m
    have e' : x - y * k = ((l - n * k : ℤ) : ℝ) * 2 ^ f := by
      rw [ex, ey, hl]
      push_cast
      ring
    rw [e']
    apply rep_of_grid hf
    rw [← e']
    exact h2.trans (ey ▸ bound hn)

theorem rep_truncRem {a b : ℝ} (ha : φ.Rep a) (hb : φ.Rep b) : φ.Rep (Flt.truncRem a b) := by
  by_cases h0 : b = 0
  · subst h0
    simpa [Flt.truncRem] using ha
  have h := Flt.truncRem_le a b
  have h1 := h.1
  have h2 := (h.2 h0).le
  unfold Flt.truncRem at h1 h2 ⊢
  split_ifs at h1 h2 ⊢
  · exact rep_combination ha hb _ h1 h2
  · exact rep_combination ha hb _ h1 h2

end Format

namespace Flt

variable {φ : Format}

/-- `lax.rem`, the C function `fmod`: the remainder is computed exactly. Called at waymax/utils/geometry.py:338 -/
noncomputable def rem (a b : Flt φ) : Flt φ := ⟨truncRem a.val b.val, Format.rep_truncRem a.property b.property⟩

/-- `%` of JAX arrays (`jnp.remainder`): the truncated remainder, moved by the divisor when its sign is not the sign of the divisor.
Called at waymax/utils/geometry.py:338 -/
noncomputable def mod (a b : Flt φ) : Flt φ :=
  let t := rem a b
  if (t.val < 0 ↔ ¬ b.val < 0) ∧ t.val ≠ 0 then add t b else t

/-- `jnp.pi` next to an array: a Python float, converted to the type of the array. waymax/utils/geometry.py:338 -/
noncomputable def pi (φ : Format) : Flt φ := round φ (float64.fl π)

/-- `2 * jnp.pi`: multiplied in Python, then converted. waymax/utils/geometry.py:338 -/
noncomputable def twoPi (φ : Format) : Flt φ := round φ (float64.fl (2 * float64.fl π))

/-- `wrap_yaws` in machine arithmetic. waymax/utils/geometry.py:336-338 -/
noncomputable def wrapYaws (yaw : Flt φ) : Flt φ := sub (mod (add yaw (pi φ)) (twoPi φ)) (pi φ)

/-- `jnp.clip`: comparisons are exact. Called at waymax/dynamics/delta.py:107-116 -/
noncomputable def clip (x lo hi : Flt φ) : Flt φ := min (max x lo) hi

end Flt

/-- The scalars of the environment in machine arithmetic; `arctan2` is taken to be correctly rounded.
waymax/datatypes/object_state.py:294-316, waymax/dynamics/abstract_dynamics.py:187-191 -/
noncomputable instance (φ : Format) : ScalarOps (Flt φ) where
  zero := ⟨0, Format.Rep.zero⟩
  invalid := Flt.round φ (-1)
  add := Flt.add
  mul := Flt.mul
  arctan2 := fun y x => Flt.round φ (arctan2 y.val x.val)
  dt := Flt.round φ (float64.fl 0.1)

/-! ### Delta dynamics -/

/-- Constructor arguments of `DeltaGlobal`, as numbers of the format. waymax/dynamics/delta.py:37-57 -/
structure DeltaParamsFl (φ : Format) where
  dt : Flt φ
  maxDx : Flt φ
  maxDy : Flt φ

/-- The default arguments, converted from Python floats. waymax/dynamics/delta.py:37-43 -/
noncomputable def DeltaParamsFl.default (φ : Format) : DeltaParamsFl φ :=
  { dt := Flt.round φ (float64.fl 0.1), maxDx := Flt.round φ 6, maxDy := Flt.round φ 6 }

/-- Action row `(dx, dy, dyaw)`. waymax/dynamics/delta.py:59-67 -/
structure Delta3Fl (φ : Format) where
  dx : Flt φ
  dy : Flt φ
  dyaw : Flt φ

section
variable {φ : Format}

/-- `DeltaGlobal.compute_update`, one object. waymax/dynamics/delta.py:69-95 -/
noncomputable def deltaUpdateFl (P : DeltaParamsFl φ) (a : Act (Delta3Fl φ)) (p : Pt (Flt φ)) : Upd (Flt φ) :=
  { x := p.x.add a.data.dx, y := p.y.add a.data.dy, yaw := p.yaw.add a.data.dyaw,
    velX := a.data.dx.div P.dt, velY := a.data.dy.div P.dt, valid := p.valid && a.valid }

/-- `DeltaGlobal._clip_values`. waymax/dynamics/delta.py:97-118 -/
noncomputable def deltaClipFl (P : DeltaParamsFl φ) (a : Delta3Fl φ) : Delta3Fl φ :=
  { dx := a.dx.clip P.maxDx.neg P.maxDx, dy := a.dy.clip P.maxDy.neg P.maxDy, dyaw := a.dyaw.wrapYaws }

/-- `DeltaGlobal.inverse`, one object. waymax/dynamics/delta.py:120-155 -/
noncomputable def deltaInverseFl (P : DeltaParamsFl φ) {T : Nat} [NeZero T] (traj : Fin T → Pt (Flt φ)) (timestep : Int) :
    Act (Delta3Fl φ) :=
  let w := window2 traj timestep
  let raw : Delta3Fl φ := { dx := w.2.x.sub w.1.x, dy := w.2.y.sub w.1.y, dyaw := w.2.yaw.sub w.1.yaw }
  let valid := w.1.valid && w.2.valid
  let zero : Flt φ := ⟨0, Format.Rep.zero⟩
  let arr : Delta3Fl φ := if valid then raw else { dx := zero, dy := zero, dyaw := zero }
  { data := deltaClipFl P arr, valid := valid }

/-- `DeltaGlobal`. waymax/dynamics/delta.py:30-155 -/
noncomputable def deltaGlobalFl (P : DeltaParamsFl φ) {n : Nat} : DynamicsModel (Flt φ) (Delta3Fl φ) n :=
  .ofSingle (deltaUpdateFl P) (fun traj t => deltaInverseFl P traj t)

end

/-! ### Discretizer -/

/-- One vector element of a `Discretizer`, bounds as numbers of the format. waymax/dynamics/discretizer.py:38-60 -/
structure BinDimFl (φ : Format) where
  lo : Flt φ
  hi : Flt φ
  bins : ℕ

section
variable {φ : Format}

/-- `self._scale`: the integer number of bins is converted, then divided. waymax/dynamics/discretizer.py:58 -/
noncomputable def BinDimFl.scale (d : BinDimFl φ) : Flt φ := (Flt.round φ d.bins).div (d.hi.sub d.lo)

/-- The index of one vector element: normalise, clip, round. waymax/dynamics/discretizer.py:73-76 -/
noncomputable def BinDimFl.index (d : BinDimFl φ) (v : Flt φ) : ℤ :=
  rint (max (min ((v.sub d.lo).mul d.scale).val (Flt.round φ d.bins).val) 0)

/-- The value of one vector element of a discrete action. waymax/dynamics/discretizer.py:102-103 -/
noncomputable def BinDimFl.value (d : BinDimFl φ) (k : ℤ) : Flt φ := ((Flt.round φ k).div d.scale).add d.lo

/-- The dimension seen by the integer operations, which use the number of bins only. waymax/dynamics/discretizer.py:77-81, 96 -/
def BinDimFl.dim (d : BinDimFl φ) : BinDim := { lo := d.lo.val, hi := d.hi.val, bins := d.bins }

/-- `Discretizer.discretize` of one vector. waymax/dynamics/discretizer.py:61-82 -/
noncomputable def discretizeFl (ds : List (BinDimFl φ)) (v : List (Flt φ)) : Except Err ℤ :=
  if v.length ≠ ds.length then .error .valueError
  else .ok (ravelMultiIndex (ds.map BinDimFl.dim) (List.zipWith BinDimFl.index ds v))

/-- `Discretizer.make_continuous` of one index. waymax/dynamics/discretizer.py:84-103 -/
noncomputable def makeContinuousFl (ds : List (BinDimFl φ)) (k : ℤ) : List (Flt φ) :=
  List.zipWith BinDimFl.value ds (unravelIndex (ds.map BinDimFl.dim) k)

end

end Waymax
