import Verif.Spec.MachineMetrics
import Verif.Props.Reward
import Verif.Props.MetricsMachine
/-
C154: rewards in machine arithmetic.
-/

namespace Waymax

open Real

section
variable {φ : Format} {n T : Nat}

/-- After a successful `run_metrics` every configured metric is in the dictionary. -/
theorem runMetricsFl_loop (reg : Dict (MetricFl φ n T)) (s : SimState (Flt φ) n T) (names : List String) (acc out : Dict (MetricArrFl φ n))
    (h : names.foldlM (fun results name =>
      match reg.get? name with
      | some m => do return results.set name (← m s)
      | none => (Except.error .valueError : Except Err (Dict (MetricArrFl φ n)))) acc = .ok out) :
    (∀ k ∈ names, ∃ m v, reg.get? k = some m ∧ m s = .ok v ∧ out.get? k = some v) ∧
    (∀ k, k ∉ names → out.get? k = acc.get? k) := by
  induction names generalizing acc with
  | nil =>
    simp only [List.foldlM_nil, pure, Except.pure, Except.ok.injEq] at h
    subst h
    simp
  | cons a names ih =>
    rw [List.foldlM_cons] at h
    cases hm : reg.get? a with
    | none => simp only [hm, bind, Except.bind] at h; cases h
    | some m =>
      cases hv : m s with
      | error e => simp only [hm, hv, bind, Except.bind] at h; cases h
      | ok v =>
        simp only [hm, hv, bind, Except.bind, pure, Except.pure] at h
        obtain ⟨h1, h2⟩ := ih _ h
        refine ⟨?_, ?_⟩
        · intro k hk
          rcases List.mem_cons.1 hk with rfl | hk
          · by_cases hin : k ∈ names
            · exact h1 k hin
            · exact ⟨m, v, hm, hv, by rw [h2 k hin, Dict.get?_set, if_pos rfl]⟩
          · exact h1 k hk
        · intro k hk
          rw [List.mem_cons, not_or] at hk
          rw [h2 k hk.2, Dict.get?_set, if_neg hk.1]

/-- The accumulation loop for one object. -/
noncomputable def rewardSum (c : String → Flt φ) (rewards : Dict (Flt float64)) (acc : Flt φ) : Flt φ :=
  rewards.foldl (fun r e => r.add ((c e.1).mul (pyFloat φ e.2))) acc

theorem rewardFl_loop (all : Dict (MetricArrFl φ n)) (mask : Fin n → Bool) (rewards : Dict (Flt float64)) (acc : Fin n → Flt φ)
    (vals : String → MetricArrFl φ n) (h : ∀ e ∈ rewards, all.get? e.1 = some (vals e.1)) :
    rewards.foldlM (fun reward e =>
      match all.get? e.1 with
      | some r => (Except.ok fun i => (reward i).add (((r.masked i).mul (Flt.round φ (if mask i then 1 else 0))).mul (pyFloat φ e.2)) :
          Except Err (Fin n → Flt φ))
      | none => .error .keyError) acc =
    .ok fun i => rewardSum (fun k => ((vals k).masked i).mul (Flt.round φ (if mask i then 1 else 0))) rewards (acc i) := by
  induction rewards generalizing acc with
  | nil => simp [pure, Except.pure, rewardSum]
  | cons a rewards ih =>
    rw [List.foldlM_cons, h a (by simp)]
    simp only [bind, Except.bind]
    rw [ih _ (fun e he => h e (by simp [he]))]
    rfl

theorem masked_val (r : MetricArrFl φ n) (i : Fin n) : (r.masked i).val = contributionFl r i := by
  cases r with
  | perObject r =>
    show (if (r i).valid then (r i).value else Flt.zero φ).val = if (r i).valid = true then (r i).value.val else 0
    split <;> rfl
  | scalar r =>
    show (if r.valid then r.value else Flt.zero φ).val = if r.valid = true then r.value.val else 0
    split <;> rfl

/-- A sum whose terms vanish is zero. -/
theorem rewardSum_zero (c : String → Flt φ) (rewards : Dict (Flt float64)) (acc : Flt φ) (h : ∀ k, (c k).val = 0) :
    rewardSum c rewards acc = acc := by
  induction rewards generalizing acc with
  | nil => rfl
  | cons a rewards ih =>
    show rewardSum c rewards (acc.add ((c a.1).mul (pyFloat φ a.2))) = acc
    rw [Flt.add_zero_right, ih]
    show φ.fl ((c a.1).val * _) = 0
    rw [h, zero_mul, Format.fl_zero]

theorem emin_nonpos_one (hφ : φ.emin ≤ 0) : (Flt.round φ 1).val = 1 := by
  apply Format.fl_of_rep
  have := φ.two_le
  refine ⟨1, 0, ?_, hφ, by norm_num⟩
  rw [abs_one]
  exact one_lt_pow₀ (by norm_num) (by omega)

/-- What `linearRewardFl` computes, object by object. -/
theorem linearRewardFl_eq (hφ : φ.emin ≤ 0) {D : Type} {reg : Dict (MetricFl φ n T)} {rewards : Dict (Flt float64)} {s : SimState (Flt φ) n T}
    {action : Fin n → Act D} {mask : Fin n → Bool} {r : Fin n → Flt φ} (h : linearRewardFl reg rewards s action mask = .ok r) :
    ∃ vals : String → MetricArrFl φ n,
      (∀ e ∈ rewards, ∃ m, reg.get? e.1 = some m ∧ m s = .ok (vals e.1)) ∧
      (∀ i, mask i = true → r i = rewardSum (fun k => (vals k).masked i) rewards (Flt.zero φ)) ∧
      (∀ i, mask i = false → (r i).val = 0) := by
  unfold linearRewardFl at h
  cases hrun : runMetricsFl reg s (rewards.map Prod.fst) with
  | error e => simp only [hrun, bind, Except.bind] at h; cases h
  | ok all =>
    simp only [hrun, bind, Except.bind] at h
    obtain ⟨h2, -⟩ := runMetricsFl_loop reg s _ [] all hrun
    let vals : String → MetricArrFl φ n := fun k => (all.get? k).getD (.scalar { value := Flt.zero φ, valid := false })
    have hvals : ∀ e ∈ rewards, all.get? e.1 = some (vals e.1) := by
      intro e he
      obtain ⟨m, v, -, -, hv⟩ := h2 e.1 (List.mem_map.2 ⟨e, he, rfl⟩)
      simp only [vals, hv, Option.getD_some]
    obtain rfl := Except.ok.inj ((rewardFl_loop all mask rewards _ vals hvals).symm.trans h)
    refine ⟨vals, ?_, ?_, ?_⟩
    · intro e he
      obtain ⟨m, v, h3, h4, h5⟩ := h2 e.1 (List.mem_map.2 ⟨e, he, rfl⟩)
      refine ⟨m, h3, ?_⟩
      simp only [vals, h5, Option.getD_some, h4]
    · intro i hi
      simp only [hi, if_true]
      congr 1
      funext k
      exact Flt.mul_one _ (emin_nonpos_one hφ)
    · intro i hi
      simp only [hi, Bool.false_eq_true, if_false]
      rw [rewardSum_zero _ _ _ fun k => Flt.mul_zero _ Flt.round_zero]
      rfl

/-- The error of one term. -/
theorem reward_term (c : Flt φ) (w : Flt float64) :
    |(c.mul (pyFloat φ w)).val - w.val * c.val| ≤
      ((1 + φ.u) ^ 2 - 1) * |w.val * c.val| + (1 + φ.u) * 2 ^ φ.emin * (1 + |c.val|) := by
  have hu := φ.u_pos
  have he := Format.two_zpow_pos φ.emin
  have e1 : |(pyFloat φ w).val - w.val| ≤ φ.u * |w.val| + 2 ^ φ.emin := φ.fl_err_tiny w.val
  have e2 : |(c.mul (pyFloat φ w)).val - c.val * (pyFloat φ w).val| ≤ φ.u * |c.val * (pyFloat φ w).val| + 2 ^ φ.emin := φ.fl_err_tiny _
  obtain ⟨v, hv⟩ : ∃ v, v = (pyFloat φ w).val := ⟨_, rfl⟩
  obtain ⟨t, ht⟩ : ∃ t, t = (c.mul (pyFloat φ w)).val := ⟨_, rfl⟩
  obtain ⟨η, hη⟩ : ∃ η : ℝ, η = 2 ^ φ.emin := ⟨_, rfl⟩
  rw [← hv, ← hη] at e1
  rw [← ht, ← hv, ← hη] at e2
  rw [← ht, ← hη]
  rw [← hη] at he
  have c0 := abs_nonneg c.val
  have h1 : |c.val * v - w.val * c.val| ≤ |c.val| * (φ.u * |w.val| + η) := by
    rw [show c.val * v - w.val * c.val = c.val * (v - w.val) by ring, abs_mul]
    exact mul_le_mul_of_nonneg_left e1 c0
  have h2 : |c.val * v| ≤ |w.val * c.val| + |c.val| * (φ.u * |w.val| + η) := by
    rw [show c.val * v = w.val * c.val + (c.val * v - w.val * c.val) by ring]
    exact (abs_add_le _ _).trans (by linarith)
  have h3 : |t - w.val * c.val| ≤ |t - c.val * v| + |c.val * v - w.val * c.val| := by
    rw [show t - w.val * c.val = (t - c.val * v) + (c.val * v - w.val * c.val) by ring]
    exact abs_add_le _ _
  have h4 := mul_le_mul_of_nonneg_left h2 hu.le
  have hX : |w.val * c.val| = |w.val| * |c.val| := abs_mul _ _
  rw [hX] at h4 ⊢
  have h5 := mul_pos hu he
  linarith

/-- The error of the sum, for any initial value. -/
theorem rewardSum_close (c : String → Flt φ) (rewards : Dict (Flt float64)) (acc : Flt φ) :
    |(rewardSum c rewards acc).val - (acc.val + (rewards.map fun e => e.2.val * (c e.1).val).sum)| ≤
      ((1 + φ.u) ^ rewards.length - 1) * |acc.val| +
      ((1 + φ.u) ^ (rewards.length + 2) - 1) * (rewards.map fun e => |e.2.val * (c e.1).val|).sum +
      (1 + φ.u) ^ (rewards.length + 1) * 2 ^ φ.emin * (rewards.length + (rewards.map fun e => |(c e.1).val|).sum) := by
  have hu := φ.u_pos
  have he := Format.two_zpow_pos φ.emin
  induction rewards generalizing acc with
  | nil => simp [rewardSum]
  | cons a rewards ih =>
    obtain ⟨acc', hacc'⟩ : ∃ acc', acc' = acc.add ((c a.1).mul (pyFloat φ a.2)) := ⟨_, rfl⟩
    have hstep : rewardSum c (a :: rewards) acc = rewardSum c rewards acc' := by rw [hacc']; rfl
    have h := ih acc'
    rw [hstep]
    simp only [List.map_cons, List.sum_cons, List.length_cons]
    have et := reward_term (c a.1) a.2
    have ea : |acc'.val - (acc.val + ((c a.1).mul (pyFloat φ a.2)).val)| ≤ φ.u * |acc.val + ((c a.1).mul (pyFloat φ a.2)).val| := by
      rw [hacc']
      exact Format.fl_add_rel acc.property ((c a.1).mul (pyFloat φ a.2)).property
    obtain ⟨t, ht⟩ : ∃ t, t = ((c a.1).mul (pyFloat φ a.2)).val := ⟨_, rfl⟩
    rw [← ht] at et ea
    obtain ⟨x, hx⟩ : ∃ x, x = a.2.val * (c a.1).val := ⟨_, rfl⟩
    rw [← hx] at et ⊢
    obtain ⟨F, hF⟩ : ∃ F, F = (rewardSum c rewards acc').val := ⟨_, rfl⟩
    rw [← hF] at h ⊢
    obtain ⟨S, hS⟩ : ∃ S, S = (rewards.map fun e => e.2.val * (c e.1).val).sum := ⟨_, rfl⟩
    rw [← hS] at h ⊢
    obtain ⟨A, hA⟩ : ∃ A, A = (rewards.map fun e => |e.2.val * (c e.1).val|).sum := ⟨_, rfl⟩
    have A0 : 0 ≤ A := by
      rw [hA]
      exact List.sum_nonneg fun y hy => by
        obtain ⟨e, -, rfl⟩ := List.mem_map.1 hy
        exact abs_nonneg _
    rw [← hA] at h ⊢
    obtain ⟨C, hC⟩ : ∃ C, C = (rewards.map fun e => |(c e.1).val|).sum := ⟨_, rfl⟩
    have C0 : 0 ≤ C := by
      rw [hC]
      exact List.sum_nonneg fun y hy => by
        obtain ⟨e, -, rfl⟩ := List.mem_map.1 hy
        exact abs_nonneg _
    rw [← hC] at h ⊢
    obtain ⟨k, hk⟩ : ∃ k, k = rewards.length := ⟨_, rfl⟩
    rw [← hk] at h ⊢
    obtain ⟨η, hη⟩ : ∃ η : ℝ, η = 2 ^ φ.emin := ⟨_, rfl⟩
    rw [← hη] at h et he ⊢
    obtain ⟨q, hq⟩ : ∃ q : ℝ, q = 1 + φ.u := ⟨_, rfl⟩
    have q1 : 1 < q := by rw [hq]; linarith
    have hu' : φ.u = q - 1 := by rw [hq]; ring
    rw [← hq] at h et ⊢
    rw [hu'] at ea
    obtain ⟨p, hp⟩ : ∃ p : ℝ, p = q ^ k := ⟨_, rfl⟩
    have p1 : 1 ≤ p := by rw [hp]; exact one_le_pow₀ q1.le
    have e1 : q ^ (k + 1) = p * q := by rw [hp, pow_succ]
    have e2 : q ^ (k + 2) = p * q ^ 2 := by rw [hp, pow_add]
    have e3 : q ^ (k + 1 + 2) = p * q ^ 3 := by rw [hp, ← pow_add]
    have e4 : q ^ (k + 1 + 1) = p * q ^ 2 := by rw [hp, ← pow_add]
    rw [← hp, e1, e2] at h
    rw [e1, e3, e4]
    have b0 : 0 ≤ |(c a.1).val| := abs_nonneg _
    obtain ⟨b, hb⟩ : ∃ b, b = |(c a.1).val| := ⟨_, rfl⟩
    rw [← hb] at et b0 ⊢
    -- the error made in this step
    obtain ⟨E, hE⟩ : ∃ E, E = |acc'.val - (acc.val + x)| := ⟨_, rfl⟩
    have hat : |acc.val + t| ≤ |acc.val| + |x| + |t - x| := by
      rw [show acc.val + t = acc.val + x + (t - x) by ring]
      exact abs_add_three _ _ _
    have hEle : E ≤ q * |t - x| + (q - 1) * (|acc.val| + |x|) := by
      have h1 : E ≤ |acc'.val - (acc.val + t)| + |t - x| := by
        rw [hE, show acc'.val - (acc.val + x) = (acc'.val - (acc.val + t)) + (t - x) by ring]
        exact abs_add_le _ _
      have h2 := mul_le_mul_of_nonneg_left hat (by linarith : 0 ≤ q - 1)
      nlinarith
    have hacc : |acc'.val| ≤ |acc.val| + |x| + E := by
      rw [hE, show acc'.val = acc.val + x + (acc'.val - (acc.val + x)) by ring]
      refine (abs_add_three _ _ _).trans ?_
      rw [show acc.val + x + (acc'.val - (acc.val + x)) - (acc.val + x) = acc'.val - (acc.val + x) by ring]
    have hfin : |F - (acc.val + (x + S))| ≤ |F - (acc'.val + S)| + E := by
      rw [hE, show F - (acc.val + (x + S)) = (F - (acc'.val + S)) + (acc'.val - (acc.val + x)) by ring]
      exact abs_add_le _ _
    have g1 : (p - 1) * |acc'.val| ≤ (p - 1) * (|acc.val| + |x| + E) := mul_le_mul_of_nonneg_left hacc (by linarith)
    have g2 : p * E ≤ p * (q * ((q ^ 2 - 1) * |x| + q * η * (1 + b)) + (q - 1) * (|acc.val| + |x|)) := by
      refine mul_le_mul_of_nonneg_left (hEle.trans ?_) (by linarith)
      have := mul_le_mul_of_nonneg_left et (by linarith : 0 ≤ q)
      linarith
    have g3 : p * q ^ 2 * A ≤ p * q ^ 3 * A := by
      apply mul_le_mul_of_nonneg_right _ A0
      apply mul_le_mul_of_nonneg_left _ (by linarith)
      exact pow_le_pow_right₀ q1.le (by norm_num)
    have g4 : p * q * η * (k + C) ≤ p * q ^ 2 * η * (k + C) := by
      apply mul_le_mul_of_nonneg_right _ (by positivity)
      apply mul_le_mul_of_nonneg_right _ he.le
      apply mul_le_mul_of_nonneg_left _ (by linarith)
      nlinarith
    push_cast
    have key : p * (q * ((q ^ 2 - 1) * |x| + q * η * (1 + b)) + (q - 1) * (|acc.val| + |x|)) + (p - 1) * (|acc.val| + |x|) =
        (p * q - 1) * |acc.val| + (p * q ^ 3 - 1) * |x| + p * q ^ 2 * η * (1 + b) := by ring
    linarith

/-- C154, accuracy. The reward of an object in the mask is the sum of weight times metric value over the configured metrics (an entry that
a metric marks invalid counts 0), up to the rounding of the weights, the products and the sum; the reward of an object outside the mask is
exactly 0. The values are those of the registered metrics. -/
theorem C154_accuracy (hφ : φ.emin ≤ 0) {D : Type} {reg : Dict (MetricFl φ n T)} {rewards : Dict (Flt float64)} {s : SimState (Flt φ) n T}
    {action : Fin n → Act D} {mask : Fin n → Bool} {r : Fin n → Flt φ} (h : linearRewardFl reg rewards s action mask = .ok r) :
    ∃ vals : String → MetricArrFl φ n,
      (∀ e ∈ rewards, ∃ m, reg.get? e.1 = some m ∧ m s = .ok (vals e.1)) ∧
      (∀ i, mask i = true →
        |(r i).val - (rewards.map fun e => e.2.val * contributionFl (vals e.1) i).sum| ≤
          rewardTolerance φ rewards.length (rewards.map fun e => |e.2.val * contributionFl (vals e.1) i|).sum
            (rewards.map fun e => |contributionFl (vals e.1) i|).sum) ∧
      (∀ i, mask i = false → (r i).val = 0) := by
  obtain ⟨vals, h1, h2, h3⟩ := linearRewardFl_eq hφ h
  refine ⟨vals, h1, fun i hi => ?_, h3⟩
  have := rewardSum_close (fun k => (vals k).masked i) rewards (Flt.zero φ)
  rw [h2 i hi]
  simp only [masked_val] at this
  have hz : (Flt.zero φ).val = 0 := rfl
  rw [hz, abs_zero, MulZeroClass.mul_zero, zero_add, zero_add] at this
  exact this

/-- C154, the tolerance in numbers: with at most seven metrics in single precision, less than one millionth of the sum of the absolute values
of the terms, plus a part below 10⁻³⁸ as long as the metric values are below 10⁵ in total. -/
theorem C154_numbers {k : Nat} (hk : k ≤ 7) {total values : ℝ} (ht : 0 ≤ total) (hv : 0 ≤ values) (hv' : values ≤ 100000) :
    rewardTolerance float32 k total values ≤ 0.000001 * total + 10 ^ (-38 : ℤ) := by
  have hu : float32.u = 2 ^ (-24 : ℤ) := by norm_num [Format.u, float32]
  have hq : (1 : ℝ) ≤ 1 + float32.u := by rw [hu]; norm_num
  have h1 : (1 + float32.u) ^ (k + 2) ≤ (1 + float32.u) ^ 9 := pow_le_pow_right₀ hq (by omega)
  have h2 : (1 + float32.u) ^ (k + 1) ≤ 2 := (pow_le_pow_right₀ hq (by omega : k + 1 ≤ 8)).trans (by rw [hu]; norm_num)
  have h3 : (1 + float32.u) ^ 9 - 1 ≤ 0.000001 := by rw [hu]; norm_num
  have h4 : (2 : ℝ) ^ float32.emin * 200014 ≤ 10 ^ (-38 : ℤ) := by norm_num [float32]
  have h5 := Format.two_zpow_pos float32.emin
  have hk' : (k : ℝ) ≤ 7 := by exact_mod_cast hk
  unfold rewardTolerance
  have g1 := mul_le_mul_of_nonneg_right (show (1 + float32.u) ^ (k + 2) - 1 ≤ 0.000001 by linarith) ht
  have g2 : (1 + float32.u) ^ (k + 1) * 2 ^ float32.emin * (k + values) ≤ 2 * 2 ^ float32.emin * 100007 := by
    apply mul_le_mul (mul_le_mul_of_nonneg_right h2 h5.le) (by linarith) (by positivity) (by positivity)
  refine (add_le_add g1 (g2.trans ?_))
  refine le_trans (le_of_eq ?_) h4
  ring

/-- The sign of a sum of products. -/
theorem rewardSum_nonpos (c : String → Flt φ) (rewards : Dict (Flt float64)) (acc : Flt φ) (hacc : acc.val ≤ 0)
    (h : ∀ e ∈ rewards, e.2.val ≤ 0 ∧ 0 ≤ (c e.1).val) : (rewardSum c rewards acc).val ≤ 0 := by
  induction rewards generalizing acc with
  | nil => exact hacc
  | cons a rewards ih =>
    refine ih (acc.add ((c a.1).mul (pyFloat φ a.2))) ?_ fun e he => h e (List.mem_cons_of_mem _ he)
    obtain ⟨hw, hc⟩ := h a (List.mem_cons_self ..)
    have h1 : (pyFloat φ a.2).val ≤ 0 := Format.fl_le_of_rep Format.Rep.zero hw
    have h2 : ((c a.1).mul (pyFloat φ a.2)).val ≤ 0 := Format.fl_le_of_rep Format.Rep.zero (mul_nonpos_of_nonneg_of_nonpos hc h1)
    exact Format.fl_le_of_rep Format.Rep.zero (add_nonpos hacc h2)

theorem rewardSum_nonneg (c : String → Flt φ) (rewards : Dict (Flt float64)) (acc : Flt φ) (hacc : 0 ≤ acc.val)
    (h : ∀ e ∈ rewards, 0 ≤ e.2.val ∧ 0 ≤ (c e.1).val) : 0 ≤ (rewardSum c rewards acc).val := by
  induction rewards generalizing acc with
  | nil => exact hacc
  | cons a rewards ih =>
    refine ih (acc.add ((c a.1).mul (pyFloat φ a.2))) ?_ fun e he => h e (List.mem_cons_of_mem _ he)
    obtain ⟨hw, hc⟩ := h a (List.mem_cons_self ..)
    have h1 : 0 ≤ (pyFloat φ a.2).val := Format.le_fl_of_rep Format.Rep.zero hw
    have h2 : 0 ≤ ((c a.1).mul (pyFloat φ a.2)).val := Format.le_fl_of_rep Format.Rep.zero (mul_nonneg hc h1)
    exact Format.le_fl_of_rep Format.Rep.zero (add_nonneg hacc h2)

/-- C154, signs. With metrics that are never negative, penalties (weights that are not positive) never add up to a positive reward, and
bonuses never to a negative one, whatever is rounded. -/
theorem C154_sign (hφ : φ.emin ≤ 0) {D : Type} {reg : Dict (MetricFl φ n T)} {rewards : Dict (Flt float64)} {s : SimState (Flt φ) n T}
    {action : Fin n → Act D} {mask : Fin n → Bool} {r : Fin n → Flt φ} (h : linearRewardFl reg rewards s action mask = .ok r) (i : Fin n)
    (hm : ∀ e ∈ rewards, ∀ m v, reg.get? e.1 = some m → m s = .ok v → 0 ≤ contributionFl v i) :
    ((∀ e ∈ rewards, e.2.val ≤ 0) → (r i).val ≤ 0) ∧ ((∀ e ∈ rewards, 0 ≤ e.2.val) → 0 ≤ (r i).val) := by
  obtain ⟨vals, h1, h2, h3⟩ := linearRewardFl_eq hφ h
  have hc : ∀ e ∈ rewards, 0 ≤ ((vals e.1).masked i).val := by
    intro e he
    obtain ⟨m, hm1, hm2⟩ := h1 e he
    rw [masked_val]
    exact hm e he m _ hm1 hm2
  cases hi : mask i with
  | false => exact ⟨fun _ => (h3 i hi).le, fun _ => (h3 i hi).ge⟩
  | true =>
    rw [h2 i hi]
    exact ⟨fun hw => rewardSum_nonpos _ _ _ le_rfl fun e he => ⟨hw e he, hc e he⟩,
      fun hw => rewardSum_nonneg _ _ _ le_rfl fun e he => ⟨hw e he, hc e he⟩⟩

theorem rewardSum_int (hφ : φ.emin ≤ 0) (c : String → Flt φ) (rewards : Dict (Flt float64)) (acc : Flt φ) {a : ℤ} (ha : acc.val = a)
    (w v : String × Flt float64 → ℤ) (hw : ∀ e ∈ rewards, e.2.val = w e ∧ |w e| ≤ 2 ^ φ.prec) (hv : ∀ e ∈ rewards, (c e.1).val = v e)
    (hs : |a| + (rewards.map fun e => |w e * v e|).sum ≤ 2 ^ φ.prec) :
    (rewardSum c rewards acc).val = a + (rewards.map fun e => e.2.val * (c e.1).val).sum := by
  induction rewards generalizing acc a with
  | nil => simp [rewardSum, ha]
  | cons e rewards ih =>
    simp only [List.map_cons, List.sum_cons] at hs ⊢
    obtain ⟨hwe, hwle⟩ := hw e (List.mem_cons_self ..)
    have hve := hv e (List.mem_cons_self ..)
    have s0 : 0 ≤ (rewards.map fun e => |w e * v e|).sum := by
      refine List.sum_nonneg fun y hy => ?_
      obtain ⟨e, -, rfl⟩ := List.mem_map.1 hy
      exact abs_nonneg _
    have h1 : (pyFloat φ e.2).val = w e := by
      show φ.fl e.2.val = _
      rw [hwe, Format.fl_of_rep (Format.rep_int hwle hφ)]
    have h2 : ((c e.1).mul (pyFloat φ e.2)).val = (w e * v e : ℤ) := by
      show φ.fl ((c e.1).val * (pyFloat φ e.2).val) = _
      rw [h1, hve, show (v e : ℝ) * (w e : ℝ) = ((w e * v e : ℤ) : ℝ) by push_cast; ring]
      exact Format.fl_of_rep (Format.rep_int (by linarith [abs_nonneg a]) hφ)
    have h3 : (acc.add ((c e.1).mul (pyFloat φ e.2))).val = (a + w e * v e : ℤ) := by
      show φ.fl (acc.val + ((c e.1).mul (pyFloat φ e.2)).val) = _
      rw [h2, ha, ← Int.cast_add]
      exact Format.fl_of_rep (Format.rep_int (by linarith [abs_add_le a (w e * v e)]) hφ)
    have := ih (acc.add ((c e.1).mul (pyFloat φ e.2))) h3 (fun e he => hw e (List.mem_cons_of_mem _ he))
      (fun e he => hv e (List.mem_cons_of_mem _ he)) (by linarith [abs_add_le a (w e * v e)])
    show (rewardSum c rewards (acc.add ((c e.1).mul (pyFloat φ e.2)))).val = _
    rw [this, hwe, hve]
    push_cast
    ring

/-- C154, exactness. Metrics that are indicators (off-road, overlap, run red light) or other whole numbers, with whole weights, are combined
without any rounding, as long as the absolute terms add up to at most 2^prec (16 777 216 in single precision). -/
theorem C154_exact (hφ : φ.emin ≤ 0) {D : Type} {reg : Dict (MetricFl φ n T)} {rewards : Dict (Flt float64)} {s : SimState (Flt φ) n T}
    {action : Fin n → Act D} {mask : Fin n → Bool} {r : Fin n → Flt φ} (h : linearRewardFl reg rewards s action mask = .ok r) :
    ∃ vals : String → MetricArrFl φ n,
      (∀ e ∈ rewards, ∃ m, reg.get? e.1 = some m ∧ m s = .ok (vals e.1)) ∧
      ∀ i, mask i = true → ∀ w v : String × Flt float64 → ℤ,
        (∀ e ∈ rewards, e.2.val = w e ∧ |w e| ≤ 2 ^ φ.prec) → (∀ e ∈ rewards, contributionFl (vals e.1) i = v e) →
        (rewards.map fun e => |w e * v e|).sum ≤ 2 ^ φ.prec →
        (r i).val = (rewards.map fun e => e.2.val * contributionFl (vals e.1) i).sum := by
  obtain ⟨vals, h1, h2, -⟩ := linearRewardFl_eq hφ h
  refine ⟨vals, h1, fun i hi w v hw hv hs => ?_⟩
  rw [h2 i hi]
  have := rewardSum_int hφ (fun k => (vals k).masked i) rewards (Flt.zero φ) (a := 0) (by rw [Int.cast_zero]; rfl) w v hw
    (fun e he => by rw [masked_val]; exact hv e he) (by rw [abs_zero, zero_add]; exact hs)
  simp only [masked_val, Int.cast_zero, zero_add] at this
  exact this

/-- C154, a single penalty. One metric with weight -1 gives exactly the negated metric value, whatever its size; with weight 1 the value. -/
theorem C154_single (hφ : φ.emin ≤ 0) {D : Type} {reg : Dict (MetricFl φ n T)} {name : String} {w : Flt float64} {s : SimState (Flt φ) n T}
    {action : Fin n → Act D} {mask : Fin n → Bool} {r : Fin n → Flt φ} (h : linearRewardFl reg [(name, w)] s action mask = .ok r) :
    ∃ m v, reg.get? name = some m ∧ m s = .ok v ∧ ∀ i, mask i = true →
      (w.val = -1 → (r i).val = -contributionFl v i) ∧ (w.val = 1 → (r i).val = contributionFl v i) := by
  obtain ⟨vals, h1, h2, -⟩ := linearRewardFl_eq hφ h
  obtain ⟨m, hm1, hm2⟩ := h1 (name, w) (List.mem_singleton.2 rfl)
  refine ⟨m, _, hm1, hm2, fun i hi => ?_⟩
  rw [h2 i hi, ← masked_val]
  have h1 : φ.fl 1 = 1 := emin_nonpos_one hφ
  have hsum : rewardSum (fun k => (vals k).masked i) [(name, w)] (Flt.zero φ) = (Flt.zero φ).add (((vals name).masked i).mul (pyFloat φ w)) :=
    rfl
  have hval : (rewardSum (fun k => (vals k).masked i) [(name, w)] (Flt.zero φ)).val =
      φ.fl (0 + φ.fl (((vals name).masked i).val * φ.fl w.val)) := by rw [hsum]; rfl
  constructor
  · intro hw
    rw [hval, hw, Format.fl_neg, h1, mul_neg, mul_one, Format.fl_of_rep ((vals name).masked i).property.neg, zero_add,
      Format.fl_of_rep ((vals name).masked i).property.neg]
  · intro hw
    rw [hval, hw, h1, mul_one, Format.fl_of_rep ((vals name).masked i).property, zero_add, Format.fl_of_rep ((vals name).masked i).property]

/-- The full expectation about the order: a reward configuration is a mapping from names to weights, and mappings with the same entries
configure the same reward. -/
def RewardOrderIndependent (φ : Format) (n T : Nat) : Prop :=
  ∀ (reg : Dict (MetricFl φ n T)) (rewards rewards' : Dict (Flt float64)) (s : SimState (Flt φ) n T) (action : Fin n → Act Unit)
    (mask : Fin n → Bool) (r r' : Fin n → Flt φ), rewards.Perm rewards' →
    linearRewardFl reg rewards s action mask = .ok r → linearRewardFl reg rewards' s action mask = .ok r' → r = r'

/-- C154, order, as far as it holds: two configurations with the same entries in different order agree up to twice the tolerance of
`C154_accuracy`. Missing from the full statement: equality, see `C154_order_violated`. -/
theorem C154_order_partial (hφ : φ.emin ≤ 0) {D : Type} {reg : Dict (MetricFl φ n T)} {rewards rewards' : Dict (Flt float64)}
    {s : SimState (Flt φ) n T} {action : Fin n → Act D} {mask : Fin n → Bool} {r r' : Fin n → Flt φ} (hp : rewards.Perm rewards')
    (h : linearRewardFl reg rewards s action mask = .ok r) (h' : linearRewardFl reg rewards' s action mask = .ok r') :
    ∃ vals : String → MetricArrFl φ n,
      (∀ e ∈ rewards, ∃ m, reg.get? e.1 = some m ∧ m s = .ok (vals e.1)) ∧
      ∀ i, |(r i).val - (r' i).val| ≤ 2 * rewardTolerance φ rewards.length (rewards.map fun e => |e.2.val * contributionFl (vals e.1) i|).sum
            (rewards.map fun e => |contributionFl (vals e.1) i|).sum := by
  obtain ⟨vals, h1, h2, h3⟩ := C154_accuracy hφ h
  obtain ⟨vals', h1', h2', h3'⟩ := C154_accuracy hφ h'
  have hvv : ∀ e ∈ rewards', vals' e.1 = vals e.1 := by
    intro e he
    obtain ⟨m, hm1, hm2⟩ := h1 e (hp.mem_iff.2 he)
    obtain ⟨m', hm1', hm2'⟩ := h1' e he
    rw [hm1] at hm1'
    obtain rfl := Option.some.inj hm1'
    rw [hm2] at hm2'
    exact (Except.ok.inj hm2').symm
  refine ⟨vals, h1, fun i => ?_⟩
  have hu := φ.u_pos
  have hA : 0 ≤ (rewards.map fun e => |e.2.val * contributionFl (vals e.1) i|).sum := List.sum_nonneg fun y hy => by
    obtain ⟨e, -, rfl⟩ := List.mem_map.1 hy
    exact abs_nonneg _
  have hC : 0 ≤ (rewards.map fun e => |contributionFl (vals e.1) i|).sum := List.sum_nonneg fun y hy => by
    obtain ⟨e, -, rfl⟩ := List.mem_map.1 hy
    exact abs_nonneg _
  cases hi : mask i with
  | false =>
    rw [h3 i hi, h3' i hi, sub_zero, abs_zero]
    have := one_le_pow₀ (n := rewards.length + 2) (by linarith : 1 ≤ 1 + φ.u)
    have e := Format.two_zpow_pos φ.emin
    unfold rewardTolerance
    have a1 := mul_nonneg (sub_nonneg.2 this) hA
    positivity
  | true =>
    have a := h2 i hi
    have b := h2' i hi
    rw [List.map_congr_left (fun e he => by rw [hvv e he]) (g := fun e => e.2.val * contributionFl (vals e.1) i),
      List.map_congr_left (l := rewards') (f := fun e => |e.2.val * contributionFl (vals' e.1) i|) (fun e he => by rw [hvv e he])
        (g := fun e => |e.2.val * contributionFl (vals e.1) i|),
      List.map_congr_left (l := rewards') (f := fun e => |contributionFl (vals' e.1) i|) (fun e he => by rw [hvv e he])
        (g := fun e => |contributionFl (vals e.1) i|),
      ← (hp.map _).sum_eq, ← (hp.map _).sum_eq, ← (hp.map _).sum_eq, ← hp.length_eq] at b
    rw [abs_le] at a b ⊢
    constructor <;> linarith [a.1, a.2, b.1, b.2]

end

/-- A metric that is 1 for every object. -/
noncomputable def unitMetricFl (T : Nat) : MetricFl float32 1 T := fun _ =>
  .ok (.perObject fun _ => { value := Flt.round float32 1, valid := true })

/-- A whole number in double precision. -/
noncomputable def wholeWeight (k : ℤ) (hk : |k| ≤ 2 ^ 53) : Flt float64 := ⟨k, Format.rep_int hk (by norm_num [float64])⟩

/-- Three metrics in the registry. -/
noncomputable def threeMetrics (T : Nat) : Dict (MetricFl float32 1 T) := [("a", unitMetricFl T), ("b", unitMetricFl T), ("c", unitMetricFl T)]

theorem unitMetricFl_masked {T : Nat} {s : SimState (Flt float32) 1 T} {v : MetricArrFl float32 1} (h : unitMetricFl T s = .ok v) :
    (v.masked 0).val = 1 := by
  obtain rfl := Except.ok.inj h
  exact emin_nonpos_one (φ := float32) (by norm_num [float32])

/-- The rewards with one order and another. -/
theorem order_rewards {T : Nat} (s : SimState (Flt float32) 1 T) (x y z : Flt float64) :
    ∃ r r', linearRewardFl (threeMetrics T) [("a", x), ("b", y), ("c", z)] s (fun _ => (⟨(), true⟩ : Act Unit)) (fun _ => true) = .ok r ∧
      linearRewardFl (threeMetrics T) [("a", x), ("c", z), ("b", y)] s (fun _ => (⟨(), true⟩ : Act Unit)) (fun _ => true) = .ok r' :=
  ⟨_, _, rfl, rfl⟩

theorem threeMetrics_get {T : Nat} {k : String} {m : MetricFl float32 1 T} (h : (threeMetrics T).get? k = some m) : m = unitMetricFl T := by
  unfold threeMetrics Dict.get? at h
  simp only [List.find?] at h
  split at h
  · simpa using h.symm
  · split at h
    · simpa using h.symm
    · split at h
      · simpa using h.symm
      · simp at h

/-- C154, order, violated: weights 2²⁵, 1, -2²⁵ on three metrics that are all 1 give reward 0 in this order and 1 in the order
2²⁵, -2²⁵, 1. -/
theorem C154_order_violated : ¬ RewardOrderIndependent float32 1 4 := by
  intro hall
  have hone : ∀ k, (k = "a" ∨ k = "b" ∨ k = "c") → ∀ (m : MetricFl float32 1 4) v, (threeMetrics 4).get? k = some m → m quarterScen = .ok v →
      (v.masked 0).val = 1 := by
    intro k _ m v hm hv
    rw [threeMetrics_get hm] at hv
    exact unitMetricFl_masked hv
  let x := wholeWeight (33554432) (by norm_num)
  let y := wholeWeight 1 (by norm_num)
  let z := wholeWeight (-33554432) (by norm_num)
  obtain ⟨r, r', h, h'⟩ := order_rewards (T := 4) quarterScen x y z
  have hr := hall _ _ _ _ _ _ r r' ((List.Perm.swap _ _ _).cons _) h h'
  have hφ : float32.emin ≤ 0 := by norm_num [float32]
  have fx : float32.fl 33554432 = 33554432 := Format.fl_of_rep ⟨1, 25, by decide, by decide, by norm_num⟩
  have f1 : float32.fl 1 = 1 := emin_nonpos_one hφ
  have f0 : float32.fl 0 = 0 := Format.fl_zero
  have px : (pyFloat float32 x).val = 33554432 := by
    show float32.fl (((33554432 : ℤ) : ℝ)) = _
    norm_num [fx]
  have py : (pyFloat float32 y).val = 1 := by
    show float32.fl (((1 : ℤ) : ℝ)) = _
    norm_num [f1]
  have pz : (pyFloat float32 z).val = -33554432 := by
    show float32.fl (((-33554432 : ℤ) : ℝ)) = _
    rw [show (((-33554432 : ℤ)) : ℝ) = -33554432 by norm_num, Format.fl_neg, fx]
  -- 2²⁵ + 1 is not a number of the format
  have ftie : float32.fl (33554432 + 1) = 33554432 := by
    rw [Format.fl_eq (e := 2) (by rw [abs_of_pos (by norm_num)]; norm_num [float32])
      (by rw [abs_of_pos (by norm_num)]; norm_num [float32]) (by decide)]
    rw [rint_eq_of_abs_lt (k := 8388608) (by rw [abs_lt]; norm_num)]
    norm_num
  obtain ⟨vals, h1, h2, -⟩ := linearRewardFl_eq hφ h
  obtain ⟨vals', h1', h2', -⟩ := linearRewardFl_eq hφ h'
  have c : ∀ k, (k = "a" ∨ k = "b" ∨ k = "c") → ((vals k).masked 0).val = 1 := by
    intro k hk
    obtain ⟨e, he, rfl⟩ : ∃ e ∈ [("a", x), ("b", y), ("c", z)], e.1 = k := by
      rcases hk with rfl | rfl | rfl
      · exact ⟨("a", x), by simp, rfl⟩
      · exact ⟨("b", y), by simp, rfl⟩
      · exact ⟨("c", z), by simp, rfl⟩
    obtain ⟨m, hm1, hm2⟩ := h1 e he
    exact hone e.1 hk m _ hm1 hm2
  have c' : ∀ k, (k = "a" ∨ k = "b" ∨ k = "c") → ((vals' k).masked 0).val = 1 := by
    intro k hk
    obtain ⟨e, he, rfl⟩ : ∃ e ∈ [("a", x), ("c", z), ("b", y)], e.1 = k := by
      rcases hk with rfl | rfl | rfl
      · exact ⟨("a", x), by simp, rfl⟩
      · exact ⟨("b", y), by simp, rfl⟩
      · exact ⟨("c", z), by simp, rfl⟩
    obtain ⟨m, hm1, hm2⟩ := h1' e he
    exact hone e.1 hk m _ hm1 hm2
  have e1 : (r 0).val = 0 := by
    rw [h2 0 rfl]
    show float32.fl (float32.fl (float32.fl (0 + float32.fl (((vals "a").masked 0).val * (pyFloat float32 x).val)) +
      float32.fl (((vals "b").masked 0).val * (pyFloat float32 y).val)) + float32.fl (((vals "c").masked 0).val * (pyFloat float32 z).val)) = 0
    rw [c "a" (by simp), c "b" (by simp), c "c" (by simp), px, py, pz, one_mul, one_mul, one_mul, Format.fl_neg, fx, f1, zero_add, fx, ftie,
      add_neg_cancel, f0]
  have e2 : (r' 0).val = 1 := by
    rw [h2' 0 rfl]
    show float32.fl (float32.fl (float32.fl (0 + float32.fl (((vals' "a").masked 0).val * (pyFloat float32 x).val)) +
      float32.fl (((vals' "c").masked 0).val * (pyFloat float32 z).val)) + float32.fl (((vals' "b").masked 0).val * (pyFloat float32 y).val)) = 1
    rw [c' "a" (by simp), c' "b" (by simp), c' "c" (by simp), px, py, pz, one_mul, one_mul, one_mul, Format.fl_neg, fx, f1, zero_add, fx,
      add_neg_cancel, f0, zero_add, f1]
  rw [hr, e2] at e1
  norm_num at e1

/-- Non-vacuity of `C154_exact` and `C154_accuracy`: weights -2, -3 and 4 on three metrics that are 1 give exactly -1. -/
example : ∃ r, linearRewardFl (threeMetrics 4)
      [("a", wholeWeight (-2) (by norm_num)), ("b", wholeWeight (-3) (by norm_num)), ("c", wholeWeight 4 (by norm_num))] quarterScen
      (fun _ => (⟨(), true⟩ : Act Unit)) (fun _ => true) = .ok r ∧ (r 0).val = -1 := by
  obtain ⟨r, -, h, -⟩ := order_rewards (T := 4) quarterScen (wholeWeight (-2) (by norm_num)) (wholeWeight (-3) (by norm_num))
    (wholeWeight 4 (by norm_num))
  refine ⟨r, h, ?_⟩
  obtain ⟨vals, h1, h2⟩ := C154_exact (by norm_num [float32]) h
  have hc : ∀ e ∈ [("a", wholeWeight (-2) (by norm_num)), ("b", wholeWeight (-3) (by norm_num)), ("c", wholeWeight 4 (by norm_num))],
      contributionFl (vals e.1) 0 = ((1 : ℤ) : ℝ) := by
    intro e he
    obtain ⟨m, hm1, hm2⟩ := h1 e he
    rw [threeMetrics_get hm1] at hm2
    rw [← masked_val, unitMetricFl_masked hm2, Int.cast_one]
  rw [h2 0 rfl (fun e => if e.1 = "a" then -2 else if e.1 = "b" then -3 else 4) (fun _ => 1)
    (by simp [wholeWeight, float32]) hc (by simp [float32])]
  have ca := hc ("a", wholeWeight (-2) (by norm_num)) (by simp)
  have cb := hc ("b", wholeWeight (-3) (by norm_num)) (by simp)
  have cc := hc ("c", wholeWeight 4 (by norm_num)) (by simp)
  simp only [List.map_cons, List.map_nil, List.sum_cons, List.sum_nil, ca, cb, cc]
  norm_num [wholeWeight]

/-- The state of the examples of C153: a car 10 m from its logged position. -/
noncomputable def tenMetres : SimState (Flt float32) 1 1 :=
  { pathScen (quarter 40) true with logTrajectory := fun _ _ => quarterPt (quarter 0) (quarter 0) (quarter 0) }

/-- Non-vacuity of `C154_single` and `C154_sign`: a penalty on the log divergence of a car that is 10 m from its logged position. -/
example : ∃ r, linearRewardFl [("log_divergence", fun s => .ok (.perObject (logDivergenceMetricFl (exactLibm float32) s)))]
      [("log_divergence", wholeWeight (-1) (by norm_num))] tenMetres (fun _ => (⟨(), true⟩ : Act Unit)) (fun _ => true) = .ok r ∧
    (r 0).val = -contributionFl (.perObject (logDivergenceMetricFl (exactLibm float32) tenMetres)) 0 ∧ (r 0).val ≤ 0 := by
  obtain ⟨r, h⟩ : ∃ r, linearRewardFl [("log_divergence", fun s => .ok (.perObject (logDivergenceMetricFl (exactLibm float32) s)))]
      [("log_divergence", wholeWeight (-1) (by norm_num))] tenMetres (fun _ => (⟨(), true⟩ : Act Unit)) (fun _ => true) = .ok r := ⟨_, rfl⟩
  have hφ : float32.emin ≤ 0 := by norm_num [float32]
  refine ⟨r, h, ?_, ?_⟩
  · obtain ⟨m, v, hm, hv, hr⟩ := C154_single hφ h
    obtain rfl := Option.some.inj (hm : some _ = some m)
    obtain rfl := Except.ok.inj hv
    exact (hr 0 rfl).1 (by norm_num [wholeWeight])
  · refine (C154_sign hφ h 0 fun e he m v hm hv => ?_).1 fun e he => ?_
    · obtain rfl := List.mem_singleton.1 he
      obtain rfl := Option.some.inj (hm : some _ = some m)
      obtain rfl := Except.ok.inj hv
      simp only [contributionFl]
      split
      · exact distFl_nonneg exactLibm_accurate _ _
      · exact le_rfl
    · obtain rfl := List.mem_singleton.1 he
      norm_num [wholeWeight]

end Waymax
