import Verif.Lemmas.Batch
import Verif.Model.BatchWaypoint
/- Broadcasting of arrays that share leading axes, and operations on one axis. -/

namespace Waymax

section
variable {β γ δ : Type}

theorem broadcastRev_append {a b c s s' : List Nat} (hl : a.length = b.length) (hc : Nd.broadcastRev a b = some c)
    (hs : Nd.broadcastRev s s' = some s) : Nd.broadcastRev (a ++ s) (b ++ s') = some (c ++ s) := by
  induction a generalizing b c with
  | nil =>
    cases b with
    | nil => simp only [Nd.broadcastRev, Option.some.injEq] at hc; subst hc; simpa using hs
    | cons y b => simp at hl
  | cons x a ih =>
    cases b with
    | nil => simp at hl
    | cons y b =>
      simp only [Nd.broadcastRev, Option.bind_eq_bind] at hc
      cases hr : Nd.broadcastRev a b with
      | none => simp [hr] at hc
      | some r =>
        rw [hr, Option.bind_some] at hc
        simp only [List.cons_append, Nd.broadcastRev, Option.bind_eq_bind, ih (by simpa using hl) hr, Option.bind_some]
        split_ifs at hc ⊢ <;> (cases hc; rfl)

theorem broadcastShape_append {a b c q : List Nat} (hl : a.length = b.length) (hc : Nd.broadcastShape a b = some c) :
    Nd.broadcastShape (q ++ a) (q ++ b) = some (q ++ c) := by
  unfold Nd.broadcastShape at hc ⊢
  cases hr : Nd.broadcastRev a.reverse b.reverse with
  | none => simp [hr] at hc
  | some r =>
    rw [hr, Option.map_some, Option.some.injEq] at hc
    rw [List.reverse_append, List.reverse_append, broadcastRev_append (by simpa using hl) hr (broadcastRev_self _)]
    simp [← hc]

theorem broadcastRev_ones (s : List Nat) : Nd.broadcastRev s (List.replicate s.length 1) = some s := by
  induction s with
  | nil => rfl
  | cons a s ih =>
    simp only [List.length_cons, List.replicate_succ, Nd.broadcastRev, Option.bind_eq_bind, ih, Option.bind_some]
    by_cases h : a = 1 <;> simp [h]

theorem broadcastShape_ones {a b c q : List Nat} (hl : a.length = b.length) (hc : Nd.broadcastShape a b = some c) :
    Nd.broadcastShape (q ++ a) (List.replicate q.length 1 ++ b) = some (q ++ c) := by
  unfold Nd.broadcastShape at hc ⊢
  cases hr : Nd.broadcastRev a.reverse b.reverse with
  | none => simp [hr] at hc
  | some r =>
    rw [hr, Option.map_some, Option.some.injEq] at hc
    have h1 := broadcastRev_ones q.reverse
    rw [List.length_reverse] at h1
    rw [List.reverse_append, List.reverse_append, List.reverse_replicate, broadcastRev_append (by simpa using hl) hr h1]
    simp [← hc]

theorem broadcastIdx_append {q p a idx : List Nat} (hp : InRange q p) (hl : idx.length = a.length) :
    Nd.broadcastIdx (q ++ a) (p ++ idx) = p ++ Nd.broadcastIdx a idx := by
  unfold Nd.broadcastIdx
  have h0 : (p ++ idx).length - (q ++ a).length = 0 := by simp [hp.length, hl]
  rw [h0, List.drop_zero, List.zipWith_append hp.length, zipWith_inRange hp, hl, Nat.sub_self, List.drop_zero]

theorem broadcastIdx_ones {p a idx : List Nat} {r : Nat} (hp : p.length = r) (hl : idx.length = a.length) :
    Nd.broadcastIdx (List.replicate r 1 ++ a) (p ++ idx) = List.replicate r 0 ++ Nd.broadcastIdx a idx := by
  unfold Nd.broadcastIdx
  have h0 : (p ++ idx).length - (List.replicate r 1 ++ a).length = 0 := by simp [hp, hl]
  have h1 : ∀ p : List Nat, List.zipWith (fun d i : Nat => if d = 1 then 0 else i) (List.replicate p.length 1) p = List.replicate p.length 0 := by
    intro p
    induction p with
    | nil => rfl
    | cons a p ih => simpa [List.replicate_succ] using ih
  rw [h0, List.drop_zero, List.zipWith_append (by simp [hp]), ← hp, h1, hl, Nat.sub_self, List.drop_zero]

/-- Element-wise operation on arrays with common leading axes `q`. -/
theorem zip_bcast (f : β → γ → δ) {x : Nd β} {y : Nd γ} {q a b c : List Nat} (hx : x.shape = q ++ a) (hy : y.shape = q ++ b)
    (hl : a.length = b.length) (hc : Nd.broadcastShape a b = some c) :
    ∃ r, Nd.zip f x y = .ok r ∧ r.shape = q ++ c ∧ ∀ p idx, InRange q p → idx.length = a.length →
      r.get (p ++ idx) = f (x.get (p ++ Nd.broadcastIdx a idx)) (y.get (p ++ Nd.broadcastIdx b idx)) := by
  unfold Nd.zip
  rw [hx, hy, broadcastShape_append hl hc]
  refine ⟨_, rfl, rfl, fun p idx hp hi => ?_⟩
  simp only [broadcastIdx_append hp hi, broadcastIdx_append hp (hi.trans hl)]

/-- The same when the leading axes of the second array have one entry each. -/
theorem zip_ones (f : β → γ → δ) {x : Nd β} {y : Nd γ} {q a b c : List Nat} (hx : x.shape = q ++ a)
    (hy : y.shape = List.replicate q.length 1 ++ b) (hl : a.length = b.length) (hc : Nd.broadcastShape a b = some c) :
    ∃ r, Nd.zip f x y = .ok r ∧ r.shape = q ++ c ∧ ∀ p idx, InRange q p → idx.length = a.length →
      r.get (p ++ idx) = f (x.get (p ++ Nd.broadcastIdx a idx)) (y.get (List.replicate q.length 0 ++ Nd.broadcastIdx b idx)) := by
  unfold Nd.zip
  rw [hx, hy, broadcastShape_ones hl hc]
  refine ⟨_, rfl, rfl, fun p idx hp hi => ?_⟩
  simp only [broadcastIdx_append hp hi, broadcastIdx_ones hp.length.symm (hi.trans hl)]

theorem broadcastTo_shaped {x : Nd β} {q a b : List Nat} (hx : x.shape = q ++ a) (hl : a.length = b.length)
    (hc : Nd.broadcastShape a b = some b) :
    ∃ r, x.broadcastTo (q ++ b) = .ok r ∧ r.shape = q ++ b ∧ ∀ p idx, InRange q p → idx.length = a.length →
      r.get (p ++ idx) = x.get (p ++ Nd.broadcastIdx a idx) := by
  unfold Nd.broadcastTo
  rw [hx, if_pos (broadcastShape_append hl hc)]
  refine ⟨_, rfl, rfl, fun p idx hp hi => ?_⟩
  simp only [broadcastIdx_append hp hi]

theorem insertIdx_front (q rest : List Nat) (k : Nat) : (q ++ rest).insertIdx q.length k = q ++ k :: rest := by
  induction q with
  | nil => simp
  | cons a q ih => simpa using ih

theorem eraseIdx_front (p rest : List Nat) (k : Nat) : (p ++ k :: rest).eraseIdx p.length = p ++ rest := by
  induction p with
  | nil => simp
  | cons a p ih => simpa using ih

/-- `expand_dims` before the last axes `rest`. -/
theorem expandDims_shaped {x : Nd β} {q rest : List Nat} (hx : x.shape = q ++ rest) {axis : Int} (ha : axis = -(rest.length + 1 : Nat)) :
    ∃ r, x.expandDims axis = .ok r ∧ r.shape = q ++ 1 :: rest ∧
      ∀ p j idx, InRange q p → r.get (p ++ j :: idx) = x.get (p ++ idx) := by
  have hn : Nd.normAxis (x.shape.length + 1) axis = .ok q.length := by
    unfold Nd.normAxis
    rw [hx, ha]
    simp only [List.length_append]
    rw [if_pos (by omega), if_pos (by omega)]
    congr 1
    omega
  unfold Nd.expandDims
  rw [hn, exc_ok_bind]
  refine ⟨_, rfl, ?_, fun p j idx hp => ?_⟩
  · show x.shape.insertIdx q.length 1 = _
    rw [hx, insertIdx_front]
  · show x.get ((p ++ j :: idx).eraseIdx q.length) = _
    rw [hp.length, eraseIdx_front]

/-- Reduction of the axis before the last axes `rest`. -/
theorem reduceAxis_shaped (f : List β → γ) {x : Nd β} {q rest : List Nat} {d : Nat} (hx : x.shape = q ++ d :: rest) {axis : Int}
    (ha : axis = -(rest.length + 1 : Nat)) :
    ∃ r, x.reduceAxis f axis = .ok r ∧ r.shape = q ++ rest ∧ ∀ p idx, InRange q p →
      r.get (p ++ idx) = f ((List.range d).map fun k => x.get (p ++ k :: idx)) := by
  have hn : Nd.normAxis x.shape.length axis = .ok q.length := by
    unfold Nd.normAxis
    rw [hx, ha]
    simp only [List.length_append, List.length_cons]
    rw [if_pos (by omega), if_pos (by omega)]
    congr 1
    omega
  unfold Nd.reduceAxis
  rw [hn, exc_ok_bind]
  refine ⟨_, rfl, ?_, fun p idx hp => ?_⟩
  · show x.shape.eraseIdx q.length = _
    rw [hx, eraseIdx_front]
  · show f ((List.range (x.shape.getD q.length 0)).map fun k => x.get ((p ++ idx).insertIdx q.length k)) = _
    rw [hx, getD_append_cons rfl, hp.length]
    simp only [insertIdx_front]

theorem minAxis_eq {x : Nd (WithTop ℝ)} {q rest : List Nat} {d : Nat} (hx : x.shape = q ++ d :: rest) {axis : Int}
    (ha : axis = -(rest.length + 1 : Nat)) :
    x.minAxis axis = if 0 < d then x.reduceAxis listMin axis else .error .valueError := by
  have hn : Nd.normAxis x.shape.length axis = .ok q.length := by
    unfold Nd.normAxis
    rw [hx, ha]
    simp only [List.length_append, List.length_cons]
    rw [if_pos (by omega), if_pos (by omega)]
    congr 1
    omega
  unfold Nd.minAxis
  rw [hn, exc_ok_bind, hx, getD_append_cons rfl]
  by_cases h : 0 < d
  · rw [assertThat_ok h, exc_ok_bind, if_pos h]
  · rw [assertThat_error h, exc_error_bind, if_neg h]

/-- Cutting the last axis with one start index for each row. -/
theorem dynSliceV_row {x : Nd β} {q : List Nat} {T k : Nat} (hx : x.shape = q ++ [T]) {start : Nd Int} (h0 : start.shape = q) :
    x.dynSliceV start k (-1) = if k ≤ T then .ok
      { shape := q ++ [k], get := fun idx => x.get (idx.modify q.length fun i => i + startIdx T k (start.get (idx.take q.length))) }
      else .error .typeError := by
  unfold Nd.dynSliceV
  rw [h0]
  dsimp only
  have h2 : x.shape.length - q.length = 1 := by rw [hx]; simp
  rw [assertThat_ok (by rw [hx]; simp), exc_ok_bind, h2, normAxis_last (by omega), exc_ok_bind, Nat.sub_self, Nat.add_zero, hx, getD_snoc,
    set_snoc]
  by_cases h : k ≤ T
  · rw [assertThat_ok h, exc_ok_bind, if_pos h]; rfl
  · rw [assertThat_error h, exc_error_bind, if_neg h]

theorem ofFn_range (m : Nat) (f : Nat → β) : List.ofFn (fun i : Fin m => f i.val) = (List.range m).map f := by
  apply List.ext_getElem <;> simp

theorem map_range_add (a b : Nat) (f g : Nat → β) :
    (List.range (a + b)).map (fun k => if k < a then f k else g (k - a)) = (List.range a).map f ++ (List.range b).map g := by
  rw [List.range_add, List.map_append, List.map_map]
  refine congrArg₂ _ (List.map_congr_left fun k hk => ?_) (List.map_congr_left fun k _ => ?_)
  · rw [if_pos (List.mem_range.1 hk)]
  · simp

end

end Waymax
