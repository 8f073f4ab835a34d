import Verif.Lemmas.Batch
/-
C105: an environment on a batch of scenarios acts on each scenario as the environment on that scenario alone.
-/

namespace Waymax

section
variable {α : Type} [ScalarOps α] {pre : List Nat} {n T : Nat} [NeZero T]

omit [NeZero T] in
theorem fallback_batch {cur : TrajNd α} {s : List Nat} (hc : cur.HasShape s) :
    ∃ fb, fallbackNd cur = .ok fb ∧ fb.HasShape s ∧ ∀ idx, InRange s idx → fb.at_ idx = fallbackPt (cur.at_ idx) := by
  obtain ⟨x, e1, s1, g1⟩ := zip_shaped (ScalarOps.add (α := α)) hc.x
    (y := cur.velX.map fun v => ScalarOps.mul v ScalarOps.dt) hc.velX
  obtain ⟨y, e2, s2, g2⟩ := zip_shaped (ScalarOps.add (α := α)) hc.y
    (y := cur.velY.map fun v => ScalarOps.mul v ScalarOps.dt) hc.velY
  obtain ⟨yaw, e3, s3, g3⟩ := zip_shaped (ScalarOps.arctan2 (α := α)) hc.velY hc.velX
  unfold fallbackNd
  rw [e1, e2, e3]
  refine ⟨_, rfl, ⟨s1, s2, hc.z, hc.velX, hc.velY, s3, hc.valid, hc.timestampMicros, hc.length, hc.width, hc.height⟩, ?_⟩
  intro idx hidx
  simp only [TrajNd.at_, fallbackPt, g1 idx hidx, g2 idx hidx, g3 idx hidx, Nd.map]

omit [ScalarOps α] [NeZero T] in
theorem newField_batch (useFallback : Bool) {s : List Nat} {c v : Nd Bool} {u f d : Nd α} (hc : c.shape = s) (hv : v.shape = s)
    (hu : u.shape = s) (hf : f.shape = s) (hd : d.shape = s) :
    ∃ r, newFieldNd useFallback c v u f d = .ok r ∧ r.shape = s ∧ ∀ idx, InRange s idx →
      r.get idx = newField useFallback (c.get idx) (v.get idx) (u.get idx) (f.get idx) (d.get idx) := by
  cases useFallback with
  | false =>
    obtain ⟨r, e, sh, g⟩ := where3_shaped hc hu hd
    exact ⟨r, by simpa [newFieldNd] using e, sh, fun idx hidx => by simp [newField, g idx hidx]⟩
  | true =>
    obtain ⟨w, e, sh, g⟩ := where3_shaped hv hu hf
    obtain ⟨r, e', sh', g'⟩ := where3_shaped hc sh hd
    exact ⟨r, by simp [newFieldNd, e, e'], sh', fun idx hidx => by simp [newField, g idx hidx, g' idx hidx]⟩

omit [NeZero T] in
theorem nextValid_batch (allow : Bool) {s : List Nat} {c v d : Nd Bool} (hc : c.shape = s) (hv : v.shape = s) (hd : d.shape = s) :
    ∃ r, nextValidNd allow c v d = .ok r ∧ r.shape = s ∧ ∀ idx, InRange s idx →
      r.get idx = nextValid allow (c.get idx) (v.get idx) (d.get idx) := by
  obtain ⟨e, e1, s1, g1⟩ := zip_shaped (fun a b => a && b) hc hv
  obtain ⟨b, e2, s2, g2⟩ := zip_shaped (fun a b => a && b) hv hd
  obtain ⟨w, e3, s3, g3⟩ := where3_shaped s1 hv s2
  unfold nextValidNd
  rw [e1, exc_ok_bind, e2, exc_ok_bind, e3, exc_ok_bind]
  cases allow with
  | false => exact ⟨w, rfl, s3, fun idx h => by simp [nextValid, g3 idx h, g1 idx h, g2 idx h]⟩
  | true =>
    obtain ⟨r, e4, s4, g4⟩ := where3_shaped s1 s3 hd
    exact ⟨r, by simpa [injectNd] using e4, s4, fun idx h => by simp [nextValid, g4 idx h, g3 idx h, g1 idx h, g2 idx h]⟩

/-- `apply_trajectory_update_to_state` on a batch. -/
theorem applyUpdate_batch {upd : UpdNd α} {sim ref : TrajNd α} {isC : Nd Bool} {ts : Nd Int} (hu : upd.HasShape (pre ++ [n, 1]))
    (hs : sim.HasShape (pre ++ [n, T])) (hr : ref.HasShape (pre ++ [n, T])) (hc : isC.shape = pre ++ [n]) (ht : ts.shape = [])
    (allow fb : Bool) :
    ∃ t', applyUpdateNd upd sim ref isC ts allow fb = .ok t' ∧ t'.HasShape (pre ++ [n, T]) ∧
      ∀ p, InRange pre p → ∀ (i : Fin n) (t : Fin T), t'.at_ (p ++ [i.val, t.val]) =
        applyTrajectoryUpdate (fun j : Fin n => upd.at_ (p ++ [j.val, 0])) (fun j (k : Fin T) => sim.at_ (p ++ [j.val, k.val]))
          (fun j k => ref.at_ (p ++ [j.val, k.val])) (fun j => isC.get (p ++ [j.val])) (ts.get []) allow fb i t := by
  have hT : 1 ≤ T := Nat.one_le_iff_ne_zero.mpr (NeZero.ne T)
  obtain ⟨cur, e1, s1, g1⟩ := slice_traj hs ht
  obtain ⟨f, e2, s2, g2⟩ := fallback_batch s1
  obtain ⟨df, e3, s3, g3⟩ := slice_traj hr (start := ts.map fun t => t + 1) ht
  have hcx : isC.expandLast.shape = pre ++ [n, 1] := by simp [Nd.expandLast, hc]
  obtain ⟨x, e4, s4, g4⟩ := newField_batch fb hcx hu.valid hu.x s2.x s3.x
  obtain ⟨y, e5, s5, g5⟩ := newField_batch fb hcx hu.valid hu.y s2.y s3.y
  obtain ⟨yaw, e6, s6, g6⟩ := newField_batch fb hcx hu.valid hu.yaw s2.yaw s3.yaw
  obtain ⟨vx, e7, s7, g7⟩ := newField_batch fb hcx hu.valid hu.velX s2.velX s3.velX
  obtain ⟨vy, e8, s8, g8⟩ := newField_batch fb hcx hu.valid hu.velY s2.velY s3.velY
  obtain ⟨va, e9, s9, g9⟩ := nextValid_batch allow hcx s1.valid s3.valid
  have hnew : TrajNd.HasShape { cur with x := x, y := y, yaw := yaw, velX := vx, velY := vy, valid := va, timestampMicros := df.timestampMicros } (pre ++ [n, 1]) :=
    ⟨s4, s5, s1.z, s7, s8, s6, s9, s3.timestampMicros, s1.length, s1.width, s1.height⟩
  have hsplit : ∀ a b : Nat, pre ++ [a, b] = (pre ++ [a]) ++ [b] := by simp
  let st := startIdx T 1 (ts.get [] + 1)
  obtain ⟨t', e10, s10, g10⟩ := zipLeaves_select (f := fun _ x y => x.updSliceV y (ts.map fun t => t + 1) (some (Nd.scalar 0)) (some 1) (-1))
    (c := fun idx => st ≤ idx.getLastD 0 ∧ idx.getLastD 0 < st + 1)
    (φ := fun idx => idx.dropLast ++ [idx.getLastD 0 - st + startIdx 1 1 0])
    (P := fun idx => ∃ q t, idx = q ++ [t] ∧ InRange (pre ++ [n]) q ∧ t < T) hs hnew
    (fun β x y hx hy => by
      rw [hsplit] at hx hy
      obtain ⟨r, e, sh, g⟩ := updSliceV_last hx hy (start := ts.map fun t => t + 1) ht (us := some (Nd.scalar 0))
        (by simp [Nd.scalar]) (le_refl 1) hT
      refine ⟨r, e, by rw [sh, hsplit], ?_⟩
      rintro idx ⟨q, t, rfl, hq, htT⟩
      rw [g q hq t htT]
      simp [st, Nd.map, Nd.scalar])
  refine ⟨t', ?_, s10, fun p hp i t => ?_⟩
  · unfold applyUpdateNd
    rw [e1, exc_ok_bind, e2, exc_ok_bind, e3, exc_ok_bind]
    dsimp only
    rw [assertThat_ok ⟨by rw [hcx, hu.x], by rw [hu.x, s3.x]⟩, exc_ok_bind, e4, exc_ok_bind, e5, exc_ok_bind, e6, exc_ok_bind, e7, exc_ok_bind, e8, exc_ok_bind, e9, exc_ok_bind]
    exact e10
  · have hidx : InRange (pre ++ [n, 1]) (p ++ [i.val, 0]) := hp.snoc2 i.isLt Nat.one_pos
    have hg := g10 (p ++ [i.val, t.val]) ⟨p ++ [i.val], t.val, by simp, hp.snoc i.isLt, t.isLt⟩
    rw [hg]
    unfold applyTrajectoryUpdate dynUpdateSlice
    have hl : (p ++ [i.val, t.val]).getLastD 0 = t.val := by
      rw [show p ++ [i.val, t.val] = (p ++ [i.val]) ++ [t.val] by simp, List.getLastD_concat]
    have hd : (p ++ [i.val, t.val]).dropLast = p ++ [i.val] := by
      rw [show p ++ [i.val, t.val] = (p ++ [i.val]) ++ [t.val] by simp, List.dropLast_concat]
    rw [hl, hd]
    by_cases hw : st ≤ t.val ∧ t.val < st + 1
    · rw [if_pos hw, dif_pos hw]
      have hz : t.val - st + startIdx 1 1 0 = 0 := by simp [startIdx]; omega
      rw [hz]
      have hga := g1 p hp i
      have hgf := g2 _ hidx
      have hgd := g3 p hp i
      have hce : isC.expandLast.get (p ++ [i.val, 0]) = isC.get (p ++ [i.val]) := by
        simp only [Nd.expandLast]
        rw [show p ++ [i.val, 0] = (p ++ [i.val]) ++ [0] by simp, List.dropLast_concat]
      have hmap : (ts.map fun t => t + 1).get [] = ts.get [] + 1 := rfl
      rw [hmap] at hgd
      simp only [dynSlice, updatedPt, ← hga, ← hgd]
      rw [show p ++ [i.val] ++ [0] = p ++ [i.val, 0] by simp]
      simp only [TrajNd.at_] at hgf ⊢
      simp only [fallbackPt, Pt.mk.injEq] at hgf
      obtain ⟨hf1, hf2, -, hf4, hf5, hf6, -⟩ := hgf
      simp only [g4 _ hidx, g5 _ hidx, g6 _ hidx, g7 _ hidx, g8 _ hidx, g9 _ hidx, hce, hf1, hf2, hf4, hf5, hf6, fallbackPt,
        UpdNd.at_]
    · rw [if_neg hw, dif_neg hw]

/-- `DynamicsModel.forward` on a batch. -/
theorem forward_batch {D : Type} {dn : DynNd α} {dim : Nat} {row : (Nat → α) → D} {d : DynamicsModel α D n}
    (hd : dn.Refines n dim row d) {a : ActNd α} {sim ref : TrajNd α} {isC : Nd Bool} {ts : Nd Int} (ha : a.Shaped pre n dim)
    (hs : sim.HasShape (pre ++ [n, T])) (hr : ref.HasShape (pre ++ [n, T])) (hc : isC.shape = pre ++ [n]) (ht : ts.shape = [])
    (allow : Bool) :
    ∃ t', dn.forward a sim ref isC ts allow = .ok t' ∧ t'.HasShape (pre ++ [n, T]) ∧
      ∀ p, InRange pre p → ∀ (i : Fin n) (t : Fin T), t'.at_ (p ++ [i.val, t.val]) =
        d.forward (a.scenario row n p) (fun j (k : Fin T) => sim.at_ (p ++ [j.val, k.val]))
          (fun j k => ref.at_ (p ++ [j.val, k.val])) (fun j => isC.get (p ++ [j.val])) (ts.get []) allow i t := by
  obtain ⟨cur, e1, s1, g1⟩ := slice_traj hs ht
  obtain ⟨u, e2, s2, g2⟩ := hd pre a cur ha s1
  obtain ⟨t', e3, s3, g3⟩ := applyUpdate_batch s2 hs hr hc ht allow false
  have hsplit : pre ++ [n, T] = (pre ++ [n]) ++ [T] := by simp
  have hav : a.shape = pre ++ [n] := by
    unfold ActNd.shape
    rw [ha.valid, show pre ++ [n, 1] = (pre ++ [n]) ++ [1] by simp, List.dropLast_concat]
  have htk : ∀ k, ((pre ++ [n]) ++ [k]).take (pre ++ [n]).length = pre ++ [n] := fun k => List.take_left
  refine ⟨t', ?_, s3, fun p hp i t => ?_⟩
  · unfold DynNd.forward TrajNd.shape
    rw [assertThat_ok (by rw [hs.x, hav, hsplit, List.dropLast_concat]), exc_ok_bind]
    dsimp only
    rw [hc, assertThat_ok (by rw [hs.x, hr.x, hav, hsplit, htk]; simp), exc_ok_bind, e1, exc_ok_bind, e2, exc_ok_bind]
    unfold UpdNd.validate
    rw [assertThat_ok (by rw [s2.x, s2.y, s2.yaw, s2.velX, s2.velY, s2.valid]; simp), exc_ok_bind]
    exact e3
  · rw [g3 p hp i t]
    unfold DynamicsModel.forward
    congr 2
    funext j
    rw [g2 p hp j]
    congr 1
    funext k
    exact g1 p hp k

end

/-! ### The built-in dynamics -/

theorem snoc2 {β : Type} (p : List β) (a b : β) : p ++ [a, b] = (p ++ [a]) ++ [b] := by simp

theorem sliceLast_shape {β : Type} {x : Nd β} {q : List Nat} {m a b : Nat} (hx : x.shape = q ++ [m]) (hb : b ≤ m) :
    (x.sliceLast a b).shape = q ++ [b - a] := by
  unfold Nd.sliceLast
  rw [hx]
  simp [Nat.min_eq_left hb]

theorem sliceLast_get {β : Type} (x : Nd β) (a b : Nat) (q : List Nat) (k : Nat) :
    (x.sliceLast a b).get (q ++ [k]) = x.get (q ++ [k + a]) := by
  unfold Nd.sliceLast
  simp

theorem indexLast_shaped {β : Type} {x : Nd β} {q : List Nat} {m k : Nat} (hx : x.shape = q ++ [m]) (hk : k < m) :
    x.indexLast k = .ok { shape := q, get := fun idx => x.get (idx ++ [k]) } := by
  unfold Nd.indexLast
  rw [hx, assertThat_ok (by simpa using hk)]
  simp

theorem indexLastClamp_shaped {β : Type} {x : Nd β} {q : List Nat} {m k : Nat} (hx : x.shape = q ++ [m]) (hm : 1 ≤ m) :
    x.indexLastClamp k = .ok { shape := q, get := fun idx => x.get (idx ++ [min k (m - 1)]) } := by
  unfold Nd.indexLastClamp
  rw [hx, assertThat_ok (by simpa using hm)]
  simp

/-- State dynamics on a batch. -/
theorem C105_state {α : Type} (n : Nat) : (stateNd α).Refines n 5 stateRowOf stateDynamics := by
  intro pre a cur ha hc
  have hd : a.data.shape = (pre ++ [n]) ++ [5] := by rw [ha.data, snoc2]
  have hk : ∀ k < 5, (a.data.sliceLast k (k + 1)).shape = pre ++ [n, 1] := by
    intro k hk
    rw [sliceLast_shape hd hk, snoc2]
    simp
  refine ⟨_, rfl, ⟨hk 0 (by omega), hk 1 (by omega), hk 2 (by omega), hk 3 (by omega), hk 4 (by omega), ha.valid⟩, ?_⟩
  intro p hp i
  simp only [UpdNd.at_, snoc2, sliceLast_get, stateDynamics, stateUpdate, ActNd.scenario, stateRowOf, Nat.zero_add]

theorem deltaGlobalUpdate_batch (P : DeltaParams) {n : Nat} {pre : List Nat} {a : ActNd ℝ} {cur : TrajNd ℝ}
    (ha : a.Shaped pre n 3) (hc : cur.HasShape (pre ++ [n, 1])) :
    ∃ u, deltaGlobalUpdateNd P a cur = .ok u ∧ u.HasShape (pre ++ [n, 1]) ∧ ∀ p, InRange pre p → ∀ i : Fin n,
      u.at_ (p ++ [i.val, 0]) = deltaGlobalUpdate P (a.scenario deltaRowOf n p i) (cur.at_ (p ++ [i.val, 0])) := by
  have hd : a.data.shape = (pre ++ [n]) ++ [3] := by rw [ha.data, snoc2]
  have hl : a.data.shape.getLastD 0 = 3 := by rw [hd, List.getLastD_concat]
  have hk : ∀ k < 3, (a.data.sliceLast k (k + 1)).shape = pre ++ [n, 1] := by
    intro k hk
    rw [sliceLast_shape hd hk, snoc2]
    simp
  obtain ⟨x, e1, s1, g1⟩ := zip_shaped (fun u v : ℝ => u + v) hc.x (hk 0 (by omega))
  obtain ⟨y, e2, s2, g2⟩ := zip_shaped (fun u v : ℝ => u + v) hc.y (hk 1 (by omega))
  obtain ⟨w, e3, s3, g3⟩ := zip_shaped (fun u v : ℝ => u + v) hc.yaw (hk 2 (by omega))
  obtain ⟨v, e4, s4, g4⟩ := zip_shaped (fun u v => u && v) hc.valid ha.valid
  refine ⟨{ x := x, y := y, yaw := w, velX := (a.data.sliceLast 0 1).map fun v => v / P.dt,
            velY := (a.data.sliceLast 1 2).map fun v => v / P.dt, valid := v }, ?_,
    ⟨s1, s2, s3, hk 0 (by omega), hk 1 (by omega), s4⟩, fun p hp i => ?_⟩
  · unfold deltaGlobalUpdateNd
    dsimp only
    rw [hl, assertThat_ok (by decide), exc_ok_bind]
    norm_num only [Nat.zero_add] at e1 e2 e3 ⊢
    rw [e1, exc_ok_bind, e2, exc_ok_bind, e3, exc_ok_bind, e4, exc_ok_bind]
    rfl
  · have hidx : InRange (pre ++ [n, 1]) (p ++ [i.val, 0]) := hp.snoc2 i.isLt Nat.one_pos
    simp only [UpdNd.at_, g1 _ hidx, g2 _ hidx, g3 _ hidx, g4 _ hidx, Nd.map]
    simp only [snoc2, sliceLast_get, deltaGlobalUpdate, ActNd.scenario, deltaRowOf, Nat.zero_add, TrajNd.at_]

/-- Global delta dynamics on a batch. -/
theorem C105_deltaGlobal (P : DeltaParams) (n : Nat) : (deltaGlobalNd P).Refines n 3 deltaRowOf (deltaGlobal P) :=
  fun _ _ _ ha hc => deltaGlobalUpdate_batch P ha hc

theorem rotateNd_ok {yaw data : Nd ℝ} {q : List Nat} {M : Nat} (hy : yaw.shape = q) (hd : data.shape = q ++ [M]) (hM : 2 ≤ M) :
    ∃ r, rotateNd yaw data = .ok r ∧ r.shape = q ++ [2] ∧ ∀ p, InRange q p →
      r.get (p ++ [0]) = (rotatePoints (rotationMatrix2d (yaw.get p)) (data.get (p ++ [0]), data.get (p ++ [1]))).1 ∧
      r.get (p ++ [1]) = (rotatePoints (rotationMatrix2d (yaw.get p)) (data.get (p ++ [0]), data.get (p ++ [1]))).2 := by
  have hxy : (data.sliceLast 0 2).shape = q ++ [2] := sliceLast_shape hd hM
  obtain ⟨d, e1, s1, g1⟩ := zip_shaped (fun u v : ℝ => (u, v)) (s := q)
    (x := { shape := q, get := fun idx => (data.sliceLast 0 2).get (idx ++ [0]) })
    (y := { shape := q, get := fun idx => (data.sliceLast 0 2).get (idx ++ [1]) }) rfl rfl
  obtain ⟨r, e2, s2, g2⟩ := zip_shaped (fun a (v : ℝ × ℝ) => rotatePoints (rotationMatrix2d a) v) hy s1
  unfold rotateNd
  dsimp only
  rw [assertThat_ok (by rw [hxy, List.getLastD_concat]), exc_ok_bind, indexLast_shaped hxy (by omega), exc_ok_bind,
    indexLast_shaped hxy (by omega), exc_ok_bind, e1, exc_ok_bind, e2, exc_ok_bind]
  refine ⟨_, rfl, by rw [s2], fun p hp => ?_⟩
  simp only [List.getLastD_concat, List.dropLast_concat, if_true, Nat.one_ne_zero, if_false, g2 p hp, g1 p hp, sliceLast_get, Nat.zero_add,
    Nat.add_zero, and_self]

theorem concatLast_ok {β : Type} {x y : Nd β} {q : List Nat} {a b : Nat} (hx : x.shape = q ++ [a]) (hy : y.shape = q ++ [b]) :
    ∃ r, Nd.concatLast x y = .ok r ∧ r.shape = q ++ [a + b] ∧
      ∀ p k, r.get (p ++ [k]) = if k < a then x.get (p ++ [k]) else y.get (p ++ [k - a]) := by
  unfold Nd.concatLast
  rw [hx, hy, List.dropLast_concat, List.dropLast_concat, List.getLastD_concat, List.getLastD_concat, assertThat_ok rfl]
  exact ⟨_, rfl, rfl, fun p k => by simp⟩

/-- Local delta dynamics on a batch. -/
theorem C105_deltaLocal (P : DeltaParams) (n : Nat) : (deltaLocalNd P).Refines n 3 deltaRowOf (deltaLocal P) := by
  intro pre a cur ha hc
  have hd : a.data.shape = (pre ++ [n]) ++ [3] := by rw [ha.data, snoc2]
  have hy : cur.yaw.shape = (pre ++ [n]) ++ [1] := by rw [hc.yaw, snoc2]
  have hv : cur.valid.shape = (pre ++ [n]) ++ [1] := by rw [hc.valid, snoc2]
  have h23 : (a.data.sliceLast 2 3).shape = (pre ++ [n]) ++ [1] := sliceLast_shape hd (by omega)
  obtain ⟨v, e4, s4, g4⟩ := zip_shaped (fun u v => u && v) (x := cur.valid.sliceLast 0 1) (s := pre ++ [n, 1])
    (by rw [sliceLast_shape hv (by omega), snoc2]) ha.valid
  obtain ⟨rot, hrot, hrs, hrg⟩ := rotateNd_ok (q := pre ++ [n]) (M := 3) (yaw := { shape := pre ++ [n], get := fun idx => cur.yaw.get (idx ++ [0]) })
    rfl hd (by omega)
  obtain ⟨arr, harr, has, hag⟩ := concatLast_ok hrs h23
  obtain ⟨u, e, s, g⟩ := deltaGlobalUpdate_batch P (n := n) (pre := pre) (a := { data := arr, valid := v }) (cur := cur)
    ⟨by rw [snoc2]; exact has, s4⟩ hc
  refine ⟨u, ?_, s, fun p hp i => ?_⟩
  · unfold deltaLocalNd deltaLocalUpdateNd
    dsimp only
    rw [indexLast_shaped hy (by omega), exc_ok_bind, hrot, exc_ok_bind, harr, exc_ok_bind, e4, exc_ok_bind]
    exact e
  · have hidx : InRange (pre ++ [n, 1]) (p ++ [i.val, 0]) := hp.snoc2 i.isLt Nat.one_pos
    have hi : InRange (pre ++ [n]) (p ++ [i.val]) := hp.append (.cons i.isLt .nil)
    rw [g p hp i]
    simp only [deltaLocal, DynamicsModel.ofSingle, deltaLocalUpdate]
    congr 1
    simp only [ActNd.scenario, deltaRowOf, g4 _ hidx]
    have hval : (cur.valid.sliceLast 0 1).get (p ++ [i.val, 0]) = cur.valid.get (p ++ [i.val, 0]) := by
      rw [snoc2, sliceLast_get]
    rw [hval]
    congr 1
    simp only [snoc2, hag, hrg _ hi, sliceLast_get, TrajNd.at_]
    norm_num

/-- Bicycle dynamics on a batch. -/
theorem C105_bicycle (P : BicycleParams) (n : Nat) : (bicycleNd P).Refines n 2 bicycleRowOf (bicycle P) := by
  intro pre a cur ha hc
  have hd : a.data.shape = (pre ++ [n]) ++ [2] := by rw [ha.data, snoc2]
  let arr : Nd ℝ :=
    { shape := pre ++ [n] ++ [2]
      get := fun idx => if idx.getLastD 0 = 0 then clip (a.data.get (idx.dropLast ++ [0])) (-P.accelBound) P.accelBound
        else clip (a.data.get (idx.dropLast ++ [1])) (-P.steeringBound) P.steeringBound }
  have harr : bicycleClipNd P a.data = .ok arr := by
    unfold bicycleClipNd
    rw [indexLastClamp_shaped hd (by omega), exc_ok_bind, indexLastClamp_shaped hd (by omega), exc_ok_bind]
    unfold Nd.stackLast2
    simp only [Nd.map]
    rw [assertThat_ok trivial]
    rfl
  have harrs : arr.shape = (pre ++ [n]) ++ [2] := rfl
  let accel : Nd ℝ := (arr.sliceLast 0 1).map fun v => if P.normalizeActions then v * P.maxAccel else v
  let steer : Nd ℝ := (arr.sliceLast 1 2).map fun v => if P.normalizeActions then v * P.maxSteering else v
  have hacc : accel.shape = pre ++ [n, 1] := by rw [snoc2]; exact sliceLast_shape harrs (by omega)
  have hste : steer.shape = pre ++ [n, 1] := by rw [snoc2]; exact sliceLast_shape harrs (by omega)
  obtain ⟨speed, e1, s1, g1⟩ := zip_shaped (fun u v : ℝ => √(u ^ 2 + v ^ 2)) hc.velX hc.velY
  obtain ⟨x0, e2, s2, g2⟩ := zip_shaped (fun u v : ℝ => u + v) hc.x (y := cur.velX.map fun v => v * P.dt) hc.velX
  obtain ⟨ax, e3, s3, g3⟩ := zip_shaped (fun a c : ℝ => a * c) (x := accel.map fun v => 0.5 * v) hacc
    (y := cur.yaw.map Real.cos) hc.yaw
  obtain ⟨x, e4, s4, g4⟩ := zip_shaped (fun u v : ℝ => u + v) s2 (y := ax.map fun v => v * P.dt ^ 2) s3
  obtain ⟨y0, e5, s5, g5⟩ := zip_shaped (fun u v : ℝ => u + v) hc.y (y := cur.velY.map fun v => v * P.dt) hc.velY
  obtain ⟨ay, e6, s6, g6⟩ := zip_shaped (fun a c : ℝ => a * c) (x := accel.map fun v => 0.5 * v) hacc
    (y := cur.yaw.map Real.sin) hc.yaw
  obtain ⟨y, e7, s7, g7⟩ := zip_shaped (fun u v : ℝ => u + v) s5 (y := ay.map fun v => v * P.dt ^ 2) s6
  obtain ⟨dist, e8, s8, g8⟩ := zip_shaped (fun u v : ℝ => u + v) (x := speed.map fun v => v * P.dt) s1
    (y := accel.map fun v => 0.5 * v * P.dt ^ 2) hacc
  obtain ⟨dy, e9, s9, g9⟩ := zip_shaped (fun u v : ℝ => u * v) hste s8
  obtain ⟨ys, e10, s10, g10⟩ := zip_shaped (fun u v : ℝ => u + v) hc.yaw s9
  obtain ⟨vel, e11, s11, g11⟩ := zip_shaped (fun u v : ℝ => u + v) s1 (y := accel.map fun v => v * P.dt) hacc
  obtain ⟨vx, e12, s12, g12⟩ := zip_shaped (fun u v : ℝ => u * v) s11 (y := (ys.map wrapYaws).map Real.cos) s10
  obtain ⟨vy, e13, s13, g13⟩ := zip_shaped (fun u v : ℝ => u * v) s11 (y := (ys.map wrapYaws).map Real.sin) s10
  obtain ⟨va, e14, s14, g14⟩ := zip_shaped (fun u v => u && v) hc.valid ha.valid
  refine ⟨{ x := x, y := y, yaw := ys.map wrapYaws, velX := vx, velY := vy, valid := va }, ?_, ⟨s4, s7, s10, s12, s13, s14⟩,
    fun p hp i => ?_⟩
  · unfold bicycleNd bicycleUpdateNd
    dsimp only
    rw [e1, exc_ok_bind, harr, exc_ok_bind, e2, exc_ok_bind, e3, exc_ok_bind, e4, exc_ok_bind, e5, exc_ok_bind, e6, exc_ok_bind, e7, exc_ok_bind, e8, exc_ok_bind,
      e9, exc_ok_bind, e10, exc_ok_bind, e11, exc_ok_bind, e12, exc_ok_bind, e13, exc_ok_bind, e14, exc_ok_bind]
    rfl
  · have hidx : InRange (pre ++ [n, 1]) (p ++ [i.val, 0]) := hp.snoc2 i.isLt Nat.one_pos
    have ha0 : accel.get (p ++ [i.val, 0]) = (bicyclePhysical P (bicycleRowOf fun k => a.data.get (p ++ [i.val, k]))).accel := by
      simp only [accel, Nd.map, snoc2, sliceLast_get, arr, List.getLastD_concat, List.dropLast_concat, bicyclePhysical, bicycleClip,
        bicycleRowOf, Nat.zero_add, if_true]
      split <;> rfl
    have hs0 : steer.get (p ++ [i.val, 0]) = (bicyclePhysical P (bicycleRowOf fun k => a.data.get (p ++ [i.val, k]))).steering := by
      simp only [steer, Nd.map, snoc2, sliceLast_get, arr, List.getLastD_concat, List.dropLast_concat, bicyclePhysical, bicycleClip,
        bicycleRowOf, Nat.zero_add, Nat.one_ne_zero, if_false]
      split <;> rfl
    simp only [UpdNd.at_, g1 _ hidx, g2 _ hidx, g3 _ hidx, g4 _ hidx, g5 _ hidx, g6 _ hidx, g7 _ hidx, g8 _ hidx, g9 _ hidx,
      g10 _ hidx, g11 _ hidx, g12 _ hidx, g13 _ hidx, g14 _ hidx, Nd.map, bicycle, DynamicsModel.ofSingle, bicycleUpdate,
      ActNd.scenario, TrajNd.at_, ha0, hs0]

/-! ### The environment -/

section
variable {α : Type} [ScalarOps α] {pre : List Nat} {n T : Nat}

theorem fillInvalid_shape {t : TrajNd α} {s : List Nat} (h : t.HasShape s) : t.fillInvalid.HasShape s :=
  ⟨h.x, h.y, h.z, h.velX, h.velY, h.yaw, h.valid, h.timestampMicros, h.length, h.width, h.height⟩

/-- `update_by_slice_in_dim` of a trajectory with a start index shared by the batch and `updates_start_idx` left out: a slice that
fits. -/
theorem updSlice_fits {t u : TrajNd α} {start : Nd Int} (ht : t.HasShape (pre ++ [n, T])) (hu : u.HasShape (pre ++ [n, T]))
    (h0 : start.shape = []) {k : Nat} (hk : k ≤ T) :
    ∃ t', t.updSlice u start none (some k) = .ok t' ∧ t'.HasShape (pre ++ [n, T]) ∧ ∀ p, InRange pre p →
      updateTrajBySlice (fun (i : Fin n) (j : Fin T) => t.at_ (p ++ [i.val, j.val])) (fun i (j : Fin T) => u.at_ (p ++ [i.val, j.val]))
        (start.get []) none (some k) = .ok fun i j => t'.at_ (p ++ [i.val, j.val]) := by
  let st := startIdx T k (start.get [])
  obtain ⟨t', e, s, g⟩ := zipLeaves_select (f := fun _ x y => x.updSliceV y start none (some k) (-1))
    (c := fun idx => st ≤ idx.getLastD 0 ∧ idx.getLastD 0 < st + k)
    (φ := fun idx => idx.dropLast ++ [idx.getLastD 0 - st + st])
    (P := fun idx => ∃ q t, idx = q ++ [t] ∧ InRange (pre ++ [n]) q ∧ t < T) ht hu
    (fun β x y hx hy => by
      rw [snoc2] at hx hy
      obtain ⟨r, e, sh, g⟩ := updSliceV_last hx hy h0 (us := none) (by simp) hk hk
      refine ⟨r, e, by rw [sh, snoc2], ?_⟩
      rintro idx ⟨q, t, rfl, hq, htT⟩
      rw [g q hq t htT]
      simp [st])
  refine ⟨t', e, s, fun p hp => ?_⟩
  simp only [updateTrajBySlice, hk, dif_pos, if_true, Option.getD_none]
  congr 1
  funext i j
  have hg := g (p ++ [i.val, j.val]) ⟨p ++ [i.val], j.val, by simp, hp.snoc i.isLt, j.isLt⟩
  rw [hg, snoc2, List.getLastD_concat, List.dropLast_concat]
  unfold dynUpdateSlice
  by_cases hw : st ≤ j.val ∧ j.val < st + k
  · rw [if_pos hw, dif_pos hw]
    have hj : st + (j.val - st) = j.val - st + st := by omega
    simp only [dynSlice, ← snoc2]
    exact congrArg (fun k => u.at_ (p ++ [i.val, k])) hj
  · rw [if_neg hw, dif_neg hw, ← snoc2]

/-- `update_by_slice_in_dim` of a trajectory with a start index shared by the batch and `updates_start_idx` left out. -/
theorem updSlice_batch {t u : TrajNd α} {start : Nd Int} (ht : t.HasShape (pre ++ [n, T])) (hu : u.HasShape (pre ++ [n, T]))
    (h0 : start.shape = []) (k : Nat) :
    (∃ t', t.updSlice u start none (some k) = .ok t' ∧ t'.HasShape (pre ++ [n, T]) ∧ ∀ p, InRange pre p →
      updateTrajBySlice (fun (i : Fin n) (j : Fin T) => t.at_ (p ++ [i.val, j.val])) (fun i (j : Fin T) => u.at_ (p ++ [i.val, j.val]))
        (start.get []) none (some k) = .ok fun i j => t'.at_ (p ++ [i.val, j.val])) ∨
    (t.updSlice u start none (some k) = .error .typeError ∧ ∀ p, InRange pre p →
      updateTrajBySlice (fun (i : Fin n) (j : Fin T) => t.at_ (p ++ [i.val, j.val])) (fun i (j : Fin T) => u.at_ (p ++ [i.val, j.val]))
        (start.get []) none (some k) = .error .typeError) := by
  by_cases hk : k ≤ T
  · exact .inl (updSlice_fits ht hu h0 hk)
  · right
    constructor
    · unfold TrajNd.updSlice TrajNd.zipLeaves
      dsimp only
      rw [updSliceV_last_error (by rw [ht.x, snoc2]) (by rw [hu.x, snoc2]) h0 (us := none) (by simp) (k := k) (by omega)]
      rfl
    · intro p _
      simp [updateTrajBySlice, hk]

/-- Reset of a batch. -/
theorem C105_reset (cfg : EnvConfig) {S : StateNd α} (h : S.Shaped pre n T) :
    BatchAgrees pre n T (resetNd cfg S) fun p => reset cfg (S.scenario n T p) := by
  have hn : S.logTrajectory.numObjects = .ok n := by
    unfold TrajNd.numObjects TrajNd.shape
    rw [h.log.x]
    simp
  unfold resetNd
  rw [hn, exc_ok_bind]
  by_cases hc : cfg.maxNumObjects = n
  · rw [assertThat_ok hc, exc_ok_bind]
    unfold updateStateByLogNd
    dsimp only
    rcases updSlice_batch (pre := pre) (n := n) (T := T) (t := S.logTrajectory.fillInvalid) (u := S.logTrajectory)
      (start := (Nd.scalar (-1 : Int)).map fun t => t + 1) (fillInvalid_shape h.log) h.log rfl cfg.initSteps with
      ⟨t', e, s, g⟩ | ⟨e, g⟩
    · rw [e, exc_ok_bind]
      refine ⟨⟨s, h.log, h.metadata⟩, rfl, fun p hp => ?_⟩
      have hg := g p hp
      simp only [reset, hc, if_true, updateStateByLog]
      have hfill : (fillInvalidTrajectory (S.scenario n T p).logTrajectory : Traj α n T) =
          fun i j => S.logTrajectory.fillInvalid.at_ (p ++ [i.val, j.val]) := rfl
      have hst : ((Nd.scalar (-1 : Int)).map fun t => t + 1).get [] = (-1 : Int) + 1 := rfl
      rw [hst] at hg
      rw [hfill]
      simp only [StateNd.scenario]
      rw [hg]
      rfl
    · rw [e, exc_error_bind]
      intro p hp
      have hg := g p hp
      simp only [reset, hc, if_true, updateStateByLog]
      have hfill : (fillInvalidTrajectory (S.scenario n T p).logTrajectory : Traj α n T) =
          fun i j => S.logTrajectory.fillInvalid.at_ (p ++ [i.val, j.val]) := rfl
      have hst : ((Nd.scalar (-1 : Int)).map fun t => t + 1).get [] = (-1 : Int) + 1 := rfl
      rw [hst] at hg
      rw [hfill]
      simp only [StateNd.scenario]
      rw [hg]
      rfl
  · rw [assertThat_error hc]
    intro p _
    simp [reset, hc]

variable [NeZero T]

omit [ScalarOps α] in
theorem controlMask_batch (cfg : EnvConfig) {S : StateNd α} (h : S.Shaped pre n T) :
    (∃ m, envControlMaskNd cfg S = .ok m ∧ m.shape = pre ++ [n] ∧
      ∀ p, InRange pre p → envControlMask cfg (S.scenario n T p) = .ok fun i => m.get (p ++ [i.val])) ∨
    (∃ e, envControlMaskNd cfg S = .error e ∧ ∀ p, InRange pre p → envControlMask cfg (S.scenario n T p) = .error e) := by
  have hT : 1 ≤ T := Nat.one_le_iff_ne_zero.mpr (NeZero.ne T)
  unfold envControlMaskNd envControlMask
  by_cases hv : cfg.controlledObject = .VALID ∧ cfg.allowNewObjectsAfterWarmup = false
  · simp only [if_pos hv]
    left
    unfold Nd.dynIndexV
    rw [h.sim.valid, snoc2, normAxis_last', exc_ok_bind, getD_snoc]
    dsimp only
    rw [assertThat_ok hT, exc_ok_bind]
    refine ⟨_, rfl, ?_, fun p hp => ?_⟩
    · simp only
      rw [List.eraseIdx_append_of_length_le (le_refl _)]
      simp
    · simp only
      congr 1
      funext i
      have hl : (pre ++ [n]).length = (p ++ [i.val]).length := by simp [hp.length]
      rw [hl, List.insertIdx_length_self]
      rw [← snoc2]
      rfl
  · simp only [if_neg hv]
    cases hco : cfg.controlledObject with
    | SDC => exact .inl ⟨_, rfl, h.metadata.isSdc, fun p _ => rfl⟩
    | MODELED => exact .inl ⟨_, rfl, h.metadata.isModeled, fun p _ => rfl⟩
    | VALID => exact .inl ⟨_, rfl, h.metadata.isValid, fun p _ => rfl⟩
    | NON_SDC => exact .inr ⟨_, rfl, fun p _ => rfl⟩

/-- One step of a batch whose scenarios share the time step. -/
theorem C105_step {D : Type} {dn : DynNd α} {dim : Nat} {row : (Nat → α) → D} {d : DynamicsModel α D n}
    (hd : dn.Refines n dim row d) (cfg : EnvConfig) {S : StateNd α} (h : S.Shaped pre n T) (ht : S.timestep.shape = [])
    {a : ActNd α} (ha : a.Shaped pre n dim) :
    BatchAgrees pre n T (stepNd dn cfg S a) fun p => step d cfg (S.scenario n T p) (a.scenario row n p) := by
  unfold stepNd
  rcases controlMask_batch cfg h with ⟨m, e, s, g⟩ | ⟨e, he, g⟩
  · obtain ⟨t', e2, s2, g2⟩ := forward_batch hd ha h.sim h.log s ht cfg.allowNewObjectsAfterWarmup
    rw [e, exc_ok_bind, e2, exc_ok_bind]
    refine ⟨⟨s2, h.log, h.metadata⟩, ht, fun p hp => ?_⟩
    simp only [step]
    rw [g p hp]
    have htk : (S.scenario n T p).timestep = S.timestep.get [] := by simp [StateNd.scenario, ht]
    have htr : (d.forward (a.scenario row n p) (S.scenario n T p).simTrajectory (S.scenario n T p).logTrajectory
        (fun i => m.get (p ++ [i.val])) (S.scenario n T p).timestep cfg.allowNewObjectsAfterWarmup) =
        fun i t => t'.at_ (p ++ [i.val, t.val]) := by
      funext i t
      rw [g2 p hp i t, htk]
      rfl
    rw [exc_ok_bind, htr, htk]
    simp [StateNd.scenario, Nd.map, ht]
  · rw [he]
    intro p hp
    simp only [step]
    rw [g p hp]
    rfl

omit [ScalarOps α] [NeZero T] in
theorem BatchAgrees.bind {r : Except Err (StateNd α)} {f : List Nat → Except Err (SimState α n T)}
    (h : BatchAgrees pre n T r f) {g : StateNd α → Except Err (StateNd α)}
    {g' : List Nat → SimState α n T → Except Err (SimState α n T)}
    (hg : ∀ s', s'.Shaped pre n T → s'.timestep.shape = [] →
      BatchAgrees pre n T (g s') fun p => g' p (s'.scenario n T p)) :
    BatchAgrees pre n T (r >>= g) fun p => f p >>= g' p := by
  cases r with
  | error e =>
    have h' : ∀ p, InRange pre p → f p = .error e := h
    exact fun p hp => by beta_reduce; rw [h' p hp]; rfl
  | ok s' =>
    obtain ⟨h1, h2, h3⟩ := h
    have h4 := hg s' h1 h2
    rw [exc_ok_bind]
    cases hgs : g s' with
    | error e =>
      rw [hgs] at h4
      have h' : ∀ p, InRange pre p → g' p (s'.scenario n T p) = .error e := h4
      exact fun p hp => by beta_reduce; rw [h3 p hp, exc_ok_bind, h' p hp]
    | ok s'' =>
      rw [hgs] at h4
      obtain ⟨h5, h6, h7⟩ := h4
      have h' : ∀ p, InRange pre p → g' p (s'.scenario n T p) = .ok (s''.scenario n T p) := h7
      exact ⟨h5, h6, fun p hp => by beta_reduce; rw [h3 p hp, exc_ok_bind, h' p hp]⟩

/-- Any number of steps of a batch. -/
theorem C105_steps {D : Type} {dn : DynNd α} {dim : Nat} {row : (Nat → α) → D} {d : DynamicsModel α D n}
    (hd : dn.Refines n dim row d) (cfg : EnvConfig) (as : List (ActNd α)) (ha : ∀ a ∈ as, a.Shaped pre n dim) :
    ∀ {S : StateNd α}, S.Shaped pre n T → S.timestep.shape = [] →
    BatchAgrees pre n T (stepManyNd dn cfg S as) fun p =>
      stepMany d cfg (S.scenario n T p) (as.map fun a => a.scenario row n p) := by
  induction as with
  | nil => exact fun h ht => ⟨h, ht, fun p _ => rfl⟩
  | cons a as ih =>
    intro S h ht
    exact (C105_step hd cfg h ht (ha a (by simp))).bind
      (g' := fun p s => stepMany d cfg s (as.map fun a => a.scenario row n p))
      fun s' h1 h2 => ih (fun b hb => ha b (by simp [hb])) h1 h2

/-- A whole episode of a batch: reset, then any actions. Whatever the batch axes, each scenario goes through the states it goes
through alone. -/
theorem C105_episode {D : Type} {dn : DynNd α} {dim : Nat} {row : (Nat → α) → D} {d : DynamicsModel α D n}
    (hd : dn.Refines n dim row d) (cfg : EnvConfig) {S : StateNd α} (h : S.Shaped pre n T) (as : List (ActNd α))
    (ha : ∀ a ∈ as, a.Shaped pre n dim) :
    BatchAgrees pre n T (resetNd cfg S >>= fun s => stepManyNd dn cfg s as) fun p =>
      reset cfg (S.scenario n T p) >>= fun s => stepMany d cfg s (as.map fun a => a.scenario row n p) :=
  (C105_reset cfg h).bind (g' := fun p s => stepMany d cfg s (as.map fun a => a.scenario row n p))
    fun _ h1 h2 => C105_steps hd cfg as ha h1 h2

end

end Waymax
