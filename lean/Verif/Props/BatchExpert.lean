import Verif.Props.BatchRollout
/-
The inverses of the built-in dynamics and the expert actor on batches, for C120.
-/

namespace Waymax

section
variable {pre : List Nat} {n T : Nat}

theorem stackLast_ok {β : Type} {x : Nd β} {xs : List (Nd β)} {s : List Nat} (h : ∀ y ∈ x :: xs, y.shape = s) :
    ∃ r, Nd.stackLast (x :: xs) = .ok r ∧ r.shape = s ++ [xs.length + 1] ∧
      ∀ idx k, r.get (idx ++ [k]) = ((x :: xs).getD k x).get idx := by
  have hx := h x (by simp)
  unfold Nd.stackLast
  dsimp only
  rw [assertThat_ok (show ∀ y ∈ x :: xs, y.shape = x.shape from fun y hy => by rw [h y hy, hx]), hx]
  refine ⟨_, rfl, by simp, fun idx k => by simp⟩

theorem sliceSecond_ok {β : Type} {x : Nd β} {q : List Nat} {d : Nat} (hs : x.shape = q ++ [T, d]) {k : Nat} (hk : k ≤ T) (st : Int) :
    ∃ r, x.sliceInDim st k (-2) = .ok r ∧ r.shape = q ++ [k, d] ∧
      ∀ p a b, p.length = q.length → r.get (p ++ [a, b]) = x.get (p ++ [a + startIdx T k st, b]) := by
  unfold Nd.sliceInDim
  rw [hs, normAxis_second, exc_ok_bind, getD_append_cons rfl]
  dsimp only
  rw [if_pos hk, set_append_cons rfl]
  exact ⟨_, rfl, rfl, fun p a b h => by dsimp only; rw [modify_append_cons h]⟩

theorem sliceInLast_ok {β : Type} {x : Nd β} {q : List Nat} (hs : x.shape = q ++ [T]) {k : Nat} (hk : k ≤ T) (st : Int) :
    ∃ r, x.sliceInDim st k (-1) = .ok r ∧ r.shape = q ++ [k] ∧
      ∀ p a, p.length = q.length → r.get (p ++ [a]) = x.get (p ++ [a + startIdx T k st]) :=
  ⟨_, sliceInDim_last hs hk st, rfl, fun p a h => by dsimp only; rw [modify_append_cons h]⟩

theorem indexBeforeLast_ok {β : Type} {x : Nd β} {q : List Nat} {m d k : Nat} (hx : x.shape = q ++ [m, d]) (hk : k < m) :
    ∃ r, x.indexBeforeLast k = .ok r ∧ r.shape = q ++ [d] ∧ ∀ p j, r.get (p ++ [j]) = x.get (p ++ [k, j]) := by
  unfold Nd.indexBeforeLast
  rw [hx, snoc2, assertThat_ok (by simpa using hk)]
  exact ⟨_, rfl, by simp, fun p j => by simp⟩

/-- State dynamics: the inverse on a batch. -/
theorem C120_state_inverse {α : Type} (n : Nat) : (stateInverseNd α).Refines n 5 stateRowOf stateDynamics := by
  intro pre T _ t m ts hT ht
  have h1 : 1 ≤ T := by omega
  obtain ⟨r1, e1, s1, g1⟩ := stackLast_ok (x := t.x) (xs := [t.y, t.yaw, t.velX, t.velY]) (s := pre ++ [n, T])
    (by simp [ht.x, ht.y, ht.yaw, ht.velX, ht.velY])
  obtain ⟨r2, e2, s2, g2⟩ := sliceSecond_ok (T := T) (q := pre ++ [n]) (d := 5) (x := r1) (by rw [s1]; simp) h1 (ts + 1)
  obtain ⟨r3, e3, s3, g3⟩ := sliceInLast_ok (T := T) (q := pre ++ [n]) (x := t.valid) (by rw [ht.valid, snoc2]) h1 (ts + 1)
  obtain ⟨r4, e4, s4, g4⟩ := indexBeforeLast_ok (q := pre ++ [n]) (m := 1) (d := 5) (x := r2) s2 (k := 0) (by omega)
  unfold stateInverseNd
  rw [e1, exc_ok_bind, e2, exc_ok_bind, e3, exc_ok_bind, e4, exc_ok_bind]
  refine ⟨_, rfl, ⟨by rw [s4, snoc2], by rw [s3, snoc2]⟩, fun p hp => ?_⟩
  funext i
  have hl : (p ++ [i.val]).length = (pre ++ [n]).length := by simp [hp.length]
  have hk : ∀ k, r4.get (p ++ [i.val, k]) = ([t.x, t.y, t.yaw, t.velX, t.velY].getD k t.x).get (p ++ [i.val, startIdx T 1 (ts + 1)]) := by
    intro k
    rw [snoc2, g4, g2 _ _ _ hl, snoc2, g1, Nat.zero_add, ← snoc2]
  have hv : r3.get (p ++ [i.val, 0]) = t.valid.get (p ++ [i.val, startIdx T 1 (ts + 1)]) := by
    rw [snoc2, g3 _ _ hl, Nat.zero_add, ← snoc2]
  simp only [ActNd.scenario, stateRowOf, hk, hv, stateDynamics, stateInverse, dynIndex]
  rfl

theorem zip_one_last {β γ δ : Type} (f : β → γ → δ) {x : Nd β} {y : Nd γ} {q : List Nat} {M : Nat} (hx : x.shape = q ++ [1])
    (hy : y.shape = q ++ [M]) :
    ∃ r, Nd.zip f x y = .ok r ∧ r.shape = q ++ [M] ∧
      ∀ p m, InRange q p → m < M → r.get (p ++ [m]) = f (x.get (p ++ [0])) (y.get (p ++ [m])) := by
  unfold Nd.zip
  rw [hx, hy, broadcastShape_last_one]
  refine ⟨_, rfl, rfl, fun p m hp hm => ?_⟩
  simp only [broadcastIdx_last_one hp, broadcastIdx_self (hp.snoc hm)]

/-- `jnp.where(valid, x, 0.0)` for one flag per row. -/
theorem whereRow_ok {v : Nd Bool} {x : Nd ℝ} {q : List Nat} {M : Nat} (hv : v.shape = q ++ [1]) (hx : x.shape = q ++ [M]) :
    ∃ r, Nd.where3 v x (Nd.scalar 0) = .ok r ∧ r.shape = q ++ [M] ∧
      ∀ p m, InRange q p → m < M → r.get (p ++ [m]) = if v.get (p ++ [0]) = true then x.get (p ++ [m]) else 0 := by
  obtain ⟨ab, e1, s1, g1⟩ := zip_scalar (fun u v : ℝ => (u, v)) hx (y := Nd.scalar 0) rfl
  obtain ⟨r, e2, s2, g2⟩ := zip_one_last (fun (b : Bool) (uv : ℝ × ℝ) => if b then uv.1 else uv.2) hv s1
  refine ⟨r, ?_, s2, fun p m hp hm => ?_⟩
  · unfold Nd.where3
    rw [e1, exc_ok_bind]
    exact e2
  · rw [g2 p m hp hm, g1 _ (hp.snoc hm)]
    rfl

theorem deltaClipNd_ok (P : DeltaParams) {x : Nd ℝ} {q : List Nat} (hx : x.shape = q ++ [3]) :
    ∃ r, deltaClipNd P x = .ok r ∧ r.shape = q ++ [3] ∧ ∀ p,
      r.get (p ++ [0]) = clip (x.get (p ++ [0])) (-P.maxDx) P.maxDx ∧ r.get (p ++ [1]) = clip (x.get (p ++ [1])) (-P.maxDy) P.maxDy ∧
      r.get (p ++ [2]) = wrapYaws (x.get (p ++ [2])) := by
  unfold deltaClipNd
  rw [indexLast_shaped hx (by omega), exc_ok_bind, indexLast_shaped hx (by omega), exc_ok_bind, indexLast_shaped hx (by omega), exc_ok_bind]
  obtain ⟨r, e, s, g⟩ := stackLast_ok (s := q)
    (x := (Nd.map (fun v => clip v (-P.maxDx) P.maxDx) { shape := q, get := fun idx => x.get (idx ++ [0]) } : Nd ℝ))
    (xs := [(Nd.map (fun v => clip v (-P.maxDy) P.maxDy) { shape := q, get := fun idx => x.get (idx ++ [1]) } : Nd ℝ),
      (Nd.map wrapYaws { shape := q, get := fun idx => x.get (idx ++ [2]) } : Nd ℝ)])
    (by simp [Nd.map])
  exact ⟨r, e, s, fun p => ⟨g p 0, g p 1, g p 2⟩⟩

/-- Global delta dynamics: the inverse on a batch. -/
theorem C120_deltaGlobal_inverse (P : DeltaParams) (n : Nat) : (deltaGlobalInverseNd P).Refines n 3 deltaRowOf (deltaGlobal P) := by
  intro pre T _ t m ts hT ht
  obtain ⟨r1, e1, s1, g1⟩ := stackLast_ok (x := t.x) (xs := [t.y, t.yaw]) (s := pre ++ [n, T]) (by simp [ht.x, ht.y, ht.yaw])
  obtain ⟨r2, e2, s2, g2⟩ := sliceSecond_ok (T := T) (q := pre ++ [n]) (d := 3) (x := r1) (by rw [s1]; simp) hT ts
  obtain ⟨ra, ea, sa, ga⟩ := indexBeforeLast_ok (q := pre ++ [n]) (m := 2) (d := 3) (x := r2) s2 (k := 1) (by omega)
  obtain ⟨rb, eb, sb, gb⟩ := indexBeforeLast_ok (q := pre ++ [n]) (m := 2) (d := 3) (x := r2) s2 (k := 0) (by omega)
  obtain ⟨raw, e3, s3, g3⟩ := zip_shaped (fun a b : ℝ => a - b) sa sb
  obtain ⟨vs, e4, s4, g4⟩ := sliceInLast_ok (T := T) (q := pre ++ [n]) (x := t.valid) (by rw [ht.valid, snoc2]) hT ts
  obtain ⟨v, e5, s5, g5⟩ := zip_shaped (fun a b : Bool => a && b) (x := vs.sliceLast 0 1) (y := vs.sliceLast 1 2)
    (sliceLast_shape s4 (by omega)) (sliceLast_shape s4 (by omega))
  obtain ⟨arr, e6, s6, g6⟩ := whereRow_ok (q := pre ++ [n]) (M := 3) (v := v) s5 s3
  obtain ⟨data, e7, s7, g7⟩ := deltaClipNd_ok P s6
  unfold deltaGlobalInverseNd
  rw [e1, exc_ok_bind, e2, exc_ok_bind, ea, exc_ok_bind, eb, exc_ok_bind, e3, exc_ok_bind, e4, exc_ok_bind, e5, exc_ok_bind, e6,
    exc_ok_bind, e7, exc_ok_bind]
  refine ⟨_, rfl, ⟨by rw [s7, snoc2], by rw [s5, snoc2]⟩, fun p hp => ?_⟩
  funext i
  have hl : (p ++ [i.val]).length = (pre ++ [n]).length := by simp [hp.length]
  have hi : InRange (pre ++ [n]) (p ++ [i.val]) := hp.snoc i.isLt
  have hw : window2 (fun k : Fin T => t.at_ (p ++ [i.val, k.val])) ts =
      (t.at_ (p ++ [i.val, startIdx T 2 ts]), t.at_ (p ++ [i.val, 1 + startIdx T 2 ts])) := by
    simp [window2, hT, dynSlice, Nat.add_comm]
  have hval : v.get (p ++ [i.val, 0]) = (t.valid.get (p ++ [i.val, startIdx T 2 ts]) && t.valid.get (p ++ [i.val, 1 + startIdx T 2 ts])) := by
    rw [snoc2, g5 _ (hi.snoc (by omega)), sliceLast_get, sliceLast_get, g4 _ _ hl, g4 _ _ hl]
    simp
  have hraw : ∀ k < 3, raw.get (p ++ [i.val] ++ [k]) = ([t.x, t.y, t.yaw].getD k t.x).get (p ++ [i.val, 1 + startIdx T 2 ts]) -
      ([t.x, t.y, t.yaw].getD k t.x).get (p ++ [i.val, startIdx T 2 ts]) := by
    intro k hk
    rw [g3 _ (hi.snoc hk), ga, gb, g2 _ _ _ hl, g2 _ _ _ hl, snoc2, g1, snoc2, g1, Nat.zero_add, ← snoc2, ← snoc2]
  have harr : ∀ k (hk : k < 3), arr.get (p ++ [i.val] ++ [k]) = if v.get (p ++ [i.val, 0]) = true then
      ([t.x, t.y, t.yaw].getD k t.x).get (p ++ [i.val, 1 + startIdx T 2 ts]) -
      ([t.x, t.y, t.yaw].getD k t.x).get (p ++ [i.val, startIdx T 2 ts]) else 0 := by
    intro k hk
    rw [g6 _ _ hi hk, hraw k hk, ← snoc2]
  simp only [ActNd.scenario, deltaRowOf, deltaGlobal, DynamicsModel.ofSingle, deltaGlobalInverse, hw, hval]
  rw [snoc2, snoc2, snoc2, (g7 _).1, (g7 _).2.1, (g7 _).2.2, harr 0 (by omega), harr 1 (by omega), harr 2 (by omega), hval]
  by_cases hc : (t.valid.get (p ++ [i.val, startIdx T 2 ts]) && t.valid.get (p ++ [i.val, 1 + startIdx T 2 ts])) = true
  · simp only [hc, if_true, deltaClip, TrajNd.at_]
    rfl
  · rw [Bool.not_eq_true] at hc
    simp only [hc, Bool.false_eq_true, if_false, deltaClip, TrajNd.at_]

/-- Local delta dynamics: the inverse on a batch. -/
theorem C120_deltaLocal_inverse (P : DeltaParams) (n : Nat) : (deltaLocalInverseNd P).Refines n 3 deltaRowOf (deltaLocal P) := by
  intro pre T _ t m ts hT ht
  have h1 : 1 ≤ T := by omega
  obtain ⟨g, e1, s1, g1⟩ := C120_deltaGlobal_inverse P n pre T t m ts hT ht
  have hgd : g.data.shape = pre ++ [n] ++ [3] := by rw [s1.data, snoc2]
  obtain ⟨yaw1, e2, s2, g2⟩ := sliceInLast_ok (T := T) (q := pre ++ [n]) (x := t.yaw) (by rw [ht.yaw, snoc2]) h1 ts
  obtain ⟨val1, e3, s3, g3⟩ := sliceInLast_ok (T := T) (q := pre ++ [n]) (x := t.valid) (by rw [ht.valid, snoc2]) h1 ts
  let yaw : Nd ℝ := { shape := pre ++ [n], get := fun idx => yaw1.get (idx ++ [0]) }
  obtain ⟨rot, e4, s4, g4⟩ := rotateNd_ok (yaw := yaw.map fun v => -v) (data := g.data) rfl hgd (by omega)
  obtain ⟨arr, e5, s5, g5⟩ := concatLast_ok s4 (y := g.data.sliceLast 2 3) (b := 1) (sliceLast_shape hgd (by omega))
  obtain ⟨data, e6, s6, g6⟩ := deltaClipNd_ok P s5
  obtain ⟨v, e7, s7, g7⟩ := zip_shaped (fun a b : Bool => a && b) (x := val1.sliceLast 0 1) (y := g.valid) (s := pre ++ [n, 1])
    (by rw [sliceLast_shape s3 (by omega), snoc2]) s1.valid
  unfold deltaLocalInverseNd
  rw [e1, exc_ok_bind, e2, exc_ok_bind, indexLast_shaped s2 (by omega), exc_ok_bind, e3, exc_ok_bind]
  dsimp only
  rw [show ({ shape := pre ++ [n], get := fun idx => yaw1.get (idx ++ [0]) } : Nd ℝ) = yaw from rfl, e4, exc_ok_bind, e5, exc_ok_bind,
    e6, exc_ok_bind, e7, exc_ok_bind]
  refine ⟨_, rfl, ⟨by rw [s6, snoc2]; rfl, s7⟩, fun p hp => ?_⟩
  funext i
  have hl : (p ++ [i.val]).length = (pre ++ [n]).length := by simp [hp.length]
  have hgi := congrFun (g1 p hp) i
  simp only [deltaGlobal, DynamicsModel.ofSingle] at hgi
  have hcur : dynIndex (fun k : Fin T => t.at_ (p ++ [i.val, k.val])) ts = t.at_ (p ++ [i.val, startIdx T 1 ts]) := rfl
  have hyaw : yaw.get (p ++ [i.val]) = t.yaw.get (p ++ [i.val, startIdx T 1 ts]) := by
    simp only [yaw]
    rw [g2 _ _ hl, Nat.zero_add, ← snoc2]
  have hi : InRange (pre ++ [n]) (p ++ [i.val]) := hp.snoc i.isLt
  simp only [deltaLocal, DynamicsModel.ofSingle, deltaLocalInverse, ← hgi, hcur]
  simp only [ActNd.scenario, deltaRowOf]
  rw [g7 _ (hp.snoc2 i.isLt Nat.one_pos)]
  simp only [snoc2]
  rw [(g6 _).1, (g6 _).2.1, (g6 _).2.2, g5, g5, g5, if_pos (by omega), if_pos (by omega), if_neg (by omega), (g4 _ hi).1, (g4 _ hi).2,
    sliceLast_get, sliceLast_get, g3 _ _ hl]
  simp only [Nd.map, hyaw, deltaClip, TrajNd.at_, ← snoc2, Nat.zero_add]

/-- Bicycle dynamics: the inverse on a batch. -/
theorem C120_bicycle_inverse (P : BicycleParams) (n : Nat) : (bicycleInverseNd P).Refines n 2 bicycleRowOf (bicycle P) := by
  intro pre T _ t m ts hT ht
  let st := startIdx T 2 ts
  obtain ⟨w, e1, s1, g1⟩ := mapLeaves_rename (f := fun _ x => x.sliceInDim ts 2 (-1))
    (s' := pre ++ [n, 2]) (φ := fun idx => idx.modify (pre ++ [n]).length fun i => i + st) ht
    (fun β x hx => by
      rw [snoc2] at hx
      rw [sliceInDim_last hx hT, snoc2])
  have hw2 : w.valid.shape = pre ++ [n] ++ [2] := by rw [s1.valid, snoc2]
  obtain ⟨v, e2, s2, g2⟩ := zip_shaped (fun a b : Bool => a && b) (x := w.valid.sliceLast 0 1) (y := w.valid.sliceLast 1 2)
    (s := pre ++ [n] ++ [1]) (sliceLast_shape hw2 (by omega)) (sliceLast_shape hw2 (by omega))
  let raw : Nd AccelSteer :=
    { shape := w.x.shape.dropLast, get := fun idx => bicycleInversePair P.dt true (w.at_ (idx ++ [0])) (w.at_ (idx ++ [1])) }
  have hraw : raw.expandLast.shape = pre ++ [n] ++ [1] := by
    simp only [Nd.expandLast, raw]
    rw [s1.x, snoc2, List.dropLast_concat]
  obtain ⟨a, e3, s3, g3⟩ := zip_shaped (fun (v : Bool) (a : AccelSteer) => if v then a else { accel := 0, steering := 0 }) s2 hraw
  have hinv : computeInverseNd t (Nd.scalar ts) P.dt = .ok (a, v) := by
    unfold computeInverseNd
    rw [assertThat_ok (show (Nd.scalar ts).shape = [] from rfl), exc_ok_bind,
      assertThat_ok ⟨by rw [ht.x, ht.y], by rw [ht.x, ht.yaw], by rw [ht.x, ht.velX], by rw [ht.x, ht.velY]⟩,
      exc_ok_bind, show (Nd.scalar ts).get [] = ts from rfl, e1, exc_ok_bind, e2, exc_ok_bind]
    dsimp only
    rw [e3]
    rfl
  unfold bicycleInverseNd bicycleClipNd
  rw [hinv, exc_ok_bind, indexLast_shaped (x := a.map AccelSteer.accel) (q := pre ++ [n]) (m := 1) s3 (by omega), exc_ok_bind,
    indexLast_shaped (x := a.map AccelSteer.steering) (q := pre ++ [n]) (m := 1) s3 (by omega), exc_ok_bind,
    stackLast2_shaped (s := pre ++ [n]) rfl rfl, exc_ok_bind, indexLastClamp_shaped rfl (by omega), exc_ok_bind,
    indexLastClamp_shaped rfl (by omega), exc_ok_bind, stackLast2_shaped (s := pre ++ [n]) rfl rfl, exc_ok_bind]
  refine ⟨_, rfl, ⟨by simp, by rw [s2, snoc2]⟩, fun p hp => ?_⟩
  funext i
  have hi : InRange (pre ++ [n] ++ [1]) (p ++ [i.val] ++ [0]) := (hp.snoc i.isLt).snoc (by omega)
  have hwin : ∀ k < 2, w.at_ (p ++ [i.val] ++ [k]) = t.at_ (p ++ [i.val, k + st]) := by
    intro k _
    rw [g1, modify_append_cons (by simp [hp.length]), ← snoc2]
  have hw : window2 (fun k : Fin T => t.at_ (p ++ [i.val, k.val])) ts =
      (w.at_ (p ++ [i.val] ++ [0]), w.at_ (p ++ [i.val] ++ [1])) := by
    rw [hwin 0 (by omega), hwin 1 (by omega)]
    simp [window2, hT, dynSlice, st, Nat.add_comm]
  have hv := g2 _ hi
  rw [sliceLast_get, sliceLast_get] at hv
  have ha := g3 _ hi
  have hvv : v.get (p ++ [i.val] ++ [0]) = ((w.at_ (p ++ [i.val] ++ [0])).valid && (w.at_ (p ++ [i.val] ++ [1])).valid) := hv
  simp only [ActNd.scenario, bicycleRowOf, bicycle, DynamicsModel.ofSingle, bicycleInverse, bicycleComputeInverse, hw, bicycleClip]
  simp only [snoc2, List.getLastD_concat, List.dropLast_concat, if_true, Nat.one_ne_zero, if_false, Nd.map, ha, hvv]
  simp only [raw, Nd.expandLast, List.dropLast_concat]
  cases P.normalizeActions <;> rfl

/-! ### The expert -/

theorem zipLeaves_concat {α : Type} {t u : TrajNd α} {q : List Nat} {a b : Nat} (ht : t.HasShape (q ++ [a])) (hu : u.HasShape (q ++ [b])) :
    ∃ r, t.zipLeaves (fun _ x y => x.concatLast y) u = .ok r ∧ r.HasShape (q ++ [a + b]) ∧
      ∀ p k, r.at_ (p ++ [k]) = if k < a then t.at_ (p ++ [k]) else u.at_ (p ++ [k - a]) := by
  obtain ⟨r1, e1, s1, g1⟩ := concatLast_ok ht.x hu.x
  obtain ⟨r2, e2, s2, g2⟩ := concatLast_ok ht.y hu.y
  obtain ⟨r3, e3, s3, g3⟩ := concatLast_ok ht.z hu.z
  obtain ⟨r4, e4, s4, g4⟩ := concatLast_ok ht.velX hu.velX
  obtain ⟨r5, e5, s5, g5⟩ := concatLast_ok ht.velY hu.velY
  obtain ⟨r6, e6, s6, g6⟩ := concatLast_ok ht.yaw hu.yaw
  obtain ⟨r7, e7, s7, g7⟩ := concatLast_ok ht.valid hu.valid
  obtain ⟨r8, e8, s8, g8⟩ := concatLast_ok ht.timestampMicros hu.timestampMicros
  obtain ⟨r9, e9, s9, g9⟩ := concatLast_ok ht.length hu.length
  obtain ⟨r10, e10, s10, g10⟩ := concatLast_ok ht.width hu.width
  obtain ⟨r11, e11, s11, g11⟩ := concatLast_ok ht.height hu.height
  unfold TrajNd.zipLeaves
  simp only [e1, e2, e3, e4, e5, e6, e7, e8, e9, e10, e11, exc_ok_bind]
  refine ⟨_, rfl, ⟨s1, s2, s3, s4, s5, s6, s7, s8, s9, s10, s11⟩, fun p k => ?_⟩
  unfold TrajNd.at_
  simp only [g1, g2, g3, g4, g5, g6, g7, g8, g9, g10, g11]
  split <;> rfl

/-- The expert's actions for a batch are the expert's actions for each scenario. -/
theorem C120_expert_action {α D : Type} {inv : InverseNd α} {n dim : Nat} {row : (Nat → α) → D} {d : DynamicsModel α D n}
    (hi : inv.Refines n dim row d) [NeZero T] {S : StateNd α} (h : S.Shaped pre n T) (ht : S.timestep.shape = []) :
    ∃ a, inferExpertActionNd inv S = .ok a ∧ a.Shaped pre n dim ∧ ∀ p, InRange pre p →
      a.scenario row n p = inferExpertAction (S.scenario n T p) d := by
  obtain ⟨prev, e1, s1, g1⟩ := slice_traj h.sim ht
  obtain ⟨next, e2, s2, g2⟩ := slice_traj h.log (start := S.timestep.map fun t => t + 1) ht
  obtain ⟨both, e3, s3, g3⟩ := zipLeaves_concat (q := pre ++ [n]) (t := prev) (u := next) (a := 1) (b := 1)
    (by rw [snoc2] at s1; exact s1) (by rw [snoc2] at s2; exact s2)
  obtain ⟨a, e4, s4, g4⟩ := hi pre 2 both S.objectMetadata 0 (le_refl _) (by rw [snoc2]; exact s3)
  refine ⟨a, ?_, s4, fun p hp => ?_⟩
  · unfold inferExpertActionNd
    rw [e1, exc_ok_bind, e2, exc_ok_bind, e3, exc_ok_bind]
    exact e4
  · rw [g4 p hp]
    unfold inferExpertAction
    congr 1
    funext i k
    have hts : (S.scenario n T p).timestep = S.timestep.get [] := by simp [StateNd.scenario, ht]
    rw [snoc2, g3, hts]
    by_cases hk : k.val = 0
    · rw [if_pos (by omega), if_pos hk, hk, ← snoc2, g1 p hp i]
      rfl
    · rw [if_neg (by omega), if_neg hk, show k.val - 1 = 0 by omega, ← snoc2, g2 p hp i]
      rfl

end

end Waymax
