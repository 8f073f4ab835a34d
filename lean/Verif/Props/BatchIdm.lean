import Verif.Lemmas.Broadcast
import Verif.Props.BatchWaypoint
import Verif.Props.Idm
/-
C131, continued: the intelligent driver model drives every object of every scenario of a batch as it drives it when the scenario is alone.
-/

namespace Waymax

open Real

section
variable {q : List Nat} {T : Nat}

theorem dist3_triple (a b : Pt ℝ) : distTriple (a.x, a.y, a.z) (b.x, b.y, b.z) = dist3 a b := rfl

theorem take_snoc {p : List Nat} {k : Nat} {m : Nat} (h : p.length = m) : (p ++ [k]).take m = p := by
  subst h; simp

/-- The reference way points of each row. -/
theorem findReference_batch {t : TrajNd ℝ} {pos : Nd (ℝ × ℝ × ℝ)} {size : Nat} (ht : t.HasShape (q ++ [T])) (hpos : pos.shape = q) (hT : 0 < T)
    (hs : size ≤ T) :
    ∃ w, findReferenceNd pos t size = .ok w ∧ w.HasShape (q ++ [size]) ∧ ∀ p, InRange q p → ∀ c : Pt ℝ, pos.get p = (c.x, c.y, c.z) →
      findReference c (fun k : Fin T => t.at_ (p ++ [k.val])) size = .ok ((List.range size).map fun k => w.at_ (p ++ [k])) := by
  unfold findReferenceNd
  rw [assertThat_ok (by rw [hpos, TrajNd.shape, ht.x, List.dropLast_concat]), exc_ok_bind, xyz_shaped ht, exc_ok_bind, numTimesteps_shaped ht,
    assertThat_ok hT, exc_ok_bind]
  dsimp only
  set top : Nd Int := { shape := pos.shape
                        get := fun q => argmin ((List.range T).map fun k => orInf (t.valid.get (q ++ [k]))
                          (distTriple (pos.get q) (t.x.get (q ++ [k]), t.y.get (q ++ [k]), t.z.get (q ++ [k])))) } with htop
  obtain ⟨w, e, h1, h2⟩ := mapLeaves_rename (f := fun _ x => x.dynSliceV top size (-1)) (s' := q ++ [size])
    (φ := fun idx => idx.modify q.length fun i => i + startIdx T size (top.get (idx.take q.length))) ht
    (fun β x hx => by rw [dynSliceV_row hx (show top.shape = q from hpos), if_pos hs])
  refine ⟨w, e, h1, fun p hp c hc => ?_⟩
  unfold findReference
  simp only [dif_pos hs]
  congr 1
  rw [← ofFn_range size fun k => w.at_ (p ++ [k])]
  congr 1
  funext k
  rw [h2, take_snoc hp.length.symm, modify_append_cons hp.length.symm]
  have htp : top.get p = (argminFin fun k : Fin T => orInf (t.at_ (p ++ [k.val])).valid (dist3 c (t.at_ (p ++ [k.val]))) : Nat) := by
    rw [htop]
    simp only [argminFin]
    rw [ofFn_range T fun k => orInf (t.at_ (p ++ [k])).valid (dist3 c (t.at_ (p ++ [k])))]
    congr 3
    funext k
    rw [hc]
    rfl
  rw [htp]
  simp only [dynSlice]
  rw [Nat.add_comm]

theorem findReference_too_long {t : TrajNd ℝ} {pos : Nd (ℝ × ℝ × ℝ)} {size : Nat} (ht : t.HasShape (q ++ [T])) (hpos : pos.shape = q)
    (hT : 0 < T) (hs : T < size) : findReferenceNd pos t size = .error .typeError := by
  unfold findReferenceNd
  rw [assertThat_ok (by rw [hpos, TrajNd.shape, ht.x, List.dropLast_concat]), exc_ok_bind, xyz_shaped ht, exc_ok_bind, numTimesteps_shaped ht,
    assertThat_ok hT, exc_ok_bind]
  dsimp only
  unfold TrajNd.slice TrajNd.mapLeaves
  beta_reduce
  rw [dynSliceV_row ht.x hpos, if_neg (by omega)]
  rfl

theorem lastSlice_shape {β : Type} {x : Nd β} {d : Nat} (hx : x.shape = q ++ [d]) (hd : 0 < d) : x.lastSlice.shape = q ++ [1] := by
  unfold Nd.lastSlice
  rw [hx, List.getLastD_concat, sliceLast_shape hx (le_refl d)]
  congr 2
  omega

theorem lastSlice_get {β : Type} {x : Nd β} {d : Nat} (hx : x.shape = q ++ [d]) (p : List Nat) (k : Nat) :
    x.lastSlice.get (p ++ [k]) = x.get (p ++ [k + (d - 1)]) := by
  unfold Nd.lastSlice
  rw [hx, List.getLastD_concat, sliceLast_get]

/-- One coordinate of the points added ahead. -/
theorem headway_batch (along : ℝ → ℝ) {c yaw : Nd ℝ} {d : Nat} (hc : c.shape = q ++ [d]) (hy : yaw.shape = q ++ [d]) (hd : 0 < d) (distance : ℝ)
    (N : Nat) :
    ∃ r, headwayNd along c yaw distance N = .ok r ∧ r.shape = q ++ [d + N] ∧ ∀ p, InRange q p → ∀ k < d + N,
      r.get (p ++ [k]) = if k < d then c.get (p ++ [k])
        else along (yaw.get (p ++ [d - 1])) * (distance * (k - d + 1 : Nat) / N) + c.get (p ++ [d - 1]) := by
  have hdir : (yaw.lastSlice.map along).shape = q ++ [1] := lastSlice_shape hy hd
  have hc1 : Nd.broadcastShape [1] [N + 1] = some [N + 1] := by simp [Nd.broadcastShape, Nd.broadcastRev]
  have hc2 : Nd.broadcastShape [N + 1] [1] = some [N + 1] := by by_cases h : N = 0 <;> simp [Nd.broadcastShape, Nd.broadcastRev, h]
  obtain ⟨p1, e1, s1, g1⟩ := zip_ones (b := [N + 1]) (fun d s : ℝ => d * s) hdir
    (y := { shape := List.replicate ((yaw.lastSlice.map along).shape.length - 1) 1 ++ [N + 1]
            get := fun idx => distance * (idx.getLastD 0 : Nat) / N }) (by rw [hdir]; simp) rfl hc1
  obtain ⟨p2, e2, s2, g2⟩ := zip_bcast (a := [N + 1]) (fun a b : ℝ => a + b) s1 (lastSlice_shape hc hd) rfl hc2
  have s3 : (p2.sliceLast 1 (N + 1)).shape = q ++ [N] := by rw [sliceLast_shape s2 (le_refl _)]; simp
  obtain ⟨r, e4, s4, g4⟩ := concatLast_ok hc s3
  refine ⟨r, ?_, s4, fun p hp k hk => ?_⟩
  · unfold headwayNd
    dsimp only
    rw [e1, exc_ok_bind, e2, exc_ok_bind, e4]
  · rw [g4 p k]
    by_cases hkd : k < d
    · rw [if_pos hkd, if_pos hkd]
    · rw [if_neg hkd, if_neg hkd, sliceLast_get, g2 p [k - d + 1] hp rfl, g1 p _ hp (by simp [Nd.broadcastIdx])]
      have hN : ¬ (N + 1 = 1) := by omega
      have hN' : ¬ (N = 0) := by omega
      simp only [Nd.broadcastIdx, List.length_cons, List.length_nil, Nat.sub_self, List.drop_zero, List.zipWith_cons_cons,
        if_true, if_neg hN, Nd.map, lastSlice_get hy, lastSlice_get hc, List.getLastD_concat, Nat.zero_add, List.zipWith_nil_right]

/-- The way points added ahead of each row. -/
theorem addHeadway_batch {t : TrajNd ℝ} {d : Nat} (ht : t.HasShape (q ++ [d])) (hd : 0 < d) (distance : ℝ) (N : Nat) :
    ∃ r, addHeadwayNd t distance N = .ok r ∧ r.HasShape (q ++ [d + N]) ∧ ∀ p, InRange q p →
      addHeadwayWaypoints ((List.range d).map fun k => t.at_ (p ++ [k])) distance N = .ok ((List.range (d + N)).map fun k => r.at_ (p ++ [k])) := by
  obtain ⟨x, e1, s1, g1⟩ := headway_batch cos ht.x ht.yaw hd distance N
  obtain ⟨y, e2, s2, g2⟩ := headway_batch sin ht.y ht.yaw hd distance N
  obtain ⟨rep, e3, s3, g3⟩ := mapLeaves_rename (f := repeatLastNd N) (s' := q ++ [d + N])
    (φ := fun idx => if idx.getLastD 0 < d then idx else idx.dropLast ++ [d - 1]) ht
    (fun β x hx => by
      have hs := lastSlice_shape hx hd
      have h1 : (x.lastSlice.tileLast N).shape = q ++ [N] := by simp [Nd.tileLast, hs]
      unfold repeatLastNd
      unfold Nd.concatLast
      rw [assertThat_ok (by rw [hx, h1, List.dropLast_concat, List.dropLast_concat]), exc_ok_bind, hx, h1, List.getLastD_concat,
        List.getLastD_concat, List.dropLast_concat]
      show Except.ok _ = _
      congr 2
      funext idx
      split
      · rfl
      · simp only [Nd.tileLast, hs, List.dropLast_concat, List.getLastD_concat, Nat.mod_one, lastSlice_get hx, Nat.zero_add])
  have hr : ({ rep with x, y } : TrajNd ℝ).HasShape (q ++ [d + N]) :=
    ⟨s1, s2, s3.z, s3.velX, s3.velY, s3.yaw, s3.valid, s3.timestampMicros, s3.length, s3.width, s3.height⟩
  refine ⟨{ rep with x, y }, ?_, hr, fun p hp => ?_⟩
  · unfold addHeadwayNd
    rw [e1, exc_ok_bind, e2, exc_ok_bind, e3, exc_ok_bind]
    dsimp only
    rw [validate_shaped hr]
    rfl
  · have hlast : ((List.range d).map fun k => t.at_ (p ++ [k])).getLast? = some (t.at_ (p ++ [d - 1])) := by
      obtain ⟨d', rfl⟩ : ∃ d', d = d' + 1 := ⟨d - 1, by omega⟩
      rw [List.range_succ, List.map_append]
      simp
    unfold addHeadwayWaypoints
    rw [hlast]
    dsimp only
    congr 1
    rw [← map_range_add]
    refine List.map_congr_left fun k hk => ?_
    have hk' : k < d + N := List.mem_range.1 hk
    have h3 := g3 (p ++ [k])
    rw [List.getLastD_concat, List.dropLast_concat] at h3
    have hx := g1 p hp k hk'
    have hy := g2 p hp k hk'
    have hat : ({ rep with x, y } : TrajNd ℝ).at_ (p ++ [k]) = { rep.at_ (p ++ [k]) with x := x.get (p ++ [k]), y := y.get (p ++ [k]) } := rfl
    rw [hat, h3, hx, hy]
    by_cases hkd : k < d
    · simp only [if_pos hkd]; rfl
    · simp only [if_neg hkd]; rfl

theorem addHeadway_empty {t : TrajNd ℝ} (ht : t.HasShape (q ++ [0])) (distance : ℝ) {N : Nat} (hN : 0 < N) :
    addHeadwayNd t distance N = .error .typeError := by
  have hl : t.yaw.lastSlice.shape = q ++ [0] := by
    unfold Nd.lastSlice
    rw [ht.yaw, List.getLastD_concat, sliceLast_shape ht.yaw (le_refl 0)]
  have hz : ∀ y : Nd ℝ, y.shape = List.replicate q.length 1 ++ [N + 1] → ∀ f : ℝ → ℝ → ℝ, Nd.zip f (t.yaw.lastSlice.map cos) y = .error .typeError := by
    intro y hy f
    unfold Nd.zip
    have : Nd.broadcastShape (t.yaw.lastSlice.map cos).shape y.shape = none := by
      show Nd.broadcastShape t.yaw.lastSlice.shape y.shape = none
      rw [hl, hy]
      unfold Nd.broadcastShape
      simp only [List.reverse_append, List.reverse_cons, List.reverse_nil, List.nil_append, List.singleton_append, Nd.broadcastRev]
      cases Nd.broadcastRev q.reverse (List.replicate q.length 1).reverse with
      | none => rfl
      | some r => simp [show ¬ N = 0 by omega]
    rw [this]
  unfold addHeadwayNd headwayNd
  dsimp only
  rw [hz _ (by show List.replicate (t.yaw.lastSlice.shape.length - 1) 1 ++ _ = _; rw [hl]; simp)]
  rfl

end

section
variable {pre : List Nat} {n : Nat}

theorem snoc3 (p : List Nat) (a b c : Nat) : p ++ [a, b, c] = (p ++ [a]) ++ [b, c] := by simp

theorem boxes_shaped {t : TrajNd ℝ} {s : List Nat} (ht : t.HasShape s) :
    boxesNd t = .ok { shape := s, get := fun idx => (t.at_ idx).box } := by
  unfold boxesNd
  rw [assertThat_ok ⟨by rw [ht.x, ht.y], by rw [ht.x, ht.length], by rw [ht.x, ht.width], by rw [ht.x, ht.yaw]⟩, ht.x]
  rfl

theorem bshape_row (n L : Nat) : Nd.broadcastShape [n, 1, L] [n, n, L] = some [n, n, L] := by
  by_cases h : 1 = n <;> simp [Nd.broadcastShape, Nd.broadcastRev, h]

theorem bshape_obj (n L : Nat) : Nd.broadcastShape [1, n, 1] [n, n, L] = some [n, n, L] := by
  by_cases h : 1 = n <;> by_cases h' : L = 1 <;> simp [Nd.broadcastShape, Nd.broadcastRev, h, h', eq_comm (a := 1) (b := L)]

theorem bshape_row_obj (n L : Nat) : Nd.broadcastShape [n, 1, L] [1, n, 1] = some [n, n, L] := by
  by_cases h : 1 = n <;> by_cases h1 : n = 1 <;> by_cases h' : L = 1 <;> simp_all [Nd.broadcastShape, Nd.broadcastRev]

theorem bshape_mask (n L : Nat) : Nd.broadcastShape [n, n, L] [n, n, 1] = some [n, n, L] := by
  by_cases h' : L = 1 <;> simp_all [Nd.broadcastShape, Nd.broadcastRev]

theorem bidx_row {n L i j k : Nat} (hi : i < n) (hk : k < L) : Nd.broadcastIdx [n, 1, L] [i, j, k] = [i, 0, k] := by
  by_cases h : n = 1 <;> by_cases h' : L = 1 <;> simp [Nd.broadcastIdx, h, h'] <;> omega

theorem bidx_obj {n i j k : Nat} (hj : j < n) : Nd.broadcastIdx [1, n, 1] [i, j, k] = [0, j, 0] := by
  by_cases h : n = 1 <;> simp [Nd.broadcastIdx, h]; omega

theorem bidx_full {n L i j k : Nat} (hi : i < n) (hj : j < n) (hk : k < L) : Nd.broadcastIdx [n, n, L] [i, j, k] = [i, j, k] := by
  by_cases h : n = 1 <;> by_cases h' : L = 1 <;> simp [Nd.broadcastIdx, h, h'] <;> omega

theorem bidx_mask {n i j k : Nat} (hi : i < n) (hj : j < n) : Nd.broadcastIdx [n, n, 1] [i, j, k] = [i, j, 0] := by
  by_cases h : n = 1 <;> simp [Nd.broadcastIdx, h]; omega

open Classical in
/-- Which object is met at which way point. -/
theorem idmCollision_batch {traj cur : TrajNd ℝ} {L : Nat} (ht : traj.HasShape (pre ++ [n, L])) (hc : cur.HasShape (pre ++ [n, 1])) :
    ∃ r, idmCollisionNd traj cur pre n L = .ok r ∧ r.shape = pre ++ [n, n, L] ∧ ∀ p, InRange pre p → ∀ i j : Fin n, ∀ k < L,
      r.get (p ++ [i.val, j.val, k]) = idmCollision (fun j : Fin n => cur.at_ (p ++ [j.val, 0])) i (traj.at_ (p ++ [i.val, k])) j := by
  have ht' := ht
  rw [snoc2] at ht'
  obtain ⟨b1, e1, s1, g1⟩ := expandDims_shaped (x := { shape := pre ++ [n] ++ [L], get := fun idx => (traj.at_ idx).box }) rfl (axis := -2) rfl
  obtain ⟨b2, e2, s2, g2⟩ := broadcastTo_shaped (q := pre) (a := [n, 1, L]) (b := [n, n, L]) (x := b1) (by rw [s1]; simp) rfl (bshape_row n L)
  obtain ⟨c1, e3, s3, g3⟩ := expandDims_shaped (q := pre) (rest := [n, 1]) (x := { shape := pre ++ [n, 1], get := fun idx => (cur.at_ idx).box })
    rfl (axis := -3) rfl
  obtain ⟨c2, e4, s4, g4⟩ := broadcastTo_shaped (q := pre) (a := [1, n, 1]) (b := [n, n, L]) (x := c1) s3 rfl (bshape_obj n L)
  obtain ⟨ov, e5, s5, g5⟩ := zip_shaped (fun a b => decide (hasOverlap a b)) s2 s4
  obtain ⟨va, e6, s6, g6⟩ := expandDims_shaped (x := traj.valid) ht'.valid (axis := -2) rfl
  obtain ⟨vb, e7, s7, g7⟩ := expandDims_shaped (q := pre) (rest := [n, 1]) (x := cur.valid) hc.valid (axis := -3) rfl
  obtain ⟨ab, e8, s8, g8⟩ := zip_bcast (q := pre) (a := [n, 1, L]) (fun a b : Bool => a && b) (x := va) (by rw [s6]; simp) s7 rfl
    (bshape_row_obj n L)
  obtain ⟨mask, hmask⟩ : ∃ m : Nd Bool, m = { shape := List.replicate pre.length 1 ++ [n, n, 1]
                                              get := fun idx => decide (idx.getD pre.length 0 = idx.getD (pre.length + 1) 0) } := ⟨_, rfl⟩
  obtain ⟨vm, e9, s9, g9⟩ := zip_ones (q := pre) (b := [n, n, 1]) (fun a m : Bool => a && !m) s8 (y := mask) (by rw [hmask]) rfl (bshape_mask n L)
  obtain ⟨r, e10, s10, g10⟩ := where3_const s9 s5 false
  refine ⟨r, ?_, s10, fun p hp i j k hk => ?_⟩
  · unfold idmCollisionNd
    dsimp only
    rw [boxes_shaped ht', exc_ok_bind, e1, exc_ok_bind, e2, exc_ok_bind, boxes_shaped hc, exc_ok_bind, e3, exc_ok_bind, e4, exc_ok_bind,
      assertThat_ok (by rw [s2, s4]), exc_ok_bind, e5, exc_ok_bind, e6, exc_ok_bind, e7, exc_ok_bind, e8, exc_ok_bind, ← hmask, e9, exc_ok_bind]
    exact e10
  · have hin : InRange (pre ++ [n, n, L]) (p ++ [i.val, j.val, k]) := by
      rw [snoc3, snoc3 p]
      exact (hp.snoc i.isLt).snoc2 j.isLt hk
    have hrow : ∀ {β : Type} {x y : Nd β}, (∀ p' j idx, InRange (pre ++ [n]) p' → x.get (p' ++ j :: idx) = y.get (p' ++ idx)) →
        x.get (p ++ [i.val, 0, k]) = y.get (p ++ [i.val, k]) := by
      intro β x y h
      have := h (p ++ [i.val]) 0 [k] (hp.snoc i.isLt)
      simpa using this
    rw [g10 _ hin, g5 _ hin, g9 p [i.val, j.val, k] hp rfl, bidx_full i.isLt j.isLt hk, bidx_mask i.isLt j.isLt, g8 p [i.val, j.val, k] hp rfl, bidx_row i.isLt hk, bidx_obj j.isLt,
      g2 p [i.val, j.val, k] hp rfl, g4 p [i.val, j.val, k] hp rfl, bidx_row i.isLt hk, bidx_obj j.isLt, hrow g6, g7 p _ _ hp, hrow g1, g3 p _ _ hp]
    have hm : mask.get (List.replicate pre.length 0 ++ [i.val, j.val, 0]) = decide (i = j) := by
      rw [hmask]
      have hm1 : (List.replicate pre.length 0 ++ [i.val, j.val, 0]).getD pre.length 0 = i.val := by
        simp [List.getD_eq_getElem?_getD]
      have hm2 : (List.replicate pre.length 0 ++ [i.val, j.val, 0]).getD (pre.length + 1) 0 = j.val := by
        simp [List.getD_eq_getElem?_getD]
      simp only [hm1, hm2, Fin.ext_iff]
    rw [hm]
    unfold idmCollision
    rfl

theorem cumsumFrom_eq (acc : ℝ) (l : List ℝ) : cumsumFrom acc l = (List.range l.length).map fun k => acc + (l.take (k + 1)).sum := by
  induction l generalizing acc with
  | nil => rfl
  | cons x l ih =>
    rw [cumsumFrom, ih, List.length_cons, List.range_succ_eq_map, List.map_cons, List.map_map]
    refine congrArg₂ _ (by simp) (List.map_congr_left fun k _ => ?_)
    simp [List.take_succ_cons, add_assoc]

/-- The speed of the leading object of each row. -/
theorem leadVelocity_batch {sp : Nd ℝ} {col sv : Nd Bool} {L : Nat} (hs : sp.shape = pre ++ [n, n, L]) (hcol : col.shape = pre ++ [n, n, L])
    (hsv : sv.shape = pre ++ [1, n, 1]) (hn : 0 < n) :
    if L = 0 then leadVelocityNd sp col sv = .error .valueError
    else ∃ r, leadVelocityNd sp col sv = .ok r ∧ r.shape = pre ++ [n] ∧ ∀ p, InRange pre p → ∀ i : Fin n, ∀ (speed : Fin n → ℝ) (valid : Fin n → Bool),
      (∀ j : Fin n, ∀ k < L, sp.get (p ++ [i.val, j.val, k]) = speed j) → (∀ j : Fin n, sv.get (p ++ [0, j.val, 0]) = valid j) →
      r.get (p ++ [i.val]) = computeLeadVelocity speed valid ((List.range L).map fun k => fun j : Fin n => col.get (p ++ [i.val, j.val, k])) := by
  obtain ⟨v1, e1, s1, g1⟩ := zip_shaped (fun c v => orInf c v) hcol hs
  obtain ⟨v2, e2, s2, g2⟩ := zip_bcast (q := pre) (fun (ok : Bool) (v : WithTop ℝ) => if ok then v else ⊤) hsv s1 rfl (bshape_obj n L)
  have s2' : v2.shape = (pre ++ [n]) ++ n :: [L] := by rw [s2]; simp
  obtain ⟨vt, e3, s3, g3⟩ := reduceAxis_shaped listMin s2' (axis := -2) rfl
  have e3' : v2.minAxis (-2) = .ok vt := by rw [minAxis_eq s2' (axis := -2) rfl, if_pos hn, e3]
  obtain ⟨cum, e4, s4, g4⟩ := zip_shaped (fun (v : WithTop ℝ) (c : ℝ) => if v = ⊤ then ⊤ else (c : WithTop ℝ)) s3
    (y := (vt.map fun v => v.untopD 0).cumsumLast) s3
  have e5 := minAxis_eq s4 (axis := -1) rfl
  have hall : ∀ {β : Type} (f : Nd (WithTop ℝ) → β), (do let lead ← cum.minAxis (-1); return f lead : Except Err β) = (if 0 < L then
      (do let lead ← cum.reduceAxis listMin (-1); return f lead) else .error .valueError) := by
    intro β f
    rw [e5]
    split <;> rfl
  unfold leadVelocityNd
  rw [e1, exc_ok_bind, e2, exc_ok_bind, e3', exc_ok_bind]
  dsimp only
  rw [e4, exc_ok_bind, hall]
  by_cases hL : L = 0
  · rw [if_pos hL, if_neg (by omega)]
  · rw [if_neg hL, if_pos (by omega)]
    obtain ⟨ld, e6, s6, g6⟩ := reduceAxis_shaped listMin s4 (axis := -1) rfl
    rw [e6]
    refine ⟨_, rfl, by simpa [Nd.map] using s6, fun p hp i speed valid h1 h2 => ?_⟩
    have hpi : InRange (pre ++ [n]) (p ++ [i.val]) := hp.snoc i.isLt
    have hvt : ∀ k < L, vt.get (p ++ [i.val] ++ [k]) = listMin (List.ofFn fun j : Fin n =>
        if valid j then orInf (col.get (p ++ [i.val, j.val, k])) (speed j) else ⊤) := by
      intro k hk
      rw [g3 _ _ hpi, ← ofFn_range]
      congr 2
      funext j
      rw [← h2 j, ← h1 j k hk]
      have hidx : p ++ [i.val] ++ j.val :: [k] = p ++ [i.val, j.val, k] := by simp
      have hin : InRange (pre ++ [n, n, L]) (p ++ [i.val, j.val, k]) := by
        rw [snoc3, snoc3 p]
        exact hpi.snoc2 j.isLt hk
      rw [hidx, g2 p [i.val, j.val, k] hp rfl, bidx_full i.isLt j.isLt hk, bidx_obj j.isLt, g1 _ hin]
    have hg := g6 (p ++ [i.val]) [] hpi
    rw [List.append_nil] at hg
    show (ld.get (p ++ [i.val])).untopD (-1) = _
    rw [hg]
    unfold computeLeadVelocity
    dsimp only
    congr 2
    rw [cumsumFrom_eq]
    simp only [List.length_map, List.length_range, List.map_map]
    rw [List.zipWith_map, List.zipWith_self]
    refine List.map_congr_left fun k hk => ?_
    have hk' := List.mem_range.1 hk
    rw [g4 _ (hpi.snoc hk'), hvt k hk']
    have hsum : (vt.map fun v => v.untopD 0).cumsumLast.get (p ++ [i.val] ++ [k]) =
        0 + (List.take (k + 1) (List.map ((fun v : WithTop ℝ => v.untopD 0) ∘ (fun c : Fin n → Bool => listMin (List.ofFn fun j : Fin n =>
          if valid j then orInf (c j) (speed j) else ⊤)) ∘ fun k => fun j : Fin n => col.get (p ++ [i.val, j.val, k])) (List.range L))).sum := by
      show ((List.range ((p ++ [i.val] ++ [k]).getLastD 0 + 1)).map fun l => (vt.get ((p ++ [i.val] ++ [k]).dropLast ++ [l])).untopD 0).sum = _
      rw [List.getLastD_concat, List.dropLast_concat, zero_add, ← List.map_take, List.take_range, Nat.min_eq_left (by omega)]
      congr 1
      refine List.map_congr_left fun l hl => ?_
      have := List.mem_range.1 hl
      simp only [Function.comp_apply]
      rw [hvt l (by omega)]
    rw [hsum]
    rfl

/-- The distance to the leading object of each row. -/
theorem leadDistance_batch {fut : Nd (ℝ × ℝ × ℝ)} {col : Nd Bool} {pos : Nd (ℝ × ℝ × ℝ)} {q : List Nat} {L : Nat} (hf : fut.shape = q ++ [L])
    (hcol : col.shape = q ++ [L]) (hpos : pos.shape = q ++ [1]) (hL : 0 < L) :
    ∃ r, leadDistanceNd fut col pos = .ok r ∧ r.shape = q ∧ ∀ p, InRange q p →
      r.get p = (listMin ((List.range L).map fun k => orInf (col.get (p ++ [k])) (distTriple (pos.get (p ++ [0])) (fut.get (p ++ [k]))))).untopD (-1) := by
  have hb : Nd.broadcastShape [1] [L] = some [L] := by by_cases h : 1 = L <;> simp [Nd.broadcastShape, Nd.broadcastRev, h]
  obtain ⟨d, e1, s1, g1⟩ := zip_bcast (a := [1]) distTriple hpos hf rfl hb
  obtain ⟨o, e2, s2, g2⟩ := zip_shaped (fun c v => orInf c v) hcol s1
  obtain ⟨l, e3, s3, g3⟩ := reduceAxis_shaped listMin s2 (axis := -1) rfl
  refine ⟨l.map fun v => v.untopD (-1), ?_, by simpa [Nd.map] using s3, fun p hp => ?_⟩
  · unfold leadDistanceNd
    rw [e1, exc_ok_bind, e2, exc_ok_bind, minAxis_eq s2 (axis := -1) rfl, if_pos hL, e3]
    rfl
  · have hg := g3 p [] hp
    rw [List.append_nil] at hg
    show (l.get p).untopD (-1) = _
    rw [hg]
    congr 2
    refine List.map_congr_left fun k hk => ?_
    have hk' := List.mem_range.1 hk
    have hbi : Nd.broadcastIdx [L] [k] = [k] := by
      by_cases h : L = 1 <;> simp [Nd.broadcastIdx, h]; omega
    rw [g2 _ (hp.snoc hk'), g1 p [k] hp rfl, hbi]
    rfl

theorem idmLookahead_bind {T : Nat} (P : IdmParams) (log : Fin T → Pt ℝ) (c : Pt ℝ) :
    idmLookahead P log c = (if P.lookaheadFromCurrentPosition then findReference c (fun _ : Fin 1 => c) 1 else findReference c log P.maxLookahead) >>=
      fun traj => if P.additionalLookaheadPoints > 0 then addHeadwayWaypoints traj P.additionalLookaheadDistance P.additionalLookaheadPoints
        else .ok traj := by
  unfold idmLookahead
  cases P.lookaheadFromCurrentPosition <;> rfl

/-- The way points of each object. -/
theorem idmLookahead_batch {T : Nat} [NeZero T] (P : IdmParams) (hP : P.lookaheadFromCurrentPosition = true ∨ P.maxLookahead ≤ T ∧ 0 < P.maxLookahead)
    {log cur : TrajNd ℝ} {pos : Nd (ℝ × ℝ × ℝ)} (hl : log.HasShape (pre ++ [n, T])) (hc : cur.HasShape (pre ++ [n, 1]))
    (hpos : pos.shape = pre ++ [n])
    (hpos' : ∀ p, pos.get p = ((cur.at_ (p ++ [0])).x, (cur.at_ (p ++ [0])).y, (cur.at_ (p ++ [0])).z)) :
    ∃ w, idmLookaheadNd P log pos cur pre n = .ok w ∧
      w.HasShape (pre ++ [n, (if P.lookaheadFromCurrentPosition then 1 else P.maxLookahead) + P.additionalLookaheadPoints]) ∧
      ∀ p, InRange pre p → ∀ i : Fin n, idmLookahead P (fun k : Fin T => log.at_ (p ++ [i.val, k.val])) (cur.at_ (p ++ [i.val, 0])) =
        .ok ((List.range ((if P.lookaheadFromCurrentPosition then 1 else P.maxLookahead) + P.additionalLookaheadPoints)).map fun k =>
          w.at_ (p ++ [i.val, k])) := by
  obtain ⟨size, hsize⟩ : ∃ m, m = if P.lookaheadFromCurrentPosition then 1 else P.maxLookahead := ⟨_, rfl⟩
  have hsz : 0 < size := by rw [hsize]; split <;> simp_all
  have href : ∃ w, findReferenceNd pos (if P.lookaheadFromCurrentPosition then cur else log) size = .ok w ∧
      w.HasShape (pre ++ [n] ++ [size]) ∧ ∀ p, InRange pre p → ∀ i : Fin n,
      (if P.lookaheadFromCurrentPosition then findReference (cur.at_ (p ++ [i.val, 0])) (fun _ : Fin 1 => cur.at_ (p ++ [i.val, 0])) 1
        else findReference (cur.at_ (p ++ [i.val, 0])) (fun k : Fin T => log.at_ (p ++ [i.val, k.val])) P.maxLookahead) =
      .ok ((List.range size).map fun k => w.at_ (p ++ [i.val] ++ [k])) := by
    rw [snoc2] at hl hc
    cases hb : P.lookaheadFromCurrentPosition with
    | true =>
      rw [hb] at hsize
      simp only [if_true] at hsize ⊢
      subst hsize
      obtain ⟨w, e, s, g⟩ := findReference_batch hc hpos (by omega) (le_refl 1)
      refine ⟨w, e, s, fun p hp i => ?_⟩
      have := g (p ++ [i.val]) (hp.snoc i.isLt) _ (hpos' _)
      rw [← this, ← snoc2]
      congr 1
      funext k
      rw [show k.val = 0 by omega, ← snoc2]
    | false =>
      rw [hb] at hsize
      simp only [Bool.false_eq_true, if_false] at hsize ⊢
      subst hsize
      rcases hP with h | h
      · rw [hb] at h; cases h
      obtain ⟨w, e, s, g⟩ := findReference_batch hl hpos (Nat.pos_of_ne_zero (NeZero.ne T)) h.1
      refine ⟨w, e, s, fun p hp i => ?_⟩
      have := g (p ++ [i.val]) (hp.snoc i.isLt) _ (hpos' _)
      rw [← this, ← snoc2]
      congr 1
      funext k
      rw [← snoc2]
  obtain ⟨w, e, s, g⟩ := href
  unfold idmLookaheadNd
  dsimp only
  rw [← hsize, e, exc_ok_bind, assertThat_ok (by rw [s.x, snoc2]), exc_ok_bind]
  by_cases hN : P.additionalLookaheadPoints > 0
  · rw [if_pos hN]
    obtain ⟨r, e2, s2, g2⟩ := addHeadway_batch s hsz P.additionalLookaheadDistance P.additionalLookaheadPoints
    refine ⟨r, e2, by rw [snoc2]; exact s2, fun p hp i => ?_⟩
    rw [idmLookahead_bind, g p hp i, exc_ok_bind, if_pos hN, g2 _ (hp.snoc i.isLt)]
    simp only [← snoc2]
  · rw [if_neg hN]
    have h0 : P.additionalLookaheadPoints = 0 := by omega
    rw [h0, Nat.add_zero]
    refine ⟨w, rfl, by rw [snoc2]; exact s, fun p hp i => ?_⟩
    rw [idmLookahead_bind, g p hp i, exc_ok_bind]
    simp only [← snoc2, if_neg hN]

theorem any_range_eq {m : Nat} (f : Nat → Bool) : ((List.range m).map f).any id = (List.ofFn fun j : Fin m => f j.val).any id := by
  rw [ofFn_range]

theorem computeLeadDistance_eq (ws : List (Pt ℝ)) (col : Pt ℝ → Bool) (c : Pt ℝ) :
    computeLeadDistance ws col c = (listMin (ws.map fun w => orInf (col w) (distTriple (c.x, c.y, c.z) (w.x, w.y, w.z)))).untopD (-1) := rfl

/-- The acceleration of each object. -/
theorem idmAccel_batch {T : Nat} [NeZero T] (P : IdmParams) (hP : P.lookaheadFromCurrentPosition = true ∨ P.maxLookahead ≤ T ∧ 0 < P.maxLookahead)
    (hn : 0 < n) {log cur : TrajNd ℝ} {pos : Nd (ℝ × ℝ × ℝ)} {v : Nd ℝ} (hl : log.HasShape (pre ++ [n, T])) (hc : cur.HasShape (pre ++ [n, 1]))
    (hpos : pos.shape = pre ++ [n])
    (hpos' : ∀ p, pos.get p = ((cur.at_ (p ++ [0])).x, (cur.at_ (p ++ [0])).y, (cur.at_ (p ++ [0])).z)) (hv : v.shape = pre ++ [n])
    (hv' : ∀ p, InRange (pre ++ [n]) p → v.get p = (cur.at_ (p ++ [0])).speed) :
    ∃ a, idmAccelNd P log pos v cur = .ok a ∧ a.shape = pre ++ [n] ∧ ∀ p, InRange pre p → ∀ i : Fin n,
      idmAccel P (fun (i : Fin n) (k : Fin T) => log.at_ (p ++ [i.val, k.val])) (fun j : Fin n => cur.at_ (p ++ [j.val, 0])) i =
        .ok (a.get (p ++ [i.val])) := by
  obtain ⟨L, hL⟩ : ∃ m, m = (if P.lookaheadFromCurrentPosition then 1 else P.maxLookahead) + P.additionalLookaheadPoints := ⟨_, rfl⟩
  have hL0 : 0 < L := by rw [hL]; split <;> simp_all
  obtain ⟨w, e1, s1, g1⟩ := idmLookahead_batch P hP hl hc hpos hpos'
  rw [← hL] at s1 g1
  obtain ⟨col, e2, s2, g2⟩ := idmCollision_batch s1 hc
  obtain ⟨sp, e3, s3, g3⟩ := speed_shaped hc
  obtain ⟨sp1, e4, s4, g4⟩ := expandDims_shaped (q := pre) (rest := [n, 1]) s3 (axis := -3) rfl
  obtain ⟨sp2, e5, s5, g5⟩ := broadcastTo_shaped (q := pre) (a := [1, n, 1]) (b := [n, n, L]) s4 rfl (bshape_obj n L)
  obtain ⟨sv, e6, s6, g6⟩ := expandDims_shaped (q := pre) (rest := [n, 1]) hc.valid (axis := -3) rfl
  have hlv := leadVelocity_batch s5 s2 s6 hn
  rw [if_neg (by omega)] at hlv
  obtain ⟨lv, e7, s7, g7⟩ := hlv
  have s2' : col.shape = (pre ++ [n]) ++ n :: [L] := by rw [s2]; simp
  obtain ⟨ac, e8, s8, g8⟩ := reduceAxis_shaped (fun l : List Bool => l.any id) s2' (axis := -2) rfl
  have s1' := s1
  have hc' := hc
  rw [snoc2] at s1' hc'
  obtain ⟨ld, e9, s9, g9⟩ := leadDistance_batch (fut := { shape := pre ++ [n] ++ [L], get := fun idx => (w.x.get idx, w.y.get idx, w.z.get idx) })
    (pos := { shape := pre ++ [n] ++ [1], get := fun idx => (cur.x.get idx, cur.y.get idx, cur.z.get idx) }) rfl s8 rfl hL0
  obtain ⟨ug, e10, s10, g10⟩ := zip_shaped (fun u g : ℝ => (u, g)) s7 s9
  obtain ⟨a, e11, s11, g11⟩ := zip_shaped (fun (v : ℝ) (ug : ℝ × ℝ) => idmFormula P v ug.1 ug.2) hv s10
  refine ⟨a, ?_, s11, fun p hp i => ?_⟩
  · have hdl : cur.shape.dropLast.dropLast = pre := by
      rw [TrajNd.shape, hc'.x, List.dropLast_concat, List.dropLast_concat]
    unfold idmAccelNd
    rw [numObjects_shaped hc, exc_ok_bind]
    dsimp only
    rw [hdl, assertThat_ok (by
      have : (pre ++ [n]).length = pre.length + 1 := by simp
      rw [hpos, hv, TrajNd.shape, TrajNd.shape, hl.x, hc.x, snoc2, snoc2, ← this, List.take_left, List.take_left, List.take_length]
      exact ⟨rfl, rfl, rfl⟩), exc_ok_bind, validate_shaped hl, exc_ok_bind, validate_shaped hc, exc_ok_bind, e1, exc_ok_bind, ← hL, e2, exc_ok_bind, e3, exc_ok_bind,
      e4, exc_ok_bind, s2, e5, exc_ok_bind, e6, exc_ok_bind, e7, exc_ok_bind, xyz_shaped s1', exc_ok_bind, e8, exc_ok_bind, xyz_shaped hc', exc_ok_bind,
      e9, exc_ok_bind, e10, exc_ok_bind]
    exact e11
  · have hpi : InRange (pre ++ [n]) (p ++ [i.val]) := hp.snoc i.isLt
    unfold idmAccel
    rw [g1 p hp i, exc_ok_bind]
    simp only [List.length_map, List.length_range, show ¬ (L = 0) by omega, if_false]
    show Except.ok _ = _
    congr 1
    rw [g11 _ hpi, g10 _ hpi, hv' _ hpi, ← snoc2]
    have hlv : lv.get (p ++ [i.val]) = computeLeadVelocity (fun j : Fin n => (cur.at_ (p ++ [j.val, 0])).speed)
        (fun j : Fin n => (cur.at_ (p ++ [j.val, 0])).valid)
        (((List.range L).map fun k => w.at_ (p ++ [i.val, k])).map fun w => idmCollision (fun j : Fin n => cur.at_ (p ++ [j.val, 0])) i w) := by
      rw [g7 p hp i (fun j : Fin n => (cur.at_ (p ++ [j.val, 0])).speed) (fun j : Fin n => (cur.at_ (p ++ [j.val, 0])).valid)
        (fun j k hk => by
          rw [g5 p [i.val, j.val, k] hp rfl, bidx_obj j.isLt, g4 p _ _ hp, g3 _ (hp.snoc2 j.isLt (by omega))])
        (fun j => by rw [g6 p _ _ hp]; rfl), List.map_map]
      congr 1
      refine List.map_congr_left fun k hk => ?_
      funext j
      exact g2 p hp i j k (List.mem_range.1 hk)
    have hld : ld.get (p ++ [i.val]) = computeLeadDistance ((List.range L).map fun k => w.at_ (p ++ [i.val, k]))
        (fun w => (List.ofFn fun j : Fin n => idmCollision (fun j : Fin n => cur.at_ (p ++ [j.val, 0])) i w j).any id) (cur.at_ (p ++ [i.val, 0])) := by
      rw [g9 _ hpi, computeLeadDistance_eq, List.map_map]
      congr 2
      refine List.map_congr_left fun k hk => ?_
      have hk' := List.mem_range.1 hk
      have hac : ac.get (p ++ [i.val] ++ [k]) = (List.ofFn fun j : Fin n =>
          idmCollision (fun j : Fin n => cur.at_ (p ++ [j.val, 0])) i (w.at_ (p ++ [i.val, k])) j).any id := by
        rw [g8 _ _ hpi, any_range_eq]
        congr 2
        funext j
        have := g2 p hp i j k hk'
        rw [← this]
        congr 1
        simp
      rw [hac]
      simp only [Function.comp_apply, ← snoc2]
      rfl
    rw [hlv, hld]

/-- The speeds that IDM chooses. -/
theorem idmSpeeds_batch {T : Nat} [NeZero T] (P : IdmParams) (hP : P.lookaheadFromCurrentPosition = true ∨ P.maxLookahead ≤ T ∧ 0 < P.maxLookahead)
    (hn : 0 < n) : UpdateSpeedNd.Refines (idmSpeedsNd P) (idmSpeeds P : UpdateSpeed n T) pre := fun S h ht => by
  obtain ⟨cur, log, e1, -, s1, -, g1⟩ := C106_current h ht
  have s1' := s1
  rw [snoc2] at s1'
  obtain ⟨sp, e2, s2, g2⟩ := speed_shaped s1'
  obtain ⟨a, e3, s3, g3⟩ := idmAccel_batch (pos := { shape := pre ++ [n], get := fun idx => (cur.x.get (idx ++ [0]), cur.y.get (idx ++ [0]),
    cur.z.get (idx ++ [0])) }) (v := { shape := pre ++ [n], get := fun idx => sp.get (idx ++ [0]) }) P hP hn h.log s1 rfl (fun _ => rfl) rfl
    (fun p hp => g2 _ (hp.snoc (by omega)))
  obtain ⟨v, e4, s4, g4⟩ := zip_shaped (fun v a : ℝ => v + 0.1 * a) (x := { shape := pre ++ [n], get := fun idx => sp.get (idx ++ [0]) }) rfl s3
  refine ⟨(v.map fun v => if v < 0 then 0 else v, { shape := pre ++ [n], get := fun _ => true }), ?_, s4, rfl, fun p hp i => ?_⟩
  · unfold idmSpeedsNd
    rw [e1, exc_ok_bind, xyz_shaped s1', exc_ok_bind, indexLast_shaped rfl (by omega), exc_ok_bind, e2, exc_ok_bind, indexLast_shaped s2 (by omega),
      exc_ok_bind, e3, exc_ok_bind, e4, exc_ok_bind]
    rfl
  · have hpi : InRange (pre ++ [n]) (p ++ [i.val]) := hp.snoc i.isLt
    have hcur : ∀ j : Fin n, dynIndex ((S.scenario n T p).simTrajectory j) (S.scenario n T p).timestep = cur.at_ (p ++ [j.val, 0]) :=
      fun j => ((g1 p hp j).1).symm
    have hu : idmUpdateSpeed P (S.scenario n T p) i = .ok (if (cur.at_ (p ++ [i.val, 0])).speed + 0.1 * a.get (p ++ [i.val]) < 0 then 0
        else (cur.at_ (p ++ [i.val, 0])).speed + 0.1 * a.get (p ++ [i.val]), true) := by
      unfold idmUpdateSpeed
      dsimp only
      have hacc : idmAccel P (S.scenario n T p).logTrajectory (fun j : Fin n => cur.at_ (p ++ [j.val, 0])) i = .ok (a.get (p ++ [i.val])) := g3 p hp i
      simp only [hcur, hacc, exc_ok_bind]
      rfl
    unfold idmSpeeds
    rw [hu]
    show ((if v.get (p ++ [i.val]) < 0 then 0 else v.get (p ++ [i.val])), true) = _
    rw [g4 _ hpi]
    dsimp only
    rw [g2 _ (hpi.snoc (by omega)), ← snoc2]

/-- C131: `IDMRoutePolicy` on batches, whenever the look-ahead fits into the log. -/
theorem C131_idm {T : Nat} [NeZero T] {K P' : Type} (params : P') (P : IdmParams)
    (hP : P.lookaheadFromCurrentPosition = true ∨ P.maxLookahead ≤ T ∧ 0 < P.maxLookahead) (hn : 0 < n)
    {ctl : StateNd ℝ → Nd Bool} {ctl' : SimState ℝ n T → Fin n → Bool}
    (hc : ∀ S : StateNd ℝ, S.Shaped pre n T → S.timestep.shape = [] → (ctl S).shape = pre ++ [n] ∧
      ∀ p, InRange pre p → ∀ i : Fin n, (ctl S).get (p ++ [i.val]) = ctl' (S.scenario n T p) i) :
    SimAgentNd.Refines (idmAgentNd P ctl : SimAgentNd Unit K P') (fun _ => (idmAgent P ctl' : SimAgent Unit K P' n T)) params pre fun _ _ _ => True :=
  C131_waypoint params P.invalidateOnEnd (idmSpeeds_batch P hP hn) hc

theorem leadVelocity_empty {sp : Nd ℝ} {col sv : Nd Bool} {L : Nat} (hs : sp.shape = pre ++ [n, n, L]) (hcol : col.shape = pre ++ [n, n, L])
    (hsv : sv.shape = pre ++ [1, n, 1]) (h : n = 0 ∨ L = 0) : leadVelocityNd sp col sv = .error .valueError := by
  by_cases hn : 0 < n
  · have := leadVelocity_batch hs hcol hsv hn
    rwa [if_pos (by omega)] at this
  · obtain ⟨v1, e1, s1, -⟩ := zip_shaped (fun c v => orInf c v) hcol hs
    obtain ⟨v2, e2, s2, -⟩ := zip_bcast (q := pre) (fun (ok : Bool) (v : WithTop ℝ) => if ok then v else ⊤) hsv s1 rfl (bshape_obj n L)
    have s2' : v2.shape = (pre ++ [n]) ++ n :: [L] := by rw [s2]; simp
    unfold leadVelocityNd
    rw [e1, exc_ok_bind, e2, exc_ok_bind, minAxis_eq s2' (axis := -2) rfl, if_neg hn]
    rfl

theorem idmAccel_fails {T : Nat} [NeZero T] (P : IdmParams)
    (hP : n = 0 ∨ P.lookaheadFromCurrentPosition = false ∧ (T < P.maxLookahead ∨ P.maxLookahead = 0))
    {log cur : TrajNd ℝ} {pos : Nd (ℝ × ℝ × ℝ)} {v : Nd ℝ} (hl : log.HasShape (pre ++ [n, T])) (hc : cur.HasShape (pre ++ [n, 1]))
    (hpos : pos.shape = pre ++ [n])
    (hpos' : ∀ p, pos.get p = ((cur.at_ (p ++ [0])).x, (cur.at_ (p ++ [0])).y, (cur.at_ (p ++ [0])).z)) (hv : v.shape = pre ++ [n]) :
    ∃ e, idmAccelNd P log pos v cur = .error e := by
  obtain ⟨L, hL⟩ : ∃ m, m = (if P.lookaheadFromCurrentPosition then 1 else P.maxLookahead) + P.additionalLookaheadPoints := ⟨_, rfl⟩
  have hc' := hc
  have hl' := hl
  rw [snoc2] at hc' hl'
  have hT : 0 < T := Nat.pos_of_ne_zero (NeZero.ne T)
  have hdl : cur.shape.dropLast.dropLast = pre := by
    rw [TrajNd.shape, hc'.x, List.dropLast_concat, List.dropLast_concat]
  have hlook : (∃ e, idmLookaheadNd P log pos cur pre n = .error e) ∨
      ((n = 0 ∨ L = 0) ∧ ∃ w, idmLookaheadNd P log pos cur pre n = .ok w ∧ w.HasShape (pre ++ [n, L])) := by
    by_cases hok : P.lookaheadFromCurrentPosition = true ∨ P.maxLookahead ≤ T ∧ 0 < P.maxLookahead
    · obtain ⟨w, e, s, -⟩ := idmLookahead_batch P hok hl hc hpos hpos'
      refine .inr ⟨?_, w, e, hL ▸ s⟩
      rcases hP with h | ⟨h1, h2⟩
      · exact .inl h
      · rcases hok with h | h
        · rw [h1] at h; cases h
        · omega
    · obtain ⟨h1, h2⟩ := not_or.1 hok
      have h1 : P.lookaheadFromCurrentPosition = false := by simpa using h1
      have hs : (if P.lookaheadFromCurrentPosition = true then 1 else P.maxLookahead) = P.maxLookahead := by simp [h1]
      have ht : (if P.lookaheadFromCurrentPosition = true then cur else log) = log := by simp [h1]
      unfold idmLookaheadNd
      dsimp only
      rw [hs] at hL ⊢
      rw [ht]
      by_cases hlt : T < P.maxLookahead
      · rw [findReference_too_long hl' hpos hT hlt]
        exact .inl ⟨_, rfl⟩
      · have h0 : P.maxLookahead = 0 := by omega
        obtain ⟨w, e, s, -⟩ := findReference_batch (size := P.maxLookahead) hl' hpos hT (by omega)
        rw [e, exc_ok_bind, assertThat_ok (by rw [s.x, snoc2]), exc_ok_bind]
        rw [h0] at s
        by_cases hN : P.additionalLookaheadPoints > 0
        · rw [if_pos hN, addHeadway_empty s _ hN]
          exact .inl ⟨_, rfl⟩
        · rw [if_neg hN]
          have hL0 : L = 0 := by omega
          refine .inr ⟨.inr hL0, w, rfl, ?_⟩
          rw [hL0, snoc2]
          exact s
  unfold idmAccelNd
  rw [numObjects_shaped hc, exc_ok_bind]
  dsimp only
  rw [hdl, assertThat_ok (by
    have : (pre ++ [n]).length = pre.length + 1 := by simp
    rw [hpos, hv, TrajNd.shape, TrajNd.shape, hl.x, hc.x, snoc2, snoc2, ← this, List.take_left, List.take_left, List.take_length]
    exact ⟨rfl, rfl, rfl⟩), exc_ok_bind, validate_shaped hl, exc_ok_bind, validate_shaped hc, exc_ok_bind]
  rcases hlook with ⟨e, h⟩ | ⟨h0, w, e1, s1⟩
  · rw [h]
    exact ⟨e, rfl⟩
  · obtain ⟨col, e2, s2, -⟩ := idmCollision_batch s1 hc
    obtain ⟨sp, e3, s3, -⟩ := speed_shaped hc
    obtain ⟨sp1, e4, s4, -⟩ := expandDims_shaped (q := pre) (rest := [n, 1]) s3 (axis := -3) rfl
    obtain ⟨sp2, e5, s5, -⟩ := broadcastTo_shaped (q := pre) (a := [1, n, 1]) (b := [n, n, L]) s4 rfl (bshape_obj n L)
    obtain ⟨sv, e6, s6, -⟩ := expandDims_shaped (q := pre) (rest := [n, 1]) hc.valid (axis := -3) rfl
    rw [e1, exc_ok_bind, ← hL, e2, exc_ok_bind, e3, exc_ok_bind, e4, exc_ok_bind, s2, e5, exc_ok_bind, e6, exc_ok_bind,
      leadVelocity_empty s5 s2 s6 h0]
    exact ⟨_, rfl⟩

/-- C131: exactly when the IDM agent cannot choose speeds for a batch: there are no objects, or the look-ahead window is empty or longer than
the log. This does not depend on the batch. -/
theorem C131_idm_fails_iff {T : Nat} [NeZero T] (P : IdmParams) {S : StateNd ℝ} (h : S.Shaped pre n T)
    (ht : S.timestep.shape = [] ∨ S.timestep.shape = pre) :
    (∃ e, idmSpeedsNd P 0.1 S = .error e) ↔
      n = 0 ∨ P.lookaheadFromCurrentPosition = false ∧ (T < P.maxLookahead ∨ P.maxLookahead = 0) := by
  by_cases hc : n = 0 ∨ P.lookaheadFromCurrentPosition = false ∧ (T < P.maxLookahead ∨ P.maxLookahead = 0)
  · refine ⟨fun _ => hc, fun _ => ?_⟩
    obtain ⟨cur, log, e1, -, s1, -, g1⟩ := C106_current h ht
    have s1' := s1
    rw [snoc2] at s1'
    obtain ⟨sp, e2, s2, g2⟩ := speed_shaped s1'
    obtain ⟨e, he⟩ := idmAccel_fails (pos := { shape := pre ++ [n], get := fun idx => (cur.x.get (idx ++ [0]), cur.y.get (idx ++ [0]),
      cur.z.get (idx ++ [0])) }) (v := { shape := pre ++ [n], get := fun idx => sp.get (idx ++ [0]) }) P hc h.log s1 rfl (fun _ => rfl) rfl
    refine ⟨e, ?_⟩
    unfold idmSpeedsNd
    rw [e1, exc_ok_bind, xyz_shaped s1', exc_ok_bind, indexLast_shaped rfl (by omega), exc_ok_bind, e2, exc_ok_bind, indexLast_shaped s2 (by omega),
      exc_ok_bind, he]
    rfl
  · refine ⟨fun ⟨e, he⟩ => ?_, fun h' => absurd h' hc⟩
    obtain ⟨h1, h2⟩ := not_or.1 hc
    have hP : P.lookaheadFromCurrentPosition = true ∨ P.maxLookahead ≤ T ∧ 0 < P.maxLookahead := by
      cases hb : P.lookaheadFromCurrentPosition with
      | true => exact .inl rfl
      | false =>
        have := not_and.1 h2 hb
        exact .inr (by omega)
    obtain ⟨v, hv, -⟩ := idmSpeeds_batch (pre := pre) (n := n) (T := T) P hP (by omega) S h ht
    rw [hv] at he
    cases he

/-- An IDM agent that cannot choose speeds fails. -/
theorem C131_idm_agent_fails {T : Nat} [NeZero T] {K P' : Type} (P : IdmParams) (ctl : StateNd ℝ → Nd Bool) (params : P') (key : Option K)
    {S : PlanStateNd Unit} (h : S.sim.Shaped pre n T) (ht : S.sim.timestep.shape = [] ∨ S.sim.timestep.shape = pre)
    (hP : n = 0 ∨ P.lookaheadFromCurrentPosition = false ∧ (T < P.maxLookahead ∨ P.maxLookahead = 0)) :
    ∃ e, (idmAgentNd P ctl : SimAgentNd Unit K P').selectAction params S () key = .error e := by
  obtain ⟨e, he⟩ := (C131_idm_fails_iff P h ht).2 hP
  refine ⟨e, ?_⟩
  show (do let u ← waypointUpdateNd P.invalidateOnEnd (idmSpeedsNd P) S.sim; _) = _
  unfold waypointUpdateNd
  rw [he]
  rfl

end

/-! ### Concrete cases: two scenarios with two cars each -/

/-- The default IDM agent, IDM along a window of the log, and constant speed. -/
noncomputable def exDrivers : List (AgentPair Unit Unit Unit Unit 2 3) :=
  [{ batch := idmAgentNd {}, single := fun _ => idmAgent {}, params := () },
   { batch := idmAgentNd { lookaheadFromCurrentPosition := false, maxLookahead := 2, additionalLookaheadPoints := 0 },
     single := fun _ => idmAgent { lookaheadFromCurrentPosition := false, maxLookahead := 2, additionalLookaheadPoints := 0 }, params := () },
   { batch := constantSpeedPolicyNd 3, single := fun _ => constantSpeedPolicy 3, params := () }]

theorem exDrivers_refine : ∀ g ∈ exDrivers, SimAgentNd.Refines g.batch g.single g.params [2] fun _ _ _ => True := by
  intro g hg
  rcases List.mem_cons.1 hg with rfl | hg
  · exact C131_idm () {} (.inl rfl) (by omega) fun _ hS _ => defaultControl_batch hS
  rcases List.mem_cons.1 hg with rfl | hg
  · exact C131_idm () { lookaheadFromCurrentPosition := false, maxLookahead := 2, additionalLookaheadPoints := 0 } (.inr (by simp)) (by omega)
      fun _ hS _ => defaultControl_batch hS
  obtain rfl := List.mem_singleton.1 hg
  exact C131_constant_speed () 3

/-- They drive in the planning environment: the batch is reset, and the action each of them selects for scenario 1 is the one it selects for that
scenario alone. -/
example : ∃ s0, planResetNd (envOfPairs (stateNd ℝ) { maxNumObjects := 2, initSteps := 2 } [] exDrivers) (fun _ m => List.replicate m ()) exDuo none =
      .ok s0 ∧ ∀ g ∈ exDrivers, ∃ o, g.batch.selectAction () s0 () none = .ok o ∧
        o.action.scenario stateRowOf 2 [1] = ((g.single [1]).selectAction () { sim := s0.sim.scenario 2 3 [1], actorStates := [(), (), ()] } () none).action := by
  have hp : InRange [2] [1] := .cons (by omega) .nil
  have hr := C121_reset (stateNd ℝ) stateDynamics { maxNumObjects := 2, initSteps := 2 } [] exDrivers_refine (fun _ m => List.replicate m ()) none
    exDuo_shaped hp
  rw [show envOfPairsAt stateDynamics { maxNumObjects := 2, initSteps := 2 } [] exDrivers [1] = pushEnv (exDrivers.map fun g => g.single [1]) from rfl,
    reset_push] at hr
  rcases hr.cases with ⟨s0, s0', h1, h2, h3⟩ | ⟨e, -, h2⟩
  swap
  · cases h2
  refine ⟨s0, h1, fun g hg => ?_⟩
  obtain ⟨o, ho, -, -, hs⟩ := (exDrivers_refine g hg).select none s0 () h3.shaped h3.time
  refine ⟨o, ho, (hs [1] _ () hp ⟨h3.shaped, h3.time, rfl, ?_⟩ trivial).1⟩
  have hl := h3.actors.length_eq
  obtain rfl := Except.ok.inj h2
  have : s0.actorStates = [(), (), ()] := List.ext_getElem hl fun _ _ _ => rfl
  rw [this]
  exact .cons trivial (.cons trivial (.cons trivial .nil))

/-- The default agent chooses speeds; with a window of seven points, longer than the log, it fails. -/
example : (∃ v, idmSpeedsNd {} 0.1 exDuo = .ok v) ∧
    ∃ e, idmSpeedsNd { lookaheadFromCurrentPosition := false, maxLookahead := 7 } 0.1 exDuo = .error e := by
  obtain ⟨v, hv, -⟩ := idmSpeeds_batch (pre := [2]) (n := 2) (T := 3) {} (.inl rfl) (by omega) exDuo exDuo_shaped (.inl rfl)
  exact ⟨⟨v, hv⟩, (C131_idm_fails_iff _ exDuo_shaped (.inl rfl)).2 (.inr ⟨rfl, .inl (by simp)⟩)⟩

/-- Constant speed 3 along the heading 0 of car 1 of scenario 1, as a state action: it is at `x = 110`. -/
example : ∃ a, constantSpeedActionNd (stateInverseNd ℝ) defaultControlNd (some 3) exDuo = .ok a ∧
    a.scenario stateRowOf 2 [1] = constantSpeedAction stateDynamics defaultControlFunc (some 3) (exDuo.scenario 2 3 [1]) := by
  obtain ⟨a, h1, -, h3⟩ := C131_constant_speed_actor (C120_state_inverse 2) (ctl := defaultControlNd) (ctl' := defaultControlFunc) (some 3) exDuo_shaped
    (.inl rfl) (defaultControl_batch exDuo_shaped)
  exact ⟨a, h1, h3 [1] (.cons (by omega) .nil)⟩

end Waymax
