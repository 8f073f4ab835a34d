import Verif.Spec.BatchObservation
import Verif.Props.BatchRoute
/-
C123: the observations of a batch are the observations of its scenarios. First the lemmas about arrays.
-/

namespace Waymax

section
variable {β : Type} {pre : List Nat} {n T K : Nat}

/-- Cutting a window of the last axis, at a start index shared by the batch or at one per scenario. -/
theorem dynSliceV_window {x : Nd β} (hs : x.shape = pre ++ [n, T]) {start : Nd Int}
    (h0 : start.shape = [] ∨ start.shape = pre) (hK : K ≤ T) :
    x.dynSliceV start K (-1) = .ok
      { shape := pre ++ [n, K]
        get := fun idx =>
          x.get (idx.modify (pre.length + 1) fun i => i + startIdx T K (start.get (idx.take start.shape.length))) } := by
  rcases h0 with h0 | h0
  · rw [dynSliceV_last (pre := pre ++ [n]) (by rw [hs, snoc2]) h0 hK, h0]
    simp
  · rw [dynSliceV_each hs h0 hK, h0]

theorem dynSliceV_window_error {x : Nd β} (hs : x.shape = pre ++ [n, T]) {start : Nd Int}
    (h0 : start.shape = [] ∨ start.shape = pre) (hK : ¬ K ≤ T) : x.dynSliceV start K (-1) = .error .typeError := by
  rcases h0 with h0 | h0
  · exact dynSliceV_last_error (pre := pre ++ [n]) (by rw [hs, snoc2]) h0 hK
  · exact dynSliceV_each_error hs h0 hK

theorem window_idx {start : Nd Int} (h0 : start.shape = [] ∨ start.shape = pre) {p : List Nat} (hp : InRange pre p) (i k : Nat) :
    (p ++ [i, k]).modify (pre.length + 1)
        (fun j => j + startIdx T K (start.get ((p ++ [i, k]).take start.shape.length))) =
      p ++ [i, k + startIdx T K (start.get (p.take start.shape.length))] := by
  have ht : (p ++ [i, k]).take start.shape.length = p.take start.shape.length := by
    rcases h0 with h0 | h0
    · simp [h0]
    · rw [h0, hp.length]; simp
  rw [ht]
  have hh := modify_append_cons (p := p ++ [i]) (q := []) (k := pre.length + 1)
    (f := fun j => j + startIdx T K (start.get (p.take start.shape.length))) (by simp [hp.length]) k
  simpa using hh

/-- Window of a trajectory. -/
theorem slice_window {α : Type} {t : TrajNd α} (ht : t.HasShape (pre ++ [n, T])) {start : Nd Int}
    (h0 : start.shape = [] ∨ start.shape = pre) (hK : K ≤ T) :
    ∃ t', t.slice start K = .ok t' ∧ t'.HasShape (pre ++ [n, K]) ∧ ∀ p, InRange pre p → ∀ (i : Fin n) (k : Fin K),
      t'.at_ (p ++ [i.val, k.val]) =
        dynSlice (fun τ : Fin T => t.at_ (p ++ [i.val, τ.val])) (start.get (p.take start.shape.length)) K hK k := by
  obtain ⟨t', h1, h2, h3⟩ := mapLeaves_rename (f := fun _ x => x.dynSliceV start K (-1)) (s' := pre ++ [n, K])
    (φ := fun idx => idx.modify (pre.length + 1) fun i => i + startIdx T K (start.get (idx.take start.shape.length))) ht
    (fun β x hx => dynSliceV_window hx h0 hK)
  refine ⟨t', h1, h2, fun p hp i k => ?_⟩
  rw [h3, window_idx h0 hp]
  unfold dynSlice
  simp only [Nat.add_comm]

theorem slice_window_error {α : Type} {t : TrajNd α} (ht : t.HasShape (pre ++ [n, T])) {start : Nd Int}
    (h0 : start.shape = [] ∨ start.shape = pre) (hK : ¬ K ≤ T) : t.slice start K = .error .typeError := by
  unfold TrajNd.slice TrajNd.mapLeaves
  beta_reduce
  rw [dynSliceV_window_error ht.x h0 hK]
  rfl

/-! ### Tiling -/

theorem insertIdx_append {p r : List Nat} (m : Nat) : (p ++ r).insertIdx p.length m = p ++ m :: r := by
  induction p with
  | nil => simp
  | cons a p ih => simp [ih]

theorem eraseIdx_append {p r : List Nat} {k : Nat} (m : Nat) (h : p.length = k) : (p ++ m :: r).eraseIdx k = p ++ r := by
  subst h
  induction p with
  | nil => simp
  | cons a p ih => simp [ih]

theorem expandRepeat_shaped {x : Nd β} {rest : List Nat} (hs : x.shape = pre ++ rest) (m : Nat) :
    x.expandRepeat m pre.length = .ok { shape := pre ++ m :: rest, get := fun idx => x.get (idx.eraseIdx pre.length) } := by
  unfold Nd.expandRepeat
  rw [assertThat_ok (by rw [hs]; simp), hs, insertIdx_append]
  rfl

theorem meta_expandRepeat {md : MetaNd} {rest : List Nat} (h : md.HasShape (pre ++ rest)) (m : Nat) :
    ∃ md', md.expandRepeat m pre.length = .ok md' ∧ md'.HasShape (pre ++ m :: rest) ∧
      ∀ idx, md'.at_ idx = md.at_ (idx.eraseIdx pre.length) := by
  unfold MetaNd.expandRepeat
  rw [expandRepeat_shaped h.ids, expandRepeat_shaped h.objectTypes, expandRepeat_shaped h.isSdc, expandRepeat_shaped h.isModeled,
    expandRepeat_shaped h.isValid, expandRepeat_shaped h.objectsOfInterest, expandRepeat_shaped h.isControlled]
  exact ⟨_, rfl, ⟨rfl, rfl, rfl, rfl, rfl, rfl, rfl⟩, fun _ => rfl⟩

theorem pose_expandRepeat {ps : PoseNd} {rest : List Nat} (h : ps.HasShape (pre ++ rest)) (m : Nat) :
    ∃ ps', ps.expandRepeat m pre.length = .ok ps' ∧ ps'.HasShape (pre ++ m :: rest) ∧
      ∀ idx, ps'.at_ idx = ps.at_ (idx.eraseIdx pre.length) := by
  unfold PoseNd.expandRepeat
  rw [expandRepeat_shaped h.originalXy, expandRepeat_shaped h.originalYaw, expandRepeat_shaped h.matrix,
    expandRepeat_shaped h.deltaYaw, expandRepeat_shaped h.valid]
  exact ⟨_, rfl, ⟨rfl, rfl, rfl, rfl, rfl⟩, fun _ => rfl⟩

/-! ### Poses -/

theorem PoseNd.HasShape.validate {ps : PoseNd} {sh : List Nat} (h : ps.HasShape sh) : ps.validate = .ok () := by
  unfold PoseNd.validate PoseNd.shape
  rw [h.originalXy, h.originalYaw, h.matrix, h.deltaYaw, h.valid]
  exact assertThat_ok (by simp)

theorem fromCenterAndYaw_shaped {xy : Nd (ℝ × ℝ)} {yaw : Nd ℝ} {valid : Nd Bool} {sh : List Nat} (h1 : xy.shape = sh)
    (h2 : yaw.shape = sh) (h3 : valid.shape = sh) :
    ∃ ps, PoseNd.fromCenterAndYaw xy yaw valid = .ok ps ∧ ps.HasShape sh ∧
      ∀ idx, ps.at_ idx = Pose2D.fromCenterAndYaw (xy.get idx) (yaw.get idx) (valid.get idx) := by
  have hs : PoseNd.HasShape
      { originalXy := xy, originalYaw := yaw
        matrix := { shape := xy.shape, get := fun idx => poseMatrix (xy.get idx) (yaw.get idx) }
        deltaYaw := yaw.map poseYaw
        valid := valid } sh := ⟨h1, h2, h1, h2, h3⟩
  unfold PoseNd.fromCenterAndYaw
  rw [assertThat_ok (by rw [h1, h2]), exc_ok_bind]
  simp only
  rw [hs.validate, exc_ok_bind]
  exact ⟨_, rfl, hs, fun _ => rfl⟩

theorem transformPointsNd_shaped {m : Nd (Matrix (Fin 3) (Fin 3) ℝ)} {pts : Nd (ℝ × ℝ)} {sh rest : List Nat}
    (hm : m.shape = sh) (hp : pts.shape = sh ++ rest) :
    ∃ r, transformPointsNd m pts = .ok r ∧ r.shape = sh ++ rest ∧
      ∀ q, q.length = sh.length → ∀ idx, r.get (q ++ idx) = transformPoints (m.get q) (pts.get (q ++ idx)) := by
  unfold transformPointsNd
  dsimp only
  rw [assertThat_ok (by rw [hm, hp]; simp), exc_ok_bind]
  refine ⟨_, rfl, hp, fun q hq idx => ?_⟩
  simp only [hm, ← hq, List.take_left]

theorem transformDirectionNd_shaped {m : Nd (Matrix (Fin 3) (Fin 3) ℝ)} {pts : Nd (ℝ × ℝ)} {sh rest : List Nat}
    (hm : m.shape = sh) (h0 : sh.prod ≠ 0) (hp : pts.shape = sh ++ rest) :
    ∃ r, transformDirectionNd m pts = .ok r ∧ r.shape = sh ++ rest ∧
      ∀ q, q.length = sh.length → ∀ idx, r.get (q ++ idx) = transformDirection (m.get q) (pts.get (q ++ idx)) := by
  unfold transformDirectionNd
  dsimp only
  rw [assertThat_ok (by rw [hm, hp]; simp), exc_ok_bind, assertThat_ok (by rw [hm]; exact h0), exc_ok_bind]
  refine ⟨_, rfl, hp, fun q hq idx => ?_⟩
  simp only [hm, ← hq, List.take_left]

theorem transformDirectionNd_empty {m : Nd (Matrix (Fin 3) (Fin 3) ℝ)} {pts : Nd (ℝ × ℝ)} {sh rest : List Nat}
    (hm : m.shape = sh) (h0 : ¬ sh.prod ≠ 0) (hp : pts.shape = sh ++ rest) : transformDirectionNd m pts = .error .typeError := by
  unfold transformDirectionNd
  dsimp only
  rw [assertThat_ok (by rw [hm, hp]; simp), exc_ok_bind, assertThat_error (by rw [hm]; exact h0)]
  rfl

theorem combine_shaped {src dst : PoseNd} {sh : List Nat} (hs : src.HasShape sh) (hd : dst.HasShape sh) :
    ∃ ps, PoseNd.combine src dst = .ok ps ∧ ps.HasShape sh ∧
      ∀ q, InRange sh q → ps.at_ q = combineTwoObjectPose2d (src.at_ q) (dst.at_ q) := by
  unfold PoseNd.combine
  obtain ⟨m, e1, s1, g1⟩ := zip_shaped (fun d s : Matrix (Fin 3) (Fin 3) ℝ => d * s⁻¹) hd.matrix hs.matrix
  obtain ⟨y, e2, s2, g2⟩ := zip_shaped (fun d s : ℝ => d - s) hd.deltaYaw hs.deltaYaw
  obtain ⟨v, e3, s3, g3⟩ := zip_shaped (fun d s : Bool => d && s) hd.valid hs.valid
  rw [e1, exc_ok_bind, e2, exc_ok_bind, e3, exc_ok_bind]
  unfold PoseNd.fromTransformation
  obtain ⟨xy, e4, s4, g4⟩ := transformPointsNd_shaped (m := m.map fun m => m⁻¹)
    (pts := { shape := m.shape, get := fun _ => ((0 : ℝ), (0 : ℝ)) }) (sh := sh) (rest := []) s1 (by simp [s1])
  rw [e4, exc_ok_bind]
  have hh : PoseNd.HasShape
      { originalXy := xy, originalYaw := y.map fun y => -y, matrix := m, deltaYaw := y, valid := v } sh :=
    ⟨by rw [s4]; simp, s2, s1, s2, s3⟩
  simp only
  rw [hh.validate, exc_ok_bind]
  refine ⟨_, rfl, hh, fun q hq => ?_⟩
  have h4 := g4 q hq.length.symm []
  rw [List.append_nil] at h4
  simp only [PoseNd.at_, combineTwoObjectPose2d, Pose2D.fromTransformation, h4, Nd.map, g1 q hq, g2 q hq, g3 q hq]

/-! ### Broadcasting -/

theorem broadcastRev_comm (s t : List Nat) : Nd.broadcastRev s t = Nd.broadcastRev t s := by
  induction s generalizing t with
  | nil => cases t <;> rfl
  | cons a s ih =>
    cases t with
    | nil => rfl
    | cons b t =>
      simp only [Nd.broadcastRev, ih t]
      by_cases h : a = b
      · subst h; rfl
      · have h' : ¬ b = a := fun e => h e.symm
        simp only [h, h', if_false]
        by_cases h1 : a = 1
        · have h2 : ¬ b = 1 := fun e => h (h1.trans e.symm)
          simp only [h1, h2, if_true, if_false]
        · simp only [h1, if_false]

theorem zip_flip {β γ δ : Type} (f : β → γ → δ) (x : Nd β) (y : Nd γ) : Nd.zip f x y = Nd.zip (fun b a => f a b) y x := by
  unfold Nd.zip Nd.broadcastShape
  rw [broadcastRev_comm]

/-- An array with one more axis against a per-observer array. -/
theorem zip_row' {β γ δ : Type} (f : β → γ → δ) {x : Nd β} {y : Nd γ} {M : Nat} (hx : x.shape = pre ++ [M]) (hy : y.shape = pre) :
    ∃ r, Nd.zip f x y.expandLast = .ok r ∧ r.shape = pre ++ [M] ∧
      ∀ p m, InRange pre p → m < M → r.get (p ++ [m]) = f (x.get (p ++ [m])) (y.get p) := by
  rw [zip_flip]
  exact zip_row (fun b a => f a b) hy hx

/-- An array with two more axes against a per-observer array. -/
theorem zip_path' {β γ δ : Type} (f : β → γ → δ) {x : Nd β} {y : Nd γ} {P M : Nat} (hx : x.shape = pre ++ [P, M])
    (hy : y.shape = pre) :
    ∃ r, Nd.zip f x y.expandLast.expandLast = .ok r ∧ r.shape = pre ++ [P, M] ∧
      ∀ p k m, InRange pre p → k < P → m < M → r.get (p ++ [k, m]) = f (x.get (p ++ [k, m])) (y.get p) := by
  rw [zip_flip]
  exact zip_path (fun b a => f a b) hy hx

theorem expandTo_two {y : Nd β} {sh : List Nat} (hy : y.shape = sh) {a b : Nat} {γ δ : Type} (f : γ → β → δ) {x : Nd γ}
    (hx : x.shape = sh ++ [a, b]) :
    ∃ r, Nd.zip f x (y.expandTo (sh ++ [a, b]).length) = .ok r ∧ r.shape = sh ++ [a, b] ∧
      ∀ q i k, InRange sh q → i < a → k < b → r.get (q ++ [i, k]) = f (x.get (q ++ [i, k])) (y.get q) := by
  have hb : Nd.broadcastShape (sh ++ [a, b]) (sh ++ [1, 1]) = some (sh ++ [a, b]) := by
    obtain ⟨r, e, s, -⟩ := zip_path' (fun _ _ => ()) (x := { shape := sh ++ [a, b], get := fun _ => () })
      (y := { shape := sh, get := fun _ => () }) rfl rfl
    unfold Nd.zip at e
    simp only [Nd.expandLast, List.append_assoc, List.cons_append, List.nil_append] at e
    split at e
    · rename_i s' hs'
      cases e
      rw [hs', ← s]
    · cases e
  have hsh : (y.expandTo (sh ++ [a, b]).length).shape = sh ++ [1, 1] := by
    simp [Nd.expandTo, hy, List.replicate]
  unfold Nd.zip
  rw [hx, hsh, hb]
  refine ⟨_, rfl, rfl, fun q i k hq hi hk => ?_⟩
  have h1 : Nd.broadcastIdx (sh ++ [1, 1]) (q ++ [i, k]) = q ++ [0, 0] := by
    unfold Nd.broadcastIdx
    have := hq.length
    have h0 : (q ++ [i, k]).length - (sh ++ [1, 1]).length = 0 := by simp; omega
    rw [h0, List.drop_zero, List.zipWith_append this, zipWith_inRange hq]
    rfl
  simp only [h1, broadcastIdx_self (hq.snoc2 hi hk)]
  simp only [Nd.expandTo, hy, hq.length, List.take_left]

/-! ### Transformations -/

theorem pairs_shaped {x y : Nd β} {sh : List Nat} (hx : x.shape = sh) (hy : y.shape = sh) :
    Nd.pairs x y = .ok { shape := sh, get := fun idx => (x.get idx, y.get idx) } := by
  unfold Nd.pairs
  rw [assertThat_ok (by rw [hx, hy]), hx]
  rfl

theorem transformTrajectory_shaped {t : TrajNd ℝ} {pose : PoseNd} {sh : List Nat} (ht : t.HasShape (sh ++ [n, K]))
    (hp : pose.HasShape sh) (h0 : sh.prod ≠ 0) :
    ∃ t', transformTrajectoryNd t pose = .ok t' ∧ t'.HasShape (sh ++ [n, K]) ∧ ∀ q, InRange sh q → ∀ (i : Fin n) (k : Fin K),
      t'.at_ (q ++ [i.val, k.val]) = transformTrajectoryPt (t.at_ (q ++ [i.val, k.val])) (pose.at_ q) := by
  unfold transformTrajectoryNd
  have hts : t.shape = sh ++ [n, K] := ht.x
  have hps : pose.shape = sh := hp.deltaYaw
  rw [assertThat_ok (by rw [hts, hps]; simp), exc_ok_bind, pairs_shaped ht.x ht.y, exc_ok_bind]
  obtain ⟨xy, e1, s1, g1⟩ := transformPointsNd_shaped hp.matrix (rest := [n, K])
    (pts := { shape := sh ++ [n, K], get := fun idx => (t.x.get idx, t.y.get idx) }) rfl
  obtain ⟨vel, e2, s2, g2⟩ := transformDirectionNd_shaped hp.matrix h0 (rest := [n, K])
    (pts := { shape := sh ++ [n, K], get := fun idx => (t.velX.get idx, t.velY.get idx) }) rfl
  rw [e1, exc_ok_bind, pairs_shaped ht.velX ht.velY, exc_ok_bind, e2, exc_ok_bind, hts]
  obtain ⟨yaw, e3, s3, g3⟩ := expandTo_two hp.deltaYaw (fun a b : ℝ => a + b) ht.yaw
  obtain ⟨valid, e4, s4, g4⟩ := expandTo_two hp.valid (fun a b : Bool => a && b) ht.valid
  rw [e3, exc_ok_bind, e4, exc_ok_bind]
  refine ⟨_, rfl, ⟨s1, s1, ht.z, s2, s2, s3, s4, ht.timestampMicros, ht.length, ht.width, ht.height⟩, fun q hq i k => ?_⟩
  have h1 := g1 q hq.length.symm [i.val, k.val]
  have h2 := g2 q hq.length.symm [i.val, k.val]
  simp only [TrajNd.at_, transformTrajectoryPt, PoseNd.at_, Nd.map, h1, h2, g3 q i k hq i.isLt k.isLt, g4 q i k hq i.isLt k.isLt]

theorem rows_congr {β : Type} {x : Nd β} {sh q : List Nat} {N : Nat} (hs : x.shape = sh ++ [N]) (hq : InRange sh q) :
    x.rows q = (List.range N).map fun k => x.get (q ++ [k]) := by
  unfold Nd.rows
  rw [hs, getD_append_cons hq.length]

theorem transformRoadgraph_shaped {rg : Nd (RgPoint ℝ)} {pose : PoseNd} {sh : List Nat} {N : Nat} (hr : rg.shape = sh ++ [N])
    (hp : pose.HasShape sh) (h0 : sh.prod ≠ 0) :
    ∃ r, transformRoadgraphNd rg pose = .ok r ∧ r.shape = sh ++ [N] ∧ ∀ q, InRange sh q →
      r.rows q = (rg.rows q).map fun p => transformRoadgraphPt p (pose.at_ q) := by
  unfold transformRoadgraphNd
  have hps : pose.shape = sh := hp.deltaYaw
  rw [assertThat_ok (by rw [hr, hps, List.getLastD_concat]), exc_ok_bind]
  obtain ⟨xy, e1, s1, g1⟩ := transformPointsNd_shaped hp.matrix (rest := [N]) (pts := rg.map fun p => (p.x, p.y)) hr
  obtain ⟨dir, e2, s2, g2⟩ := transformDirectionNd_shaped hp.matrix h0 (rest := [N]) (pts := rg.map fun p => (p.dirX, p.dirY)) hr
  obtain ⟨v, e3, s3, g3⟩ := zip_row' (fun a b : Bool => a && b) (x := rg.map fun p => p.valid) (M := N) hr hp.valid
  rw [e1, exc_ok_bind, e2, exc_ok_bind, e3, exc_ok_bind]
  refine ⟨_, rfl, hr, fun q hq => ?_⟩
  rw [rows_congr hr hq, List.map_map]
  refine (rows_congr (sh := sh) (N := N) (by exact hr) hq).trans ?_
  refine List.map_congr_left fun k hk => ?_
  rw [List.mem_range] at hk
  simp only [Function.comp, g1 q hq.length.symm [k], g2 q hq.length.symm [k], g3 q k hq hk, Nd.map, transformRoadgraphPt, PoseNd.at_]

theorem transformTrafficLights_shaped {tls : Nd (TlState ℝ)} {pose : PoseNd} {sh : List Nat} {L : Nat}
    (hl : tls.shape = sh ++ [L, K]) (hp : pose.HasShape sh) :
    ∃ r, transformTrafficLightsNd tls pose = .ok r ∧ r.shape = sh ++ [L, K] ∧ ∀ q, InRange sh q → ∀ l < L, ∀ k < K,
      r.get (q ++ [l, k]) = transformTrafficLight (tls.get (q ++ [l, k])) (pose.at_ q) := by
  unfold transformTrafficLightsNd
  have hps : pose.shape = sh := hp.deltaYaw
  rw [assertThat_ok (by rw [hl]; simp), exc_ok_bind, assertThat_ok (by rw [hl, hps]; simp), exc_ok_bind]
  obtain ⟨xy, e1, s1, g1⟩ := transformPointsNd_shaped hp.matrix (rest := [L, K]) (pts := tls.map fun p => (p.x, p.y)) hl
  obtain ⟨v, e3, s3, g3⟩ := zip_path' (fun a b : Bool => a && b) (x := tls.map fun p => p.valid) (P := L) (M := K) hl hp.valid
  rw [e1, exc_ok_bind, e3, exc_ok_bind]
  refine ⟨_, rfl, hl, fun q hq l hll k hk => ?_⟩
  simp only [g1 q hq.length.symm [l, k], g3 q l k hq hll hk, Nd.map, transformTrafficLight, PoseNd.at_]

theorem ObsNd.Shaped.validate {o : ObsNd} {sh : List Nat} (h : o.Shaped sh n K) : o.validate = .ok () := by
  obtain ⟨rg, N, hrg, hN⟩ := h.roadgraph
  obtain ⟨L, hL⟩ := h.trafficLights
  obtain ⟨pts, on, P, Q, hsp, hP, -⟩ := h.sdcPaths
  have hsh : o.shape = sh := h.pose2d.deltaYaw
  have hps : o.pose2d.shape = sh := h.pose2d.deltaYaw
  have hts : o.trajectory.shape = sh ++ [n, K] := h.trajectory.x
  unfold ObsNd.validate ObsNd.roads
  simp only [hrg, hsp, hsh, exc_ok_bind, hts, h.metadata.ids, h.isEgo, hN, hL, hP, hps]
  rw [assertThat_ok (by simp), exc_ok_bind, assertThat_ok (by simp), exc_ok_bind, assertThat_ok (by simp), exc_ok_bind,
    assertThat_ok (by simp), exc_ok_bind, assertThat_ok (by simp), exc_ok_bind, assertThat_ok (by simp), exc_ok_bind]
  exact assertThat_ok (by simp)

theorem prod_ne_zero_of_inRange {sh q : List Nat} (h : InRange sh q) : sh.prod ≠ 0 := by
  induction h with
  | nil => simp
  | cons hi _ ih => simp only [List.prod_cons]; exact Nat.mul_ne_zero (by omega) ih

/-- `transform_observation` on whole batches. -/
theorem transformObservation_shaped {o : ObsNd} {pose2d : PoseNd} {sh : List Nat} (h : o.Shaped sh n K) (hp : pose2d.HasShape sh)
    (h0 : sh.prod ≠ 0) :
    ∃ o', transformObservationNd o pose2d = .ok o' ∧ o'.Shaped sh n K ∧ ∀ q, InRange sh q →
      o'.observer n K q = transformObservation (o.observer n K q) (pose2d.at_ q) := by
  obtain ⟨rg, N, hrg, hN⟩ := h.roadgraph
  obtain ⟨L, hL⟩ := h.trafficLights
  unfold transformObservationNd
  have hsh : o.shape = sh := h.pose2d.deltaYaw
  have hps : pose2d.shape = sh := hp.deltaYaw
  obtain ⟨pose, e1, s1, g1⟩ := combine_shaped h.pose2d hp
  obtain ⟨tr, e2, s2, g2⟩ := transformTrajectory_shaped h.trajectory s1 h0
  obtain ⟨rg', e3, s3, g3⟩ := transformRoadgraph_shaped hN s1 h0
  obtain ⟨tl, e4, s4, g4⟩ := transformTrafficLights_shaped hL s1
  have hr : o.roads = .ok rg := by unfold ObsNd.roads; rw [hrg]
  rw [assertThat_ok (by rw [hsh, hps]), exc_ok_bind, e1, exc_ok_bind, e2, exc_ok_bind, hr, exc_ok_bind, e3, exc_ok_bind, e4,
    exc_ok_bind]
  have hh : ObsNd.Shaped { o with trajectory := tr, roadgraph := some rg', trafficLights := tl, pose2d := pose2d } sh n K :=
    ⟨s2, h.isEgo, hp, h.metadata, ⟨rg', N, rfl, s3⟩, ⟨L, s4⟩, h.sdcPaths⟩
  simp only
  rw [hh.validate, exc_ok_bind]
  refine ⟨_, rfl, hh, fun q hq => ?_⟩
  unfold transformObservation ObsNd.observer
  simp only [hrg, Option.map_some, Option.getD_some, g3 q hq, g1 q hq, s4, hL, getD_append_cons hq.length, List.map_map]
  have ht : (fun (i : Fin n) (k : Fin K) => tr.at_ (q ++ [i.val, k.val])) = fun i k =>
      transformTrajectoryPt (o.trajectory.at_ (q ++ [i.val, k.val])) (combineTwoObjectPose2d (o.pose2d.at_ q) (pose2d.at_ q)) := by
    funext i k
    rw [g2 q hq i k, g1 q hq]
  have hl : ((List.range L).map fun l => fun k : Fin K => tl.get (q ++ [l, k.val])) =
      (List.range L).map ((fun (l : Fin K → TlState ℝ) k =>
        transformTrafficLight (l k) (combineTwoObjectPose2d (o.pose2d.at_ q) (pose2d.at_ q))) ∘
          fun l => fun k : Fin K => o.trafficLights.get (q ++ [l, k.val])) := by
    refine List.map_congr_left fun l hl => funext fun k => ?_
    rw [List.mem_range] at hl
    rw [g4 q hq l hl k k.isLt, g1 q hq]
    rfl
  rw [ht, hl]

end

end Waymax
