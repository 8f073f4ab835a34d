import Verif.Props.BatchObservation
/-
C123: the observations of a batch are the observations of its scenarios.
-/

namespace Waymax

section
variable {pre : List Nat} {n T K m : Nat}

theorem ObsAgrees.bind {r : Except Err ObsNd} {f : List Nat → Fin m → Except Err (Obs n K)} (h : ObsAgrees pre m n K r f)
    {g : ObsNd → Except Err ObsNd} {g' : List Nat → Fin m → Obs n K → Except Err (Obs n K)}
    (hg : ∀ o, r = .ok o → o.Shaped (pre ++ [m]) n K →
      ObsAgrees pre m n K (g o) fun p i => g' p i (o.observer n K (p ++ [i.val]))) :
    ObsAgrees pre m n K (r >>= g) fun p i => f p i >>= g' p i := by
  cases r with
  | error e =>
    intro p hp i
    have h1 : f p i = .error e := h p hp i
    beta_reduce
    rw [h1]
    rfl
  | ok o =>
    obtain ⟨h1, h2⟩ := h
    have h3 := hg o rfl h1
    rw [exc_ok_bind]
    have h4 : ∀ p, InRange pre p → ∀ i : Fin m, (f p i >>= g' p i) = g' p i (o.observer n K (p ++ [i.val])) := fun p hp i => by
      rw [h2 p hp i]; rfl
    revert h3
    cases g o with
    | error e => exact fun h3 p hp i => (h4 p hp i).trans (h3 p hp i)
    | ok o' => exact fun h3 => ⟨h3.1, fun p hp i => (h4 p hp i).trans (h3.2 p hp i)⟩

/-! ### The global observation -/

theorem leaf_window {β : Type} {x : Nd β} {L : Nat} (hs : x.shape = pre ++ [L, T]) {start : Nd Int}
    (h0 : start.shape = [] ∨ start.shape = pre) (hK : K ≤ T) :
    ∃ y, x.dynSliceV start K (-1) = .ok y ∧ y.shape = pre ++ [L, K] ∧ ∀ p, InRange pre p → ∀ (l : Nat) (k : Fin K),
      y.get (p ++ [l, k.val]) =
        dynSlice (fun τ : Fin T => x.get (p ++ [l, τ.val])) (start.get (p.take start.shape.length)) K hK k := by
  rw [dynSliceV_window hs h0 hK]
  refine ⟨_, rfl, rfl, fun p hp l k => ?_⟩
  simp only [window_idx h0 hp]
  unfold dynSlice
  simp only [Nat.add_comm]

theorem leaf_expand {β : Type} {x : Nd β} {rest : List Nat} (hs : x.shape = pre ++ rest) (m : Nat) :
    ∃ y, x.expandRepeat m pre.length = .ok y ∧ y.shape = pre ++ [m] ++ rest ∧ ∀ p, InRange pre p → ∀ (i : Nat) (r : List Nat),
      y.get (p ++ [i] ++ r) = x.get (p ++ r) := by
  rw [expandRepeat_shaped hs]
  refine ⟨_, rfl, by simp, fun p hp i r => ?_⟩
  have : (p ++ [i] ++ r).eraseIdx pre.length = p ++ r := by
    rw [List.append_assoc]
    exact eraseIdx_append i hp.length.symm
  simp only [this]

theorem globalObservation_batch {S : StateNd ℝ} (h : S.Shaped pre n T) (hst : S.StaticsShaped pre T)
    (ht : S.timestep.shape = [] ∨ S.timestep.shape = pre) (m : Nat) :
    ObsAgrees pre m n K (globalObservationNd S K m) fun p _ => globalObservation (S.scenario n T p) K := by
  obtain ⟨L, hL⟩ := hst.lights
  have h0 : (S.timestep.map fun t : Int => t - (K : Int) + 1).shape = [] ∨ (S.timestep.map fun t : Int => t - (K : Int) + 1).shape = pre := ht
  unfold globalObservationNd globalObservation
  dsimp only
  by_cases hK : K ≤ T
  · obtain ⟨tr, e1, s1, g1⟩ := slice_window h.sim h0 hK
    obtain ⟨tl, e6, s6, g6⟩ := leaf_window hL h0 hK
    rw [e1, exc_ok_bind, e6, exc_ok_bind, h.shape_eq]
    obtain ⟨ps, e2, s2, g2⟩ := fromCenterAndYaw_shaped (xy := { shape := pre, get := fun _ => (0, 0) })
      (yaw := { shape := pre, get := fun _ => 0 }) (valid := { shape := pre, get := fun _ => true }) (sh := pre) rfl rfl rfl
    rw [e2, exc_ok_bind]
    unfold ObsNd.expandRepeat
    dsimp only
    obtain ⟨tr', e3, s3, g3⟩ := mapLeaves_rename (f := fun _ x => x.expandRepeat m pre.length) (s' := pre ++ m :: [n, K])
      (φ := fun idx => idx.eraseIdx pre.length) s1 (fun β x hx => expandRepeat_shaped hx m)
    obtain ⟨ps', e4, s4, g4⟩ := pose_expandRepeat (rest := []) (by rw [List.append_nil]; exact s2) m
    obtain ⟨md', e5, s5, g5⟩ := meta_expandRepeat h.metadata m
    obtain ⟨eg, e7, s7, g7⟩ := leaf_expand (x := { shape := S.objectMetadata.ids.shape, get := fun _ => false }) h.metadata.ids m
    obtain ⟨tl', e8, s8, g8⟩ := leaf_expand s6 m
    rw [e3, exc_ok_bind, e7, exc_ok_bind, e4, exc_ok_bind, e5, exc_ok_bind, e8]
    have hpx : expandPaths m pre.length (some (placeholderPathsNd pre)) = .ok (some (placeholderPathsNd (pre ++ [m]))) := by
      unfold expandPaths placeholderPathsNd
      dsimp only
      rw [expandRepeat_shaped (pre := pre) (rest := [1, 1]) rfl, exc_ok_bind, expandRepeat_shaped (pre := pre) (rest := [1, 1]) rfl,
        exc_ok_bind]
      simp
    rw [hpx]
    cases hrg : S.roadgraphPoints with
    | none =>
      have hr : expandRoads m pre.length none = .ok none := rfl
      rw [hr]
      intro p hp i
      simp only [dif_pos hK]
      have : (S.scenario n T p).roadgraphPoints = none := by simp [StateNd.scenario, hrg]
      rw [this]
    | some rg =>
      obtain ⟨N, rg', hrg', hN⟩ := hst.roads rg hrg
      rw [hrg] at hrg'
      cases hrg'
      obtain ⟨rx, e9, s9, g9⟩ := leaf_expand hN m
      have hr : expandRoads m pre.length (some rg) = .ok (some rx) := by
        unfold expandRoads
        dsimp only
        rw [e9]
        rfl
      rw [hr, exc_ok_bind, exc_ok_bind, exc_ok_bind]
      have happ : ∀ r : List Nat, pre ++ m :: r = (pre ++ [m]) ++ r := fun r => by simp
      rw [happ] at s3 s4 s5
      rw [List.append_nil] at s4
      have hh : ObsNd.Shaped { trajectory := tr', isEgo := eg, pose2d := ps', metadata := md', roadgraph := some rx,
                               trafficLights := tl', sdcPaths := some (placeholderPathsNd (pre ++ [m])) } (pre ++ [m]) n K :=
        ⟨s3, s7, s4, s5, ⟨_, N, rfl, s9⟩, ⟨L, s8⟩, ⟨_, _, 1, 1, rfl, rfl, rfl⟩⟩
      rw [exc_pure, exc_ok_bind, hh.validate, exc_ok_bind, assertThat_ok (by exact hh.pose2d.deltaYaw), exc_ok_bind]
      refine ⟨hh, fun p hp i => ?_⟩
      simp only [dif_pos hK]
      have hsome : (S.scenario n T p).roadgraphPoints = some (rg.rows p) := by simp [StateNd.scenario, hrg]
      rw [hsome]
      refine congrArg Except.ok ?_
      have he : ∀ r : List Nat, (p ++ [i.val] ++ r).eraseIdx pre.length = p ++ r := fun r => by
        rw [List.append_assoc]
        exact eraseIdx_append i.val hp.length.symm
      have hq : InRange (pre ++ [m]) (p ++ [i.val]) := hp.snoc i.isLt
      unfold ObsNd.observer
      simp only [Option.map_some, Option.getD_some]
      have hrows : rx.rows (p ++ [i.val]) = rg.rows p := by
        rw [rows_congr hN hp, rows_congr s9 hq]
        exact List.map_congr_left fun k _ => g9 p hp i [k]
      have htraj : (fun i => dynSlice ((S.scenario n T p).simTrajectory i) ((S.scenario n T p).timestep - K + 1) K hK) =
          fun (j : Fin n) (k : Fin K) => tr'.at_ (p ++ [i.val] ++ [j.val, k.val]) := by
        funext j k
        rw [g3, he, g1 p hp j k]
        rfl
      have hpose : Pose2D.fromCenterAndYaw (0, 0) 0 true = ps'.at_ (p ++ [i.val]) := by
        have := he []
        rw [List.append_nil, List.append_nil] at this
        rw [g4, this, g2]
      have hmeta : (S.scenario n T p).objectMetadata = fun j : Fin n => md'.at_ (p ++ [i.val] ++ [j.val]) := by
        funext j
        rw [g5, he]
        rfl
      have hego : (fun j : Fin n => eg.get (p ++ [i.val] ++ [j.val])) = fun _ => false := by
        funext j
        rw [g7 p hp i]
      have hlights : ((S.scenario n T p).logTrafficLight.map fun l => dynSlice l ((S.scenario n T p).timestep - K + 1) K hK) =
          (List.range (tl'.shape.getD (p ++ [i.val]).length 0)).map fun l => fun k : Fin K => tl'.get (p ++ [i.val] ++ [l, k.val]) := by
        rw [s8, getD_append_cons hq.length]
        simp only [StateNd.scenario, hL, getD_append_cons hp.length, List.map_map]
        refine List.map_congr_left fun l _ => funext fun k => ?_
        rw [g8 p hp i, g6 p hp l k]
        rfl
      have hpaths : ((List.range ((placeholderPathsNd (pre ++ [m])).1.shape.getD (p ++ [i.val]).length 0)).map fun k =>
          ({ points := (placeholderPathsNd (pre ++ [m])).1.rows (p ++ [i.val] ++ [k])
             onRoute := (placeholderPathsNd (pre ++ [m])).2.get (p ++ [i.val] ++ [k, 0]) } : SdcPath ℝ)) = placeholderPaths := by
        have h1 : (placeholderPathsNd (pre ++ [m])).1.shape = pre ++ [m] ++ [1, 1] := rfl
        rw [h1, getD_append_cons hq.length]
        simp only [List.range_one, List.map_cons, List.map_nil, placeholderPaths]
        rw [rows_congr (sh := pre ++ [m] ++ [1]) (N := 1) (by rw [h1]; simp) (hq.snoc (by omega))]
        simp [placeholderPathsNd]
      rw [hrows, htraj, hpose, hmeta, hego, hlights, hpaths]
  · rw [slice_window_error h.sim h0 hK]
    intro p hp i
    simp only [dif_neg hK]

/-! ### Nearest points -/

theorem range_getD_map {β : Type} {l : List β} {k : Nat} (h : l.length = k) (d : Nat → β) :
    ((List.range k).map fun i => l.getD i (d i)) = l := by
  subst h
  refine List.ext_getElem (by simp) fun i h1 h2 => ?_
  simp [List.getD_eq_getElem?_getD, List.getElem?_eq_getElem h2]

theorem nearestRow_length {row : List (RgPoint ℝ)} (ref : ℝ × ℝ) {topk : Nat} (h : topk ≤ row.length) :
    (nearestRow row ref topk).length = topk := by
  simp [nearestRow, topKIdx, h]

theorem withTopk_batch {o : ObsNd} (ho : o.Shaped (pre ++ [m]) n K) {isEgo : Nd Bool} (hego : isEgo.shape = pre ++ [m] ++ [n])
    {ref : Nd (ℝ × ℝ)} (href : ref.shape = pre ++ [m]) (topk : Nat) :
    ObsAgrees pre m n K (o.withTopk isEgo ref topk) fun p i =>
      (o.observer n K (p ++ [i.val])).withTopk (fun j => isEgo.get (p ++ [i.val] ++ [j.val])) (ref.get (p ++ [i.val])) topk := by
  obtain ⟨rg, N, hrg, hN⟩ := ho.roadgraph
  have hr : o.roads = .ok rg := by unfold ObsNd.roads; rw [hrg]
  have hrow : ∀ q, InRange (pre ++ [m]) q → (o.observer n K q).roadgraph = rg.rows q := fun q _ => by simp [ObsNd.observer, hrg]
  have hlen : ∀ q, InRange (pre ++ [m]) q → (rg.rows q).length = N := fun q hq => by rw [rows_congr hN hq]; simp
  have hw : ∀ q, InRange (pre ++ [m]) q → ∀ e r, (o.observer n K q).withTopk e r topk = (do
      let rg ← filterTopk (rg.rows q) r topk
      return { o.observer n K q with isEgo := e, roadgraph := rg }) := fun q hq e r => by
    unfold Obs.withTopk
    rw [hrow q hq]
  have hlast : rg.shape.getLastD 0 = N := by rw [hN, List.getLastD_concat]
  unfold ObsNd.withTopk
  rw [hr, exc_ok_bind]
  unfold filterTopkNd
  rw [assertThat_ok (by rw [hN, href, List.take_left]), exc_ok_bind, assertThat_ok (by rw [hN, href]; simp), exc_ok_bind, hlast]
  by_cases h1 : topk > N
  · rw [if_pos h1]
    intro p hp i
    have hq : InRange (pre ++ [m]) (p ++ [i.val]) := hp.snoc i.isLt
    beta_reduce
    rw [hw _ hq, filterTopk, if_pos (by rw [hlen _ hq]; exact h1)]
    rfl
  · rw [if_neg h1]
    by_cases h2 : topk < N
    · rw [if_pos h2, exc_pure, exc_ok_bind, hN, List.dropLast_concat]
      refine ⟨⟨ho.trajectory, hego, ho.pose2d, ho.metadata, ⟨_, topk, rfl, rfl⟩, ho.trafficLights, ho.sdcPaths⟩, fun p hp i => ?_⟩
      have hq : InRange (pre ++ [m]) (p ++ [i.val]) := hp.snoc i.isLt
      have hf0 : filterTopk (rg.rows (p ++ [i.val])) (ref.get (p ++ [i.val])) topk =
          .ok (nearestRow (rg.rows (p ++ [i.val])) (ref.get (p ++ [i.val])) topk) := by
        unfold filterTopk
        rw [if_neg (by rw [hlen _ hq]; exact h1), if_pos (by rw [hlen _ hq]; exact h2)]
        rfl
      beta_reduce
      rw [hw _ hq, hf0, exc_ok_bind]
      refine congrArg Except.ok ?_
      unfold ObsNd.observer
      simp only [Option.map_some, Option.getD_some]
      have hf : Nd.rows { shape := pre ++ [m] ++ [topk]
                          get := fun idx => (nearestRow (rg.rows idx.dropLast) (ref.get idx.dropLast) topk).getD
                            (idx.getLastD 0) (rg.get idx) } (p ++ [i.val]) =
          nearestRow (rg.rows (p ++ [i.val])) (ref.get (p ++ [i.val])) topk := by
        rw [rows_congr rfl hq]
        simp only [List.dropLast_concat, List.getLastD_concat]
        exact range_getD_map (nearestRow_length _ (by rw [hlen _ hq]; omega)) _
      rw [hf]
    · rw [if_neg h2, exc_pure, exc_ok_bind]
      refine ⟨⟨ho.trajectory, hego, ho.pose2d, ho.metadata, ⟨rg, N, rfl, hN⟩, ho.trafficLights, ho.sdcPaths⟩, fun p hp i => ?_⟩
      have hq : InRange (pre ++ [m]) (p ++ [i.val]) := hp.snoc i.isLt
      have hf0 : filterTopk (rg.rows (p ++ [i.val])) (ref.get (p ++ [i.val])) topk = .ok (rg.rows (p ++ [i.val])) := by
        unfold filterTopk
        rw [if_neg (by rw [hlen _ hq]; exact h1), if_neg (by rw [hlen _ hq]; exact h2)]
      beta_reduce
      rw [hw _ hq, hf0, exc_ok_bind]
      rfl

/-- `transform_observation` in the form used below. -/
theorem transform_batch {o : ObsNd} (ho : o.Shaped (pre ++ [m]) n K) {ps : PoseNd} (hp : ps.HasShape (pre ++ [m]))
    {single : List Nat → Fin m → Pose2D} (hs : ∀ p, InRange pre p → ∀ i : Fin m, ps.at_ (p ++ [i.val]) = single p i) :
    ObsAgrees pre m n K (transformObservationNd o ps) fun p i =>
      .ok (transformObservation (o.observer n K (p ++ [i.val])) (single p i)) := by
  by_cases h0 : (pre ++ [m]).prod ≠ 0
  · obtain ⟨o', e, s, g⟩ := transformObservation_shaped ho hp h0
    rw [e]
    refine ⟨s, fun p hpp i => ?_⟩
    rw [g _ (hpp.snoc i.isLt), hs p hpp i]
  · cases h : transformObservationNd o ps with
    | error e => exact fun p hpp i => absurd (prod_ne_zero_of_inRange (hpp.snoc i.isLt)) h0
    | ok o' =>
      exfalso
      unfold transformObservationNd at h
      obtain ⟨_, -, h⟩ := bind_eq_ok.1 h
      obtain ⟨pose, hc, h⟩ := bind_eq_ok.1 h
      obtain ⟨pose', e1, s1, -⟩ := combine_shaped ho.pose2d hp
      rw [e1] at hc
      cases hc
      obtain ⟨tr, h1, -⟩ := bind_eq_ok.1 h
      unfold transformTrajectoryNd at h1
      obtain ⟨_, -, h1⟩ := bind_eq_ok.1 h1
      obtain ⟨xy, -, h1⟩ := bind_eq_ok.1 h1
      obtain ⟨lxy, -, h1⟩ := bind_eq_ok.1 h1
      obtain ⟨vel, hv, h1⟩ := bind_eq_ok.1 h1
      obtain ⟨lvel, hlv, -⟩ := bind_eq_ok.1 h1
      rw [pairs_shaped ho.trajectory.velX ho.trajectory.velY] at hv
      cases hv
      rw [transformDirectionNd_empty s1.matrix h0 rfl] at hlv
      cases hlv

/-! ### Current poses -/

theorem currentPoses_batch [NeZero T] {S : StateNd ℝ} (h : S.Shaped pre n T)
    (ht : S.timestep.shape = [] ∨ S.timestep.shape = pre) :
    ∃ c, currentPoses S = .ok c ∧ c.1.shape = pre ++ [n] ∧ c.2.1.shape = pre ++ [n] ∧ c.2.2.shape = pre ++ [n] ∧
      ∀ p, InRange pre p → ∀ i : Fin n,
        c.1.get (p ++ [i.val]) = (((S.scenario n T p).currentSim i).x, ((S.scenario n T p).currentSim i).y) ∧
        c.2.1.get (p ++ [i.val]) = ((S.scenario n T p).currentSim i).yaw ∧
        c.2.2.get (p ++ [i.val]) = ((S.scenario n T p).currentSim i).valid := by
  obtain ⟨cur, log, e1, -, s1, -, g⟩ := C106_current h ht
  unfold currentPoses
  rw [e1, exc_ok_bind, pairs_shaped s1.x s1.y, exc_ok_bind, indexLast_shaped (q := pre ++ [n]) (m := 1) (by simp) (by omega),
    exc_ok_bind, indexLast_shaped (q := pre ++ [n]) (m := 1) (by rw [s1.yaw, snoc2]) (by omega), exc_ok_bind,
    indexLast_shaped (q := pre ++ [n]) (m := 1) (by rw [s1.valid, snoc2]) (by omega), exc_ok_bind]
  refine ⟨_, rfl, rfl, rfl, rfl, fun p hp i => ?_⟩
  have hg := (g p hp i).1
  rw [snoc2] at hg
  rw [← hg]
  exact ⟨rfl, rfl, rfl⟩

theorem find_range {n : Nat} (f : Nat → Bool) (h : 0 < n) :
    ∃ k : Fin n, ((List.range n).find? f).getD 0 = k.val ∧
      (match (List.finRange n).find? (fun i => f i.val) with
       | some i => (.ok i : Except Err (Fin n))
       | none => .ok ⟨0, h⟩) = .ok k := by
  have hr : List.range n = (List.finRange n).map Fin.val := by simp
  rw [hr, List.find?_map]
  have : (f ∘ Fin.val : Fin n → Bool) = fun i => f i.val := rfl
  rw [this]
  cases (List.finRange n).find? fun i => f i.val with
  | none => exact ⟨⟨0, h⟩, rfl, rfl⟩
  | some i => exact ⟨i, rfl, rfl⟩

theorem sdcPoses_batch [NeZero T] {S : StateNd ℝ} (h : S.Shaped pre n T) {c : Nd (ℝ × ℝ) × Nd ℝ × Nd Bool}
    (s1 : c.1.shape = pre ++ [n]) (s2 : c.2.1.shape = pre ++ [n]) (s3 : c.2.2.shape = pre ++ [n]) (hn : 0 < n) :
    ∃ d, sdcPoses S c = .ok d ∧ d.1.shape = pre ++ [1] ∧ d.2.1.shape = pre ++ [1] ∧ d.2.2.shape = pre ++ [1] ∧
      ∀ p, InRange pre p → ∃ k : Fin n, sdcIndex (S.scenario n T p).objectMetadata = .ok k ∧
        d.1.get (p ++ [0]) = c.1.get (p ++ [k.val]) ∧ d.2.1.get (p ++ [0]) = c.2.1.get (p ++ [k.val]) ∧
        d.2.2.get (p ++ [0]) = c.2.2.get (p ++ [k.val]) := by
  have hl : S.objectMetadata.isSdc.shape.getLastD 0 = n := by rw [h.metadata.isSdc, List.getLastD_concat]
  have hd : S.objectMetadata.isSdc.shape.dropLast = pre := by rw [h.metadata.isSdc, List.dropLast_concat]
  unfold sdcPoses Nd.topOne
  dsimp only
  rw [hl, assertThat_ok (by omega), exc_ok_bind, exc_pure, exc_ok_bind, hd]
  unfold Nd.takeAlongLast
  dsimp only
  rw [assertThat_ok (by rw [s1, List.dropLast_concat, List.dropLast_concat]), exc_ok_bind, exc_pure, exc_ok_bind,
    assertThat_ok (by rw [s2, List.dropLast_concat, List.dropLast_concat]), exc_ok_bind, exc_pure, exc_ok_bind,
    assertThat_ok (by rw [s3, List.dropLast_concat, List.dropLast_concat]), exc_ok_bind, exc_pure, exc_ok_bind]
  refine ⟨_, rfl, rfl, rfl, rfl, fun p hp => ?_⟩
  obtain ⟨k, hk, hk'⟩ := find_range (fun k => S.objectMetadata.isSdc.get (p ++ [k])) hn
  refine ⟨k, ?_, ?_⟩
  · unfold sdcIndex
    rw [dif_pos hn]
    exact hk'
  · simp only [List.dropLast_concat, hk]
    exact ⟨trivial, trivial, trivial⟩

theorem sdcPoses_empty {S : StateNd ℝ} (h : S.Shaped pre n T) (c : Nd (ℝ × ℝ) × Nd ℝ × Nd Bool) (hn : ¬ 0 < n) :
    sdcPoses S c = .error .valueError := by
  have hl : S.objectMetadata.isSdc.shape.getLastD 0 = n := by rw [h.metadata.isSdc, List.getLastD_concat]
  unfold sdcPoses Nd.topOne
  dsimp only
  rw [hl, assertThat_error (by omega)]
  rfl

theorem ObsAgrees.congr {r : Except Err ObsNd} {f g : List Nat → Fin m → Except Err (Obs n K)} (h : ObsAgrees pre m n K r f)
    (hfg : ∀ p, InRange pre p → ∀ i, g p i = f p i) : ObsAgrees pre m n K r g := by
  cases r with
  | error e => exact fun p hp i => (hfg p hp i).trans (h p hp i)
  | ok o => exact ⟨h.1, fun p hp i => (hfg p hp i).trans (h.2 p hp i)⟩

theorem ObsAgrees.ok_self {o : ObsNd} (h : o.Shaped (pre ++ [m]) n K) :
    ObsAgrees pre m n K (.ok o) fun p i => .ok (o.observer n K (p ++ [i.val])) := ⟨h, fun _ _ _ => rfl⟩

theorem numObjects_shaped {t : TrajNd ℝ} {a b : Nat} (h : t.HasShape (pre ++ [a, b])) : t.numObjects = .ok a := by
  unfold TrajNd.numObjects TrajNd.shape
  rw [h.x]
  simp

/-- `observation_from_state` of a batch gives every object of every scenario the observation it has when the scenario is observed
alone, in every coordinate frame, for every window length and every number of road-graph points; when it raises, every scenario
alone raises the same. The scenarios may share the time step or have their own. -/
theorem C123_observation [NeZero T] {S : StateNd ℝ} (h : S.Shaped pre n T) (hst : S.StaticsShaped pre T)
    (ht : S.timestep.shape = [] ∨ S.timestep.shape = pre) (topk : Nat) (frame : Frame) :
    ObsAgrees pre n n K (observationFromStateNd S K topk frame) fun p i =>
      observationFromState (S.scenario n T p) K topk frame i := by
  obtain ⟨c, e1, s1, s2, s3, g⟩ := currentPoses_batch h ht
  unfold observationFromStateNd observationFromState
  rw [e1, exc_ok_bind, numObjects_shaped h.sim, exc_ok_bind, h.shape_eq]
  refine (globalObservation_batch h hst ht n).bind fun gl _ hgl => ?_
  refine ObsAgrees.congr (ObsAgrees.bind (withTopk_batch hgl (isEgo := egoNd pre n) (by simp [egoNd]) s1 topk)
    (g' := fun p i o => match frame with
      | .OBJECT => return transformObservation o (Pose2D.fromCenterAndYaw (((S.scenario n T p).currentSim i).x, ((S.scenario n T p).currentSim i).y)
          ((S.scenario n T p).currentSim i).yaw ((S.scenario n T p).currentSim i).valid)
      | .GLOBAL => return o
      | .SDC => do
        let k ← sdcIndex (S.scenario n T p).objectMetadata
        return transformObservation o (Pose2D.fromCenterAndYaw (((S.scenario n T p).currentSim k).x, ((S.scenario n T p).currentSim k).y)
          ((S.scenario n T p).currentSim k).yaw ((S.scenario n T p).currentSim k).valid)) fun o _ ho => ?_) fun p hp i => ?_
  · cases frame with
    | GLOBAL => exact ObsAgrees.ok_self ho
    | OBJECT =>
      obtain ⟨ps, e, s, gp⟩ := fromCenterAndYaw_shaped s1 s2 s3
      dsimp only
      rw [e, exc_ok_bind]
      refine transform_batch ho s fun p hp i => ?_
      obtain ⟨g1, g2, g3⟩ := g p hp i
      rw [gp, g1, g2, g3]
    | SDC =>
      dsimp only
      by_cases hn : 0 < n
      · obtain ⟨d, ed, d1, d2, d3, gd⟩ := sdcPoses_batch h s1 s2 s3 hn
        rw [ed, exc_ok_bind]
        have hrep : ∀ {β : Type} {x : Nd β}, x.shape = pre ++ [1] → (x.repeatLast n).shape = pre ++ [n] := fun {β x} hx => by
          simp [Nd.repeatLast, hx, List.getLastD_concat, List.dropLast_concat]
        have hget : ∀ {β : Type} (x : Nd β) (p : List Nat) (i : Fin n), (x.repeatLast n).get (p ++ [i.val]) = x.get (p ++ [0]) :=
          fun {β} x p i => by
            simp only [Nd.repeatLast, List.dropLast_concat, List.getLastD_concat, Nat.div_eq_of_lt i.isLt]
        obtain ⟨ps, e, s, gp⟩ := fromCenterAndYaw_shaped (hrep d1) (hrep d2) (hrep d3)
        rw [e, exc_ok_bind]
        refine ObsAgrees.congr (transform_batch ho s (single := fun p i => ps.at_ (p ++ [i.val])) fun p hp i => rfl) fun p hp i => ?_
        obtain ⟨k, hk, k1, k2, k3⟩ := gd p hp
        obtain ⟨g1, g2, g3⟩ := g p hp k
        rw [hk, exc_ok_bind, gp, hget, hget, hget, k1, k2, k3, g1, g2, g3]
        rfl
      · rw [sdcPoses_empty h c hn]
        exact fun p hp i => absurd i.isLt (by omega)
  · have hl := hp.length
    have hego : (fun j : Fin n => (egoNd pre n).get (p ++ [i.val] ++ [j.val])) = fun j => decide ((if i = j then i.val else 0) = 1) := by
      funext j
      unfold egoNd
      dsimp only
      have h1 : (p ++ [i.val] ++ [j.val]).getD pre.length 0 = i.val := by rw [List.append_assoc]; exact getD_append_cons hl.symm
      have h2 : (p ++ [i.val] ++ [j.val]).getD (pre.length + 1) 0 = j.val := getD_append_cons (by simp [hl])
      rw [h1, h2]
      simp only [Fin.ext_iff]
    obtain ⟨g1, -, -⟩ := g p hp i
    dsimp only
    rw [hego, g1]
    cases frame <;> rfl

theorem withPaths_batch {S : StateNd ℝ} (h : S.Shaped pre n T) (hst : S.StaticsShaped pre T) {o : ObsNd}
    (ho : o.Shaped (pre ++ [1]) n K) :
    ObsAgrees pre 1 n K (o.withPaths S) fun p i => .ok (match (S.scenario n T p).sdcPaths with
      | none => o.observer n K (p ++ [i.val])
      | some paths => { o.observer n K (p ++ [i.val]) with sdcPaths := some paths }) := by
  unfold ObsNd.withPaths
  cases hp : S.sdcPaths with
  | none =>
    refine ⟨ho, fun p hpp i => ?_⟩
    have : (S.scenario n T p).sdcPaths = none := by simp [StateNd.scenario, hp]
    beta_reduce
    rw [this]
  | some pts =>
    obtain ⟨P, Q, pts', on, hpp, hs1, hs2⟩ := hst.paths pts hp
    rw [hp] at hpp
    cases hpp
    dsimp only
    rw [h.shape_eq]
    obtain ⟨a, e1, s1, g1⟩ := leaf_expand hs1 1
    obtain ⟨b, e2, s2, g2⟩ := leaf_expand hs2 1
    have he : expandPaths 1 pre.length (some (pts', on)) = .ok (some (a, b)) := by
      unfold expandPaths
      dsimp only
      rw [e1, exc_ok_bind, e2, exc_ok_bind]
      rfl
    have hh : ObsNd.Shaped { o with sdcPaths := some (a, b) } (pre ++ [1]) n K :=
      ⟨ho.trajectory, ho.isEgo, ho.pose2d, ho.metadata, ho.roadgraph, ho.trafficLights, ⟨a, b, P, Q, rfl, s1, s2⟩⟩
    rw [he, exc_ok_bind, hh.validate, exc_ok_bind]
    refine ⟨hh, fun p hpp i => ?_⟩
    have hq : InRange (pre ++ [1]) (p ++ [i.val]) := hpp.snoc i.isLt
    have hsome : (S.scenario n T p).sdcPaths = some ((List.range P).map fun k =>
        { points := pts'.rows (p ++ [k]), onRoute := on.get (p ++ [k, 0]) }) := by
      simp only [StateNd.scenario, hp, hs1, Option.map_some, getD_append_cons hpp.length]
    beta_reduce
    rw [hsome]
    refine congrArg Except.ok ?_
    unfold ObsNd.observer
    simp only [Option.map_some, s1, getD_append_cons hq.length]
    have hmap : ((List.range P).map fun k => ({ points := pts'.rows (p ++ [k]), onRoute := on.get (p ++ [k, 0]) } : SdcPath ℝ)) =
        (List.range P).map fun k => { points := a.rows (p ++ [i.val] ++ [k]), onRoute := b.get (p ++ [i.val] ++ [k, 0]) } := by
      refine List.map_congr_left fun k hk => ?_
      rw [List.mem_range] at hk
      rw [g2 p hpp i, rows_congr (sh := pre ++ [P]) (N := Q) (by rw [hs1, snoc2]) (hpp.snoc hk),
        rows_congr (sh := pre ++ [1] ++ [P]) (N := Q) (by rw [s1, snoc2]) (hq.snoc hk)]
      congr 1
      refine List.map_congr_left fun j _ => ?_
      have := g1 p hpp i [k, j]
      simp only [snoc2] at this
      simpa using this.symm
    rw [hmap]

/-- `sdc_observation_from_state` of a batch. -/
theorem C123_sdc [NeZero T] {S : StateNd ℝ} (h : S.Shaped pre n T) (hst : S.StaticsShaped pre T)
    (ht : S.timestep.shape = [] ∨ S.timestep.shape = pre) (topk : Nat) (frame : Frame) :
    ObsAgrees pre 1 n K (sdcObservationFromStateNd S K topk frame) fun p _ =>
      sdcObservationFromState (S.scenario n T p) K topk frame := by
  obtain ⟨c, e1, s1, s2, s3, g⟩ := currentPoses_batch h ht
  unfold sdcObservationFromStateNd sdcObservationFromState
  rw [e1, exc_ok_bind]
  by_cases hn : 0 < n
  · obtain ⟨d, ed, d1, d2, d3, gd⟩ := sdcPoses_batch h s1 s2 s3 hn
    rw [ed, exc_ok_bind]
    have hnew : S.objectMetadata.isSdc.newBeforeLast.shape = pre ++ [1] ++ [n] := by
      unfold Nd.newBeforeLast
      rw [h.metadata.isSdc]
      have : (pre ++ [n]).length - 1 = pre.length := by simp
      rw [this, insertIdx_append]
      simp
    have hnewg : ∀ p, InRange pre p → ∀ (i : Fin 1) (j : Nat), S.objectMetadata.isSdc.newBeforeLast.get (p ++ [i.val] ++ [j]) =
        S.objectMetadata.isSdc.get (p ++ [j]) := fun p hp i j => by
      unfold Nd.newBeforeLast
      rw [h.metadata.isSdc]
      have : (pre ++ [n]).length - 1 = pre.length := by simp
      simp only [this]
      rw [List.append_assoc]
      exact congrArg _ (eraseIdx_append i.val hp.length.symm)
    obtain ⟨ps, ep, sp, gp⟩ := fromCenterAndYaw_shaped d1 d2 d3
    refine ObsAgrees.congr ((globalObservation_batch h hst ht 1).bind (g' := fun p i g =>
      (g.withTopk (fun j => S.objectMetadata.isSdc.newBeforeLast.get (p ++ [i.val] ++ [j.val])) (d.1.get (p ++ [i.val])) topk) >>=
        fun o => (.ok (match (S.scenario n T p).sdcPaths with
          | none => o
          | some paths => { o with sdcPaths := some paths }) : Except Err (Obs n K)) >>= fun o =>
        match frame with
        | .OBJECT | .SDC => .ok (transformObservation o (ps.at_ (p ++ [i.val])))
        | .GLOBAL => .ok o) fun gl _ hgl => ?_) fun p hp i => ?_
    · refine (withTopk_batch hgl hnew d1 topk).bind fun o _ ho => ?_
      refine (withPaths_batch h hst ho).bind fun o _ ho => ?_
      cases frame with
      | GLOBAL => exact ObsAgrees.ok_self ho
      | OBJECT =>
        dsimp only
        rw [ep, exc_ok_bind, assertThat_ok (by rw [h.shape_eq]; exact sp.deltaYaw), exc_ok_bind]
        exact transform_batch ho sp fun p hp i => rfl
      | SDC =>
        dsimp only
        rw [ep, exc_ok_bind, assertThat_ok (by rw [h.shape_eq]; exact sp.deltaYaw), exc_ok_bind]
        exact transform_batch ho sp fun p hp i => rfl
    · obtain ⟨k, hk, k1, k2, k3⟩ := gd p hp
      obtain ⟨g1, g2, g3⟩ := g p hp k
      have hi : i.val = 0 := by omega
      have hps : ps.at_ (p ++ [i.val]) = Pose2D.fromCenterAndYaw (((S.scenario n T p).currentSim k).x, ((S.scenario n T p).currentSim k).y)
          ((S.scenario n T p).currentSim k).yaw ((S.scenario n T p).currentSim k).valid := by
        rw [gp, hi, k1, k2, k3, g1, g2, g3]
      have hego : (fun j : Fin n => S.objectMetadata.isSdc.newBeforeLast.get (p ++ [i.val] ++ [j.val])) =
          fun j => ((S.scenario n T p).objectMetadata j).isSdc := funext fun j => hnewg p hp i j
      beta_reduce
      rw [hps, hego, hi, k1, g1, hk, exc_ok_bind]
      cases frame <;> rfl
  · rw [sdcPoses_empty h c hn]
    intro p hp i
    have : sdcIndex (S.scenario n T p).objectMetadata = .error .valueError := by unfold sdcIndex; rw [dif_neg hn]
    beta_reduce
    rw [this]
    rfl

end

end Waymax
