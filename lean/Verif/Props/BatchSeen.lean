import Verif.Props.BatchObserve
import Verif.Props.Observation
import Verif.Props.BatchRoute
/-
C123: what follows for the observations of a batch from what is known of the observations of one scenario.
-/

namespace Waymax

section
variable {pre : List Nat} {n T K : Nat}

theorem sdcIndex_pos {md : Fin n → ObjMeta} (hn : 0 < n) : ∃ k, sdcIndex md = .ok k := by
  unfold sdcIndex
  rw [dif_pos hn]
  split <;> exact ⟨_, rfl⟩

theorem filterTopk_ok {rg : List (RgPoint ℝ)} {ref : ℝ × ℝ} {topk : Nat} (h : topk ≤ rg.length) :
    ∃ r, filterTopk rg ref topk = .ok r := by
  unfold filterTopk
  rw [if_neg (by omega)]
  split <;> exact ⟨_, rfl⟩

theorem observation_exists [NeZero T] {s : SimState ℝ n T} {rg : List (RgPoint ℝ)} (hr : s.roadgraphPoints = some rg)
    (hK : K ≤ T) {topk : Nat} (ht : topk ≤ rg.length) (frame : Frame) (i : Fin n) :
    (∃ o, observationFromState s K topk frame i = .ok o) ∧ ∃ o, sdcObservationFromState s K topk frame = .ok o := by
  have hn : 0 < n := by have := i.isLt; omega
  obtain ⟨k, hk⟩ := sdcIndex_pos (md := s.objectMetadata) hn
  have hg : ∃ g, globalObservation s K = .ok g ∧ g.roadgraph = rg := by
    unfold globalObservation
    rw [dif_pos hK, hr]
    exact ⟨_, rfl, rfl⟩
  obtain ⟨g, hg, hgr⟩ := hg
  have hw : ∀ e r, ∃ o, g.withTopk e r topk = .ok o := fun e r => by
    obtain ⟨x, hx⟩ := filterTopk_ok (rg := rg) (ref := r) ht
    unfold Obs.withTopk
    rw [hgr, hx, exc_ok_bind]
    exact ⟨_, rfl⟩
  constructor
  · unfold observationFromState
    dsimp only
    rw [hg, exc_ok_bind]
    obtain ⟨o, ho⟩ := hw (fun j : Fin n => decide ((if i = j then i.val else 0) = 1)) ((s.currentSim i).x, (s.currentSim i).y)
    rw [ho, exc_ok_bind, hk]
    cases frame <;> exact ⟨_, rfl⟩
  · unfold sdcObservationFromState
    dsimp only
    rw [hk, exc_ok_bind, hg, exc_ok_bind]
    obtain ⟨o, ho⟩ := hw (fun j => (s.objectMetadata j).isSdc) ((s.currentSim k).x, (s.currentSim k).y)
    rw [ho, exc_ok_bind]
    cases frame <;> exact ⟨_, rfl⟩

/-- With a road graph of at least `topk` points and a history no longer than the time axis, both functions succeed on every batch
with at least one scenario and at least one object. -/
theorem C123_succeeds [NeZero T] {S : StateNd ℝ} (h : S.Shaped pre n T) (hst : S.StaticsShaped pre T)
    (ht : S.timestep.shape = [] ∨ S.timestep.shape = pre) {N : Nat} (hrg : S.HasRoadgraph pre N) (hK : K ≤ T) {topk : Nat}
    (htop : topk ≤ N) (hn : 0 < n) (hpre : ∃ p, InRange pre p) (frame : Frame) :
    (∃ o, observationFromStateNd S K topk frame = .ok o ∧ o.Shaped (pre ++ [n]) n K) ∧
    ∃ o, sdcObservationFromStateNd S K topk frame = .ok o ∧ o.Shaped (pre ++ [1]) n K := by
  obtain ⟨p, hp⟩ := hpre
  obtain ⟨rg, hr, hs⟩ := hrg
  have hr' : (S.scenario n T p).roadgraphPoints = some (rg.rows p) := by unfold StateNd.scenario; dsimp only; rw [hr]; rfl
  obtain ⟨⟨o1, h1⟩, o2, h2⟩ := observation_exists (K := K) hr' hK (topk := topk) (by rw [rows_congr hs hp]; simpa using htop) frame ⟨0, hn⟩
  have a1 := C123_observation (K := K) h hst ht topk frame
  have a2 := C123_sdc (K := K) h hst ht topk frame
  constructor
  · cases e : observationFromStateNd S K topk frame with
    | ok o => rw [e] at a1; exact ⟨o, rfl, a1.1⟩
    | error x =>
      rw [e] at a1
      exact absurd (h1.symm.trans (a1 p hp ⟨0, hn⟩)) (by simp)
  · cases e : sdcObservationFromStateNd S K topk frame with
    | ok o => rw [e] at a2; exact ⟨o, rfl, a2.1⟩
    | error x =>
      rw [e] at a2
      exact absurd (h2.symm.trans (a2 p hp 0)) (by simp)

/-- In the global frame, entry `u` of the history of scenario `p` shows step `t - K + 1 + u` of that scenario's simulated trajectory,
where `t` is the time step of that scenario: to every observer, of every object. -/
theorem C123_window [NeZero T] {S : StateNd ℝ} (h : S.Shaped pre n T) (hst : S.StaticsShaped pre T)
    (ht : S.timestep.shape = [] ∨ S.timestep.shape = pre) {topk : Nat} {o : ObsNd}
    (ho : observationFromStateNd S K topk .GLOBAL = .ok o) {p : List Nat} (hp : InRange pre p) (i j : Fin n) {t : Int}
    (hclock : S.timestep.get (p.take S.timestep.shape.length) = t) (hK : (K : Int) ≤ t + 1) (hT : t < T) (u : Fin K) (τ : Fin T)
    (hτ : (τ : Int) = t + 1 - K + u) :
    o.trajectory.at_ (p ++ [i.val, j.val, u.val]) = S.simTrajectory.at_ (p ++ [j.val, τ.val]) := by
  have a := C123_observation (K := K) h hst ht topk .GLOBAL
  rw [ho] at a
  have b := a.2 p hp i
  obtain ⟨hKT, rg, -, -, htr, -⟩ := obs_global_ok b
  have hc : (S.scenario n T p).timestep = t := hclock
  have := congrFun (congrFun htr j) u
  rw [hc] at this
  rw [dynSlice_window _ hKT hK (by omega) u τ hτ] at this
  have e : p ++ [i.val, j.val, u.val] = p ++ [i.val] ++ [j.val, u.val] := by simp
  rw [e]
  exact this

/-- In its own frame every object of every scenario sees itself at the origin with yaw zero at the newest step. -/
theorem C123_observer_at_origin [NeZero T] {S : StateNd ℝ} (h : S.Shaped pre n T) (hst : S.StaticsShaped pre T)
    (ht : S.timestep.shape = [] ∨ S.timestep.shape = pre) {topk : Nat} {o : ObsNd}
    (ho : observationFromStateNd S K topk .OBJECT = .ok o) {p : List Nat} (hp : InRange pre p) (i : Fin n) {t : Int}
    (hclock : S.timestep.get (p.take S.timestep.shape.length) = t) (hK : (K : Int) ≤ t + 1) (hT : t < T) (u : Fin K)
    (hu : u.val + 1 = K) :
    o.trajectory.x.get (p ++ [i.val, i.val, u.val]) = 0 ∧ o.trajectory.y.get (p ++ [i.val, i.val, u.val]) = 0 ∧
    o.trajectory.yaw.get (p ++ [i.val, i.val, u.val]) = 0 := by
  have a := C123_observation (K := K) h hst ht topk .OBJECT
  rw [ho] at a
  have b := a.2 p hp i
  have hc : (S.scenario n T p).timestep = t := hclock
  obtain ⟨h1, h2, h3, -⟩ := C80_observer_at_origin (by rw [hc]; exact hK) (by rw [hc]; exact hT) b u hu
  have e : p ++ [i.val, i.val, u.val] = p ++ [i.val] ++ [i.val, u.val] := by simp
  rw [e]
  exact ⟨h1, h2, h3⟩

/-- What the observers of a scenario see does not depend on the other scenarios of the batch, nor on the future of their own: two
batches, of possibly different shapes, whose scenarios at `p` and at `q` agree up to their time step give their observers the same
observation. -/
theorem C123_isolated [NeZero T] {pre' : List Nat} {S S' : StateNd ℝ} (h : S.Shaped pre n T) (h' : S'.Shaped pre' n T)
    (hst : S.StaticsShaped pre T) (hst' : S'.StaticsShaped pre' T) (ht : S.timestep.shape = [] ∨ S.timestep.shape = pre)
    (ht' : S'.timestep.shape = [] ∨ S'.timestep.shape = pre') {topk : Nat} {frame : Frame} {o o' : ObsNd}
    (ho : observationFromStateNd S K topk frame = .ok o) (ho' : observationFromStateNd S' K topk frame = .ok o') {p q : List Nat}
    (hp : InRange pre p) (hq : InRange pre' q) (hsame : SamePast (S.scenario n T p) (S'.scenario n T q))
    (hK : (K : Int) ≤ (S.scenario n T p).timestep + 1) (h0 : 0 ≤ (S.scenario n T p).timestep)
    (hT : (S.scenario n T p).timestep < T) (i : Fin n) :
    o'.observer n K (q ++ [i.val]) = o.observer n K (p ++ [i.val]) := by
  have a := C123_observation (K := K) h hst ht topk frame
  have b := C123_observation (K := K) h' hst' ht' topk frame
  rw [ho] at a
  rw [ho'] at b
  have e := (C50_no_future hsame hK h0 hT topk frame).1 i
  exact Except.ok.inj ((b.2 q hq i).symm.trans (e.trans (a.2 p hp i)))

/-- For a batch in which every scenario has one SDC, `sdc_observation_from_state` shows, in every scenario, what
`observation_from_state` shows to that scenario's SDC, and the paths of that scenario if there are any. -/
theorem C123_sdc_row [NeZero T] {S : StateNd ℝ} (h : S.Shaped pre n T) (hst : S.StaticsShaped pre T)
    (ht : S.timestep.shape = [] ∨ S.timestep.shape = pre) {topk : Nat} {frame : Frame} {o o' : ObsNd}
    (ho : sdcObservationFromStateNd S K topk frame = .ok o) (ho' : observationFromStateNd S K topk frame = .ok o') {p : List Nat}
    (hp : InRange pre p) {k : Fin n} (hk : ∀ j : Fin n, S.objectMetadata.isSdc.get (p ++ [j.val]) = true ↔ j = k) :
    SameView (o'.observer n K (p ++ [k.val])) (o.observer n K (p ++ [0])) ∧
    ∀ paths, (S.scenario n T p).sdcPaths = some paths → (o.observer n K (p ++ [0])).sdcPaths = some paths := by
  have a := C123_observation (K := K) h hst ht topk frame
  have b := C123_sdc (K := K) h hst ht topk frame
  rw [ho'] at a
  rw [ho] at b
  have a' := a.2 p hp k
  have b' : sdcObservationFromState (S.scenario n T p) K topk frame = .ok (o.observer n K (p ++ [0])) := b.2 p hp 0
  rcases C82_sdc_row (s := S.scenario n T p) (k := k) hk K topk frame with ⟨x, hx, y, hy, hv, hpath⟩ | ⟨e, he, -⟩
  · have hx' := Except.ok.inj (hx.symm.trans b')
    have hy' := Except.ok.inj (hy.symm.trans a')
    subst hx' hy'
    exact ⟨hv, hpath⟩
  · rw [b'] at he
    exact absurd he (by simp)

end

theorem exTwoMap_statics : exTwoMap.StaticsShaped [2] 3 where
  lights := ⟨0, rfl⟩
  roads := fun _ _ => ⟨1, exTwoMap_roadgraph⟩
  paths := fun _ _ => ⟨1, 1, exTwoMap_paths⟩

/-- A batch of two scenarios with clocks 0 and 1 meets the hypotheses of the theorems in every frame: both observation functions
succeed, the single object sees itself at the origin in both, and in the global frame each scenario shows its own position. -/
example : (∃ o, observationFromStateNd exTwoMap 1 1 .OBJECT = .ok o ∧ o.trajectory.x.get [0, 0, 0, 0] = 0 ∧
      o.trajectory.x.get [1, 0, 0, 0] = 0) ∧
    (∃ o, observationFromStateNd exTwoMap 1 1 .GLOBAL = .ok o ∧ o.trajectory.x.get [0, 0, 0, 0] = 0 ∧
      o.trajectory.x.get [1, 0, 0, 0] = 1) ∧
    ∃ o, sdcObservationFromStateNd exTwoMap 1 1 .SDC = .ok o ∧ o.Shaped [2, 1] 1 1 := by
  have hp0 : InRange [2] [0] := .cons (by norm_num) .nil
  have hp1 : InRange [2] [1] := .cons (by norm_num) .nil
  have hS := fun f => C123_succeeds (K := 1) (topk := 1) exTwoMap_shaped exTwoMap_statics (Or.inr rfl) exTwoMap_roadgraph
    (by norm_num) le_rfl (by norm_num) ⟨_, hp0⟩ f
  obtain ⟨⟨o, ho, -⟩, -⟩ := hS .OBJECT
  obtain ⟨⟨g, hg, -⟩, -⟩ := hS .GLOBAL
  obtain ⟨-, s, hs, hs'⟩ := hS .SDC
  have c0 : exTwoMap.timestep.get ([0].take exTwoMap.timestep.shape.length) = 0 := by simp [exTwoMap, exTwo]
  have c1 : exTwoMap.timestep.get ([1].take exTwoMap.timestep.shape.length) = 1 := by simp [exTwoMap, exTwo]
  refine ⟨⟨o, ho, ?_, ?_⟩, ⟨g, hg, ?_, ?_⟩, s, hs, hs'⟩
  · exact (C123_observer_at_origin exTwoMap_shaped exTwoMap_statics (Or.inr rfl) ho hp0 0 c0 (by norm_num) (by norm_num) 0 rfl).1
  · exact (C123_observer_at_origin exTwoMap_shaped exTwoMap_statics (Or.inr rfl) ho hp1 0 c1 (by norm_num) (by norm_num) 0 rfl).1
  · have := C123_window exTwoMap_shaped exTwoMap_statics (Or.inr rfl) hg hp0 0 0 c0 (by norm_num) (by norm_num) 0 0 (by norm_num)
    have := congrArg Pt.x this
    simpa [TrajNd.at_, exTwoMap, exTwo] using this
  · have := C123_window exTwoMap_shaped exTwoMap_statics (Or.inr rfl) hg hp1 0 0 c1 (by norm_num) (by norm_num) 0 1 (by norm_num)
    have := congrArg Pt.x this
    simpa [TrajNd.at_, exTwoMap, exTwo] using this

end Waymax
