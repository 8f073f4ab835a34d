import Verif.Props.Viz
import Verif.Props.Observation
import Verif.Props.TimeTensors
/-
C98 (counts), C99 - C104: pictures of states, observations and time steps.
-/

namespace Waymax

open Real

variable {n T : Nat}

/-! ### C98: nothing is drawn twice -/

/-- A box outline in the given colour. -/
def Draw.isOutline (color : Rgb) : Draw → Bool
  | .outline _ c => decide (c = color)
  | _ => false

/-- A box arrow in the given colour. -/
def Draw.isArrow (color : Rgb) : Draw → Bool
  | .arrow _ c => decide (c = color)
  | _ => false

/-- The dot of a box centre. -/
def Draw.isCenter : Draw → Bool
  | .center _ _ => true
  | _ => false

theorem countP_boxes (bs : List Box) (c c' : Rgb) :
    (plotNumpyBoundingBoxes bs c).countP (Draw.isOutline c') = (if c = c' then bs.length else 0) ∧
    (plotNumpyBoundingBoxes bs c).countP (Draw.isArrow c') = (if c = c' then bs.length else 0) ∧
    (plotNumpyBoundingBoxes bs c).countP Draw.isCenter = 0 ∧
    (plotNumpyBoundingBoxes bs c true).countP (Draw.isOutline c') = 0 ∧
    (plotNumpyBoundingBoxes bs c true).countP (Draw.isArrow c') = 0 ∧
    (plotNumpyBoundingBoxes bs c true).countP Draw.isCenter = bs.length := by
  have hcomp : ∀ (f : Box → Draw) (p : Draw → Bool), (bs.map f).countP p = bs.countP (p ∘ f) := fun f p => by
    rw [List.countP_map]
  simp only [plotNumpyBoundingBoxes, Bool.false_eq_true, if_false, if_true, List.countP_append, hcomp]
  refine ⟨?_, ?_, ?_, ?_, ?_, ?_⟩ <;> by_cases h : c = c' <;>
    simp [Function.comp_def, Draw.isOutline, Draw.isArrow, Draw.isCenter, h]

theorem nodup_cells (n T : Nat) : (cells n T).Nodup := by
  unfold cells
  rw [List.nodup_flatMap]
  refine ⟨fun i _ => (List.nodup_finRange T).map fun a b h => (Prod.mk.inj h).2, ?_⟩
  refine List.Pairwise.imp ?_ (List.nodup_finRange n)
  intro a b hab x hx hy
  simp only [List.mem_map, List.mem_finRange, true_and] at hx hy
  obtain ⟨t, rfl⟩ := hx
  obtain ⟨t', h⟩ := hy
  exact hab (Prod.mk.inj h).1.symm

theorem card_cells (q : Fin n × Fin T → Bool) (P : Fin n × Fin T → Prop) [DecidablePred P] (h : ∀ c, q c = true ↔ P c) :
    ((cells n T).filter q).length = (Finset.univ.filter P).card := by
  rw [← List.toFinset_card_of_nodup ((nodup_cells n T).filter q)]
  congr 1
  ext c
  simp [mem_cells, h]

theorem countP_labels (traj : Traj ℝ n T) (now : Fin T) (ids : Bool) (c : Rgb) :
    (if ids = true then plotLabels traj now else []).countP (Draw.isOutline c) = 0 ∧
    (if ids = true then plotLabels traj now else []).countP (Draw.isArrow c) = 0 ∧
    (if ids = true then plotLabels traj now else []).countP Draw.isCenter = 0 := by
  cases ids <;> simp [plotLabels, List.countP_map, Function.comp_def, Draw.isOutline, Draw.isArrow, Draw.isCenter]

open Classical in
/-- No box is drawn twice in the same role: the blue, grey and red outlines and the history dots are as many as the (object, step)
pairs they stand for, and there are as many arrows as outlines. -/
theorem C98_once (traj : Traj ℝ n T) (isControlled : Fin n → Bool) (now : Fin T) (showIds : Bool) {marks : List Draw}
    (h : plotTrajectory traj isControlled (some (now : Int)) showIds = .ok marks) :
    marks.countP (Draw.isOutline blue) =
      (Finset.univ.filter fun c : Fin n × Fin T => now ≤ c.2 ∧ (traj c.1 c.2).valid = true ∧ isControlled c.1 = true).card ∧
    marks.countP (Draw.isOutline grey) =
      (Finset.univ.filter fun c : Fin n × Fin T => now ≤ c.2 ∧ (traj c.1 c.2).valid = true ∧ isControlled c.1 = false).card ∧
    marks.countP (Draw.isOutline red) = (Finset.univ.filter fun i : Fin n => ∃ j, j ≠ i ∧ Touching traj now i j).card ∧
    marks.countP Draw.isCenter =
      (Finset.univ.filter fun c : Fin n × Fin T => c.2 < now ∧ (traj c.1 c.2).valid = true).card ∧
    ∀ color, marks.countP (Draw.isArrow color) = marks.countP (Draw.isOutline color) := by
  have hlt : ¬ ((now : Nat) : Int) ≥ (T : Int) := by have := now.2; omega
  have h1 : AgentColor.controlled.rgb = blue := rfl
  have h2 : AgentColor.context.rgb = grey := rfl
  have h3 : AgentColor.overlap.rgb = red := rfl
  have bg : blue ≠ grey := by decide +kernel
  have br : blue ≠ red := by decide +kernel
  have gr : grey ≠ red := by decide +kernel
  have hct : ∀ bs c, (plotNumpyBoundingBoxes bs c).countP Draw.isCenter = 0 ∧
      (plotNumpyBoundingBoxes bs c true).countP Draw.isCenter = bs.length := fun bs c =>
    ⟨(countP_boxes bs c c).2.2.1, (countP_boxes bs c c).2.2.2.2.2⟩
  have hlb := (countP_labels traj now showIds blue).2.2
  unfold plotTrajectory at h
  simp only [lastStep_nat, if_neg hlt, npIndex_nat, plotBoundingBoxes, h1, h2, h3] at h
  have := Except.ok.inj h
  subst this
  simp only [List.countP_append, countP_boxes, countP_labels, zero_add, add_zero, List.length_map, if_true, if_neg bg, if_neg br,
    if_neg gr, if_neg bg.symm, if_neg br.symm, if_neg gr.symm, hlb, hct, implies_true, and_true]
  refine ⟨card_cells _ _ fun c => ?_, card_cells _ _ fun c => ?_, ?_, card_cells _ _ fun c => ?_⟩
  · simp only [Bool.and_eq_true, decide_eq_true_eq]
    constructor
    · rintro ⟨a, b, c⟩; exact ⟨by exact_mod_cast a, c, b⟩
    · rintro ⟨a, b, c⟩; exact ⟨by exact_mod_cast a, c, b⟩
  · simp only [Bool.and_eq_true, decide_eq_true_eq, Bool.not_eq_true']
    constructor
    · rintro ⟨a, b, c⟩; exact ⟨by exact_mod_cast a, c, b⟩
    · rintro ⟨a, b, c⟩; exact ⟨by exact_mod_cast a, c, b⟩
  · rw [← List.toFinset_card_of_nodup ((List.nodup_finRange n).filter _)]
    congr 1
    ext i
    simp only [List.mem_toFinset, List.mem_filter, List.mem_finRange, true_and, Bool.and_eq_true, decide_eq_true_eq,
      Finset.mem_filter, Finset.mem_univ]
    exact pairwise_touching traj now i
  · simp only [Bool.and_eq_true, decide_eq_true_eq]
    constructor
    · rintro ⟨a, b⟩; exact ⟨by exact_mod_cast a, b⟩
    · rintro ⟨a, b⟩; exact ⟨by exact_mod_cast a, b⟩

/-- `time_idx = -1` is the last step. -/
theorem C98_last_step [NeZero T] (traj : Traj ℝ n T) (isControlled : Fin n → Bool) (showIds : Bool) :
    plotTrajectory traj isControlled (some (-1)) showIds = plotTrajectory traj isControlled (some (T - 1)) showIds := by
  have hT := NeZero.pos T
  have h1 : lastStepIdx T (-1) = (T : Int) - 1 := by simp [lastStepIdx]
  have h2 : lastStepIdx T ((T : Int) - 1) = (T : Int) - 1 := by unfold lastStepIdx; rw [if_neg (by omega)]
  unfold plotTrajectory
  simp only [h1, h2]

/-- A step past the end is a ValueError. -/
theorem C98_past_end (traj : Traj ℝ n T) (isControlled : Fin n → Bool) (showIds : Bool) {ti : Int} (h0 : 0 ≤ ti) (h : (T : Int) ≤ ti) :
    plotTrajectory traj isControlled (some ti) showIds = .error .valueError := by
  have h1 : lastStepIdx T ti = ti := by unfold lastStepIdx; rw [if_neg (by omega)]
  unfold plotTrajectory
  simp only [h1, if_pos (show ti ≥ (T : Int) by omega)]

/-! ### C102: a trajectory without highlighted step -/

/-- C102, full expectation (docstring of `plot_trajectory`): with `time_idx=None` the call succeeds and shows no full-size box. -/
def C102_full : Prop :=
  ∀ (n T : Nat) (traj : Traj ℝ n T) (isControlled : Fin n → Bool) (showIds : Bool),
    ∃ marks, plotTrajectory traj isControlled none showIds = .ok marks

/-- The default of `time_idx` never works. -/
theorem C102_no_step (traj : Traj ℝ n T) (isControlled : Fin n → Bool) (showIds : Bool) :
    plotTrajectory traj isControlled none showIds = .error .typeError := rfl

theorem C102_violated : ¬ C102_full := by
  intro h
  obtain ⟨m, hm⟩ := h 1 1 (fun _ _ => parked 0 0 true) (fun _ => true) true
  exact absurd hm (by simp [C102_no_step])

/-- What holds: every given step of the trajectory can be drawn. Missing: no step given, see `C102_violated`. -/
theorem C102_given_step_partial (traj : Traj ℝ n T) (isControlled : Fin n → Bool) (showIds : Bool) (t : Fin T) :
    ∃ marks, plotTrajectory traj isControlled (some (t : Int)) showIds = .ok marks :=
  (C98_picture traj isControlled t showIds).imp fun _ h => h.1

/-! ### C100: road graph and traffic lights -/

/-- The legend of the map: lane centres light, road edges dark, stop signs red, crosswalks and speed bumps grey; nothing else is
shown. -/
def mapLegend (type : Int) : Option Rgb :=
  if type = 1 ∨ type = 2 ∨ type = 3 then some (230/255, 230/255, 230/255)
  else if type = 15 ∨ type = 16 then some (80/255, 80/255, 80/255)
  else if type = 17 then some red
  else if type = 18 ∨ type = 19 then some (200/255, 200/255, 200/255)
  else none

/-- The legend of the lights by state: stop (1, 4) red, caution (2, 5) and flashing (7, 8) yellow, go (3, 6) green, unknown (0)
grey. -/
def lightLegend (state : Int) : Option Rgb :=
  if state = 0 then some (3/4, 3/4, 3/4)
  else if state = 1 ∨ state = 4 then some red
  else if state = 2 ∨ state = 5 ∨ state = 7 ∨ state = 8 then some (1, 1, 0)
  else if state = 3 ∨ state = 6 then some (0, 1, 0)
  else none

theorem mem_npUnique (xs : List Int) (a : Int) : a ∈ npUnique xs ↔ a ∈ xs := by
  unfold npUnique
  rw [(List.mergeSort_perm _ _).mem_iff, List.mem_dedup]

theorem nodup_npUnique (xs : List Int) : (npUnique xs).Nodup := by
  unfold npUnique
  rw [(List.mergeSort_perm _ _).nodup_iff]
  exact List.nodup_dedup _

theorem mapLegend_iff (ty : Int) (c : Rgb) :
    mapLegend ty = some c ↔ roadGraphShown.contains ty = true ∧ c = (roadGraphColor ty).getD roadGraphDefaultColor := by
  have hl : roadGraphShown.contains ty = true ↔
      ty = 1 ∨ ty = 2 ∨ ty = 3 ∨ ty = 15 ∨ ty = 16 ∨ ty = 17 ∨ ty = 18 ∨ ty = 19 := by
    simp [roadGraphShown]
  rw [hl]
  constructor
  · intro h
    unfold mapLegend at h
    split at h
    · rename_i ht
      obtain rfl | rfl | rfl := ht <;> simp at h <;> exact ⟨by decide, h.symm⟩
    split at h
    · rename_i ht
      obtain rfl | rfl := ht <;> simp at h <;> exact ⟨by decide, h.symm⟩
    split at h
    · rename_i ht
      subst ht; simp at h; exact ⟨by decide, h.symm⟩
    split at h
    · rename_i ht
      obtain rfl | rfl := ht <;> simp at h <;> exact ⟨by decide, h.symm⟩
    · exact absurd h (by simp)
  · rintro ⟨rfl | rfl | rfl | rfl | rfl | rfl | rfl | rfl, rfl⟩ <;> rfl

/-- The road points shown are exactly the valid points of a shown type, each in the colour of its type. -/
theorem C100_road (pts : List (RgPoint ℝ)) :
    ∃ marks, plotRoadgraphPoints (some pts) = .ok marks ∧
      (∀ p c, Draw.roadPoint p c ∈ marks ↔ ∃ q ∈ pts, q.valid = true ∧ p = (q.x, q.y) ∧ mapLegend q.type = some c) ∧
      ∀ m ∈ marks, ∃ p c, m = Draw.roadPoint p c := by
  refine ⟨_, rfl, fun p c => ?_, fun m hm => ?_⟩
  · simp only [List.mem_flatMap, List.mem_filter, List.mem_map, mem_npUnique, Draw.roadPoint.injEq, beq_iff_eq]
    constructor
    · rintro ⟨ty, ⟨-, hs⟩, q, ⟨⟨hq, hv⟩, rfl⟩, rfl, rfl⟩
      exact ⟨q, hq, hv, rfl, (mapLegend_iff _ _).2 ⟨hs, rfl⟩⟩
    · rintro ⟨q, hq, hv, rfl, hc⟩
      obtain ⟨hs, rfl⟩ := (mapLegend_iff _ _).1 hc
      exact ⟨q.type, ⟨⟨q, ⟨hq, hv⟩, rfl⟩, hs⟩, q, ⟨⟨hq, hv⟩, rfl⟩, rfl, rfl⟩
  · simp only [List.mem_flatMap, List.mem_map] at hm
    obtain ⟨-, -, q, -, rfl⟩ := hm
    exact ⟨_, _, rfl⟩

theorem sum_by_type (kept : List (RgPoint ℝ)) : ∀ types : List Int, types.Nodup →
    (types.flatMap fun ty => kept.filter fun p => p.type == ty).length = (kept.filter fun p => types.contains p.type).length := by
  intro types
  induction types with
  | nil => intro _; simp
  | cons a l ih =>
    intro hn
    obtain ⟨ha, hl⟩ := List.nodup_cons.1 hn
    rw [List.flatMap_cons, List.length_append, ih hl]
    simp only [← List.countP_eq_length_filter]
    clear ih hn hl
    induction kept with
    | nil => simp
    | cons p ps ihp =>
      simp only [List.countP_cons, List.contains_cons, Bool.or_eq_true]
      simp only [List.contains_cons] at ihp
      by_cases h1 : p.type = a
      · have h2 : l.contains p.type = false := by
          rw [h1]; simpa using ha
        have h3 : (p.type == a) = true := by simpa using h1
        simp only [h2, h3, Bool.false_eq_true, if_false, if_true, true_or]
        omega
      · have h2 : (p.type == a) = false := by simpa using h1
        simp only [h2, Bool.false_eq_true, if_false, false_or]
        omega

/-- Every shown point is drawn once. -/
theorem C100_road_once (pts : List (RgPoint ℝ)) {marks : List Draw} (h : plotRoadgraphPoints (some pts) = .ok marks) :
    marks.length = (pts.filter fun q => q.valid && (mapLegend q.type).isSome).length := by
  have := Except.ok.inj h
  subst this
  set kept := pts.filter fun p => p.valid with hk
  have hlen : ∀ types : List Int, (types.flatMap fun ty => (kept.filter fun p => p.type == ty).map fun p =>
        Draw.roadPoint (p.x, p.y) ((roadGraphColor ty).getD roadGraphDefaultColor)).length =
      (types.flatMap fun ty => kept.filter fun p => p.type == ty).length := by
    intro types
    simp only [List.length_flatMap, List.length_map]
  rw [hlen, sum_by_type kept _ ((nodup_npUnique _).filter _)]
  have : pts.filter (fun q => q.valid && (mapLegend q.type).isSome) = kept.filter fun q => (mapLegend q.type).isSome := by
    rw [hk, List.filter_filter]
    congr 1; funext q; rw [Bool.and_comm]
  rw [this]
  congr 1
  apply List.filter_congr
  intro q hq
  rw [Bool.eq_iff_iff, List.contains_iff_mem, List.mem_filter, mem_npUnique]
  have hm : q.type ∈ kept.map fun p => p.type := List.mem_map_of_mem hq
  simp only [hm, true_and]
  rw [Option.isSome_iff_exists]
  constructor
  · intro h; exact ⟨_, (mapLegend_iff _ _).2 ⟨h, rfl⟩⟩
  · rintro ⟨c, hc⟩; exact ((mapLegend_iff _ _).1 hc).1

theorem trafficLightColor_eq (state : Int) : trafficLightColor state = lightLegend state := by
  by_cases h : 0 ≤ state ∧ state ≤ 8
  · obtain ⟨h0, h8⟩ := h
    have : state = 0 ∨ state = 1 ∨ state = 2 ∨ state = 3 ∨ state = 4 ∨ state = 5 ∨ state = 6 ∨ state = 7 ∨ state = 8 := by omega
    obtain rfl | rfl | rfl | rfl | rfl | rfl | rfl | rfl | rfl := this <;> rfl
  · have hr : lightLegend state = none := by
      unfold lightLegend
      rw [if_neg (by omega), if_neg (by omega), if_neg (by omega), if_neg (by omega)]
    rw [hr]
    unfold trafficLightColor
    split <;> first | omega | rfl

/-- A value or an exception. -/
def orErr {γ : Type} (e : Err) : Option γ → Except Err γ
  | none => .error e
  | some y => .ok y

theorem mapM_ok_iff {β γ : Type} (f : β → Option γ) (e : Err) : ∀ xs : List β,
    (∃ ys, (xs.mapM fun x => orErr e (f x)) = .ok ys) ↔
      ∀ x ∈ xs, f x ≠ none := by
  intro xs
  induction xs with
  | nil => simp [pure, Except.pure]
  | cons a l ih =>
    rw [List.mapM_cons]
    cases hf : f a with
    | none => simp [bind, Except.bind, hf, orErr]
    | some y =>
      have ho : orErr e (some y) = .ok y := rfl
      simp only [bind, Except.bind, pure, Except.pure, ho]
      constructor
      · rintro ⟨ys, h⟩ x hx
        rcases List.mem_cons.1 hx with rfl | hx
        · simp [hf]
        · refine ih.1 ?_ x hx
          split at h
          · simp at h
          · exact ⟨_, by assumption⟩
      · intro h
        obtain ⟨ys, hys⟩ := ih.2 fun x hx => h x (List.mem_cons_of_mem _ hx)
        rw [hys]
        exact ⟨_, rfl⟩

theorem mapM_ok_map {β γ : Type} (f : β → Option γ) (e : Err) : ∀ (xs : List β) (ys : List γ),
    (xs.mapM fun x => orErr e (f x)) = .ok ys →
      xs.map f = ys.map some := by
  intro xs
  induction xs with
  | nil => intro ys h; simp [pure, Except.pure] at h; subst h; rfl
  | cons a l ih =>
    intro ys h
    rw [List.mapM_cons, bind_eq_ok] at h
    obtain ⟨b, hb, h⟩ := h
    rw [bind_eq_ok] at h
    obtain ⟨bs, hbs, h⟩ := h
    have := Except.ok.inj h
    subst this
    cases hf : f a with
    | none => rw [hf] at hb; simp [orErr] at hb
    | some y =>
      rw [hf] at hb
      have := Except.ok.inj hb
      subst this
      simp [hf, ih bs hbs]

theorem lights_form (tls : List (Fin T → TlState ℝ)) (t : Fin T) :
    plotTrafficLights tls t = ((tls.map fun l => l t).filter fun p => p.valid).mapM fun p =>
      orErr .keyError ((lightLegend p.state).map fun c => Draw.light (p.x, p.y) c) := by
  unfold plotTrafficLights
  congr 1
  funext p
  rw [trafficLightColor_eq]
  cases lightLegend p.state <;> rfl

/-- Drawing the lights of a step succeeds exactly when the state of every light valid at that step is one of 0 ... 8. -/
theorem C100_lights_accepted (tls : List (Fin T → TlState ℝ)) (t : Fin T) :
    (∃ marks, plotTrafficLights tls t = .ok marks) ↔
      ∀ l ∈ tls, (l t).valid = true → 0 ≤ (l t).state ∧ (l t).state ≤ 8 := by
  rw [lights_form, mapM_ok_iff]
  have hr : ∀ s : Int, lightLegend s ≠ none ↔ 0 ≤ s ∧ s ≤ 8 := by
    intro s
    unfold lightLegend
    constructor
    · intro h
      by_contra hc
      exact h (by rw [if_neg (by omega), if_neg (by omega), if_neg (by omega), if_neg (by omega)])
    · intro h
      repeat' split
      all_goals first | omega | (exact fun h => by simp at h)
  simp only [List.mem_filter, List.mem_map, Ne, Option.map_eq_none_iff]
  constructor
  · intro h l hl hv
    exact (hr _).1 (h (l t) ⟨⟨l, hl, rfl⟩, hv⟩)
  · rintro h p ⟨⟨l, hl, rfl⟩, hv⟩
    exact (hr _).2 (h l hl hv)

/-- The lights shown are the valid ones, once each and in their order, each in the colour of its state. -/
theorem C100_lights (tls : List (Fin T → TlState ℝ)) (t : Fin T) {marks : List Draw} (h : plotTrafficLights tls t = .ok marks) :
    ((tls.map fun l => l t).filter fun p => p.valid).map (fun p => (lightLegend p.state).map fun c => Draw.light (p.x, p.y) c) =
      marks.map some := by
  rw [lights_form] at h
  exact mapM_ok_map _ _ _ _ h

theorem lights_only (tls : List (Fin T → TlState ℝ)) (t : Fin T) {marks : List Draw} (h : plotTrafficLights tls t = .ok marks) :
    ∀ m ∈ marks, ∃ p c, m = Draw.light p c := by
  intro m hm
  have : some m ∈ marks.map some := List.mem_map_of_mem hm
  rw [← C100_lights tls t h] at this
  simp only [List.mem_map, Option.map_eq_some_iff] at this
  obtain ⟨p, -, c, -, rfl⟩ := this
  exact ⟨_, _, rfl⟩

/-! ### C99: red boxes are the overlap metric -/

theorem viewCenter_sdc (cfg : VizConfig) (hc : cfg.centerAgentIdx = -1) {md : Fin n → ObjMeta} {k : Fin n}
    (hk : ∀ j, (md j).isSdc = true ↔ j = k) (xy : Fin n → ℝ × ℝ) : viewCenter cfg md xy = .ok (xy k) := by
  unfold viewCenter
  rw [if_pos hc]
  have : (List.finRange n).filter (fun i => (md i).isSdc) = [k] := by
    have h1 : (fun i => (md i).isSdc) = fun i => i == k := by
      funext i; rw [Bool.eq_iff_iff, hk]; simp
    rw [h1, List.filter_beq, List.count_eq_one_of_mem (List.nodup_finRange n) (List.mem_finRange k)]
    rfl
  rw [this]

/-- The parts of a picture of a state. -/
theorem plotState_ok {s : SimState ℝ n T} {useLog : Bool} {cfg : VizConfig} {hl : ObjectType} {fig : Figure}
    (h : plotSimulatorState s useLog cfg hl = .ok fig) :
    ∃ mask boxes road cur lights c, getControlMask s.objectMetadata hl = .ok mask ∧
      plotTrajectory (if useLog then s.logTrajectory else s.simTrajectory) mask (some s.timestep) cfg.showAgentId = .ok boxes ∧
      plotRoadgraphPoints s.roadgraphPoints = .ok road ∧ npIndex T s.timestep = .ok cur ∧
      plotTrafficLights s.logTrafficLight cur = .ok lights ∧
      viewCenter cfg s.objectMetadata (fun i => (((if useLog then s.logTrajectory else s.simTrajectory) i cur).x,
        ((if useLog then s.logTrajectory else s.simTrajectory) i cur).y)) = .ok c ∧
      fig = { marks := boxes ++ road ++ lights, axis := viewAxis cfg c } := by
  unfold plotSimulatorState at h
  simp only [bind_eq_ok] at h
  obtain ⟨mask, h1, boxes, h2, road, h3, cur, h4, lights, h5, c, h6, h7⟩ := h
  exact ⟨mask, boxes, road, cur, lights, c, h1, h2, h3, h4, h5, h6, (Except.ok.inj h7).symm⟩

theorem road_only {rg : Option (List (RgPoint ℝ))} {road : List Draw} (h : plotRoadgraphPoints rg = .ok road) :
    ∀ m ∈ road, ∃ p c, m = Draw.roadPoint p c := by
  cases rg with
  | none => simp [plotRoadgraphPoints] at h
  | some pts =>
    obtain ⟨m', h', -, ho⟩ := C100_road pts
    rw [h] at h'
    have := Except.ok.inj h'
    subst this
    exact ho

theorem boxes_only {traj : Traj ℝ n T} {isControlled : Fin n → Bool} {ti : Option Int} {ids : Bool} {boxes : List Draw}
    (h : plotTrajectory traj isControlled ti ids = .ok boxes) (p : ℝ × ℝ) (c : Rgb) :
    Draw.roadPoint p c ∉ boxes ∧ Draw.light p c ∉ boxes := by
  have hb : ∀ {tj b}, plotBoundingBoxes traj tj isControlled = .ok b → Draw.roadPoint p c ∉ b ∧ Draw.light p c ∉ b := by
    intro tj b hb
    unfold plotBoundingBoxes at hb
    split at hb
    · cases hb
    · split at hb
      · cases hb
      · have := Except.ok.inj hb
        subst this
        simp [plotNumpyBoundingBoxes]
  have hl : ∀ cur, Draw.roadPoint p c ∉ (if ids = true then plotLabels traj cur else []) ∧
      Draw.light p c ∉ (if ids = true then plotLabels traj cur else []) := by
    intro cur
    cases ids <;> simp [plotLabels]
  unfold plotTrajectory at h
  split at h
  · exact hb h
  · dsimp only at h
    split at h
    · cases h
    · split at h
      · cases h
      · split at h
        · cases h
        · rename_i b hbb
          have := Except.ok.inj h
          subst this
          simp only [List.mem_append, not_or]
          exact ⟨⟨(hl _).1, (hb hbb).1⟩, (hl _).2, (hb hbb).2⟩

/-- Map points and lights among the marks of boxes, road and lights drawn together. -/
theorem scene_marks {traj : Traj ℝ n T} {isControlled : Fin n → Bool} {ti : Option Int} {ids : Bool} {boxes road lights : List Draw}
    {rg : List (RgPoint ℝ)} {tls : List (Fin T → TlState ℝ)} {t : Fin T}
    (hb : plotTrajectory traj isControlled ti ids = .ok boxes) (hr : plotRoadgraphPoints (some rg) = .ok road)
    (hl : plotTrafficLights tls t = .ok lights) (p : ℝ × ℝ) (c : Rgb) :
    (Draw.roadPoint p c ∈ boxes ++ road ++ lights ↔ ∃ q ∈ rg, q.valid = true ∧ p = (q.x, q.y) ∧ mapLegend q.type = some c) ∧
    (Draw.light p c ∈ boxes ++ road ++ lights ↔
      ∃ l ∈ tls, (l t).valid = true ∧ p = ((l t).x, (l t).y) ∧ lightLegend (l t).state = some c) := by
  obtain ⟨b1, b2⟩ := boxes_only hb p c
  have r1 : ¬ Draw.light p c ∈ road := fun hm => by obtain ⟨_, _, h⟩ := road_only hr _ hm; cases h
  have l1 : ¬ Draw.roadPoint p c ∈ lights := fun hm => by obtain ⟨_, _, h⟩ := lights_only _ _ hl _ hm; cases h
  obtain ⟨m', h', hm, -⟩ := C100_road rg
  rw [hr] at h'
  have := Except.ok.inj h'
  subst this
  simp only [List.mem_append, b1, b2, r1, l1, false_or, or_false, hm, true_and]
  have := C100_lights tls t hl
  have hs : Draw.light p c ∈ lights ↔ some (Draw.light p c) ∈ lights.map some := by simp
  rw [hs, ← this]
  simp only [List.mem_map, List.mem_filter, Option.map_eq_some_iff, Draw.light.injEq]
  constructor
  · rintro ⟨q, ⟨⟨l, hl, rfl⟩, hv⟩, c', hc, rfl, rfl⟩
    exact ⟨l, hl, hv, rfl, hc⟩
  · rintro ⟨l, hl, hv, rfl, hc⟩
    exact ⟨l t, ⟨⟨l, hl, rfl⟩, hv⟩, c, hc, rfl, rfl⟩

/-- In the picture of a state, with either trajectory, the map points are the valid points of the shown types and the lights are
the lights valid at the state's step. -/
theorem C100_state_picture {s : SimState ℝ n T} {useLog : Bool} {cfg : VizConfig} {hl : ObjectType} {fig : Figure} {t : Fin T}
    {rg : List (RgPoint ℝ)} (ht : (t : Int) = s.timestep) (hrg : s.roadgraphPoints = some rg)
    (h : plotSimulatorState s useLog cfg hl = .ok fig) (p : ℝ × ℝ) (c : Rgb) :
    (Draw.roadPoint p c ∈ fig.marks ↔ ∃ q ∈ rg, q.valid = true ∧ p = (q.x, q.y) ∧ mapLegend q.type = some c) ∧
    (Draw.light p c ∈ fig.marks ↔
      ∃ l ∈ s.logTrafficLight, (l t).valid = true ∧ p = ((l t).x, (l t).y) ∧ lightLegend (l t).state = some c) := by
  obtain ⟨mask, boxes, road, cur, lights, v, -, hb, hr, hcur, hli, -, rfl⟩ := plotState_ok h
  have : cur = t := by
    rw [← ht, npIndex_nat] at hcur; exact (Except.ok.inj hcur).symm
  subst this
  rw [hrg] at hr
  exact scene_marks hb hr hli p c

/-- In the picture of a state with the simulated trajectory, the red outlines are exactly the rectangles of the present objects whose
overlap metric is 1. -/
theorem C99_red_is_overlap [NeZero T] {s : SimState ℝ n T} {cfg : VizConfig} {hl : ObjectType} {fig : Figure} {t : Fin T}
    (ht : (t : Int) = s.timestep) (h : plotSimulatorState s false cfg hl = .ok fig) (pts : List (ℝ × ℝ)) :
    Draw.outline pts red ∈ fig.marks ↔
      ∃ i, (overlapMetric s i).valid = true ∧ (overlapMetric s i).value = 1 ∧
        pts = rectPolygon (s.simTrajectory i t).x (s.simTrajectory i t).y (s.simTrajectory i t).length (s.simTrajectory i t).width
          (s.simTrajectory i t).yaw := by
  obtain ⟨mask, boxes, road, cur, lights, c, -, hb, hr, -, hli, -, rfl⟩ := plotState_ok h
  simp only [Bool.false_eq_true, if_false] at hb
  rw [← ht] at hb
  obtain ⟨boxes', hb', ho, -⟩ := C98_picture s.simTrajectory mask t cfg.showAgentId
  rw [hb] at hb'
  have := Except.ok.inj hb'
  subst this
  have hroad : ¬ Draw.outline pts red ∈ road := fun hm => by
    obtain ⟨p, c, h⟩ := road_only hr _ hm; cases h
  have hlight : ¬ Draw.outline pts red ∈ lights := fun hm => by
    obtain ⟨p, c, h⟩ := lights_only _ _ hli _ hm; cases h
  simp only [List.mem_append, hroad, hlight, or_false, ho]
  have hp : ∀ i, pictured s.simTrajectory t i t = rectPolygon (s.simTrajectory i t).x (s.simTrajectory i t).y
      (s.simTrajectory i t).length (s.simTrajectory i t).width (s.simTrajectory i t).yaw := by
    intro i; simp [pictured]
  have br : red ≠ blue := by decide +kernel
  have gr : red ≠ grey := by decide +kernel
  constructor
  · rintro (⟨i, t', -, -, -, hc⟩ | ⟨i, j, hne, ⟨hi, hj, hx⟩, rfl, -⟩)
    · split at hc
      · exact absurd hc br
      · exact absurd hc gr
    · refine ⟨i, ?_, ?_, hp i⟩
      · rw [(C27_overlap_metric s ht i).2.2]; exact hi
      · rw [(C27_overlap_metric s ht i).1]; exact ⟨j, hne, hj, hx⟩
  · rintro ⟨i, hv, h1, rfl⟩
    rw [(C27_overlap_metric s ht i).2.2] at hv
    rw [(C27_overlap_metric s ht i).1] at h1
    obtain ⟨j, hne, hj, hx⟩ := h1
    exact Or.inr ⟨i, j, hne, ⟨hv, hj, hx⟩, (hp i).symm, trivial⟩

/-! ### C101: what can be drawn, and where the view is centred -/

/-- C101, full expectation: with any `center_agent_idx` that is an object's index, the state is drawn with the view around that
object. -/
def C101_full : Prop :=
  ∀ (n T : Nat) (s : SimState ℝ n T) (cfg : VizConfig) (t : Fin T) (k : Fin n) (rg : List (RgPoint ℝ)),
    (t : Int) = s.timestep → s.roadgraphPoints = some rg → s.logTrafficLight = [] → cfg.centerAgentIdx = (k : Int) →
    ∃ fig, plotSimulatorState s true cfg .VALID = .ok fig ∧
      fig.axis = ((s.logTrajectory k t).x - cfg.backX, (s.logTrajectory k t).x + cfg.frontX,
        (s.logTrajectory k t).y - cfg.backY, (s.logTrajectory k t).y + cfg.frontY)

/-- No state is ever drawn with a chosen centre. -/
theorem C101_chosen_center (s : SimState ℝ n T) (useLog : Bool) (cfg : VizConfig) (hl : ObjectType) (h : cfg.centerAgentIdx ≠ -1)
    (fig : Figure) : plotSimulatorState s useLog cfg hl ≠ .ok fig := by
  intro hf
  obtain ⟨_, _, _, _, _, _, -, -, -, -, -, hc, -⟩ := plotState_ok hf
  simp [viewCenter, h] at hc

theorem C101_violated : ¬ C101_full := by
  intro h
  obtain ⟨fig, hf, -⟩ := h 2 1 { exPair with roadgraphPoints := some [] } { centerAgentIdx := 1 } 0 1 [] rfl rfl rfl rfl
  exact C101_chosen_center _ _ _ _ (by simp) _ hf

/-- What holds: with the default centre, a state with one SDC, at a step of its log, with known light states and a road graph, is
drawn, and the view is around the SDC's position in the drawn trajectory. Missing: a chosen centre, see `C101_violated`, and
`highlight_obj=NON_SDC` and states without road graph, see `C101_rejected`. -/
theorem C101_default_center_partial {s : SimState ℝ n T} {k : Fin n} (hk : ∀ j, (s.objectMetadata j).isSdc = true ↔ j = k)
    {t : Fin T} (ht : (t : Int) = s.timestep) {rg : List (RgPoint ℝ)} (hrg : s.roadgraphPoints = some rg)
    (hli : ∀ l ∈ s.logTrafficLight, (l t).valid = true → 0 ≤ (l t).state ∧ (l t).state ≤ 8)
    (useLog : Bool) (cfg : VizConfig) (hc : cfg.centerAgentIdx = -1) {hl : ObjectType} (hhl : hl ≠ .NON_SDC) :
    ∃ fig, plotSimulatorState s useLog cfg hl = .ok fig ∧
      let here := if useLog then s.logTrajectory k t else s.simTrajectory k t
      fig.axis = (here.x - cfg.backX, here.x + cfg.frontX, here.y - cfg.backY, here.y + cfg.frontY) := by
  obtain ⟨mask, hm⟩ : ∃ mask, getControlMask s.objectMetadata hl = .ok mask := by
    cases hl <;> first | exact ⟨_, rfl⟩ | exact absurd rfl hhl
  obtain ⟨lights, hlig⟩ := (C100_lights_accepted s.logTrafficLight t).2 hli
  obtain ⟨road, hroad, -⟩ := C100_road rg
  obtain ⟨boxes, hb, -⟩ := C98_picture (if useLog then s.logTrajectory else s.simTrajectory) mask t cfg.showAgentId
  have hn : npIndex T s.timestep = .ok t := by rw [← ht, npIndex_nat]
  rw [ht] at hb
  rw [← hrg] at hroad
  refine ⟨{ marks := boxes ++ road ++ lights, axis := viewAxis cfg (((if useLog then s.logTrajectory else s.simTrajectory) k t).x,
    ((if useLog then s.logTrajectory else s.simTrajectory) k t).y) }, ?_, ?_⟩
  · unfold plotSimulatorState
    simp only [bind_eq_ok]
    exact ⟨mask, hm, boxes, hb, road, hroad, t, hn, lights, hlig, _, viewCenter_sdc cfg hc hk _, rfl⟩
  · cases useLog <;> rfl

/-- A state without road graph, or a request to highlight the non-SDC objects, is never drawn. -/
theorem C101_rejected (s : SimState ℝ n T) (useLog : Bool) (cfg : VizConfig) (hl : ObjectType)
    (h : s.roadgraphPoints = none ∨ hl = .NON_SDC) (fig : Figure) : plotSimulatorState s useLog cfg hl ≠ .ok fig := by
  intro hf
  obtain ⟨_, _, _, _, _, _, hm, -, hr, -⟩ := plotState_ok hf
  rcases h with h | rfl
  · rw [h] at hr; simp [plotRoadgraphPoints] at hr
  · simp [getControlMask] at hm

/-! ### C104: an observation is drawn around its observer -/

theorem plotObs_ok {K : Nat} {o : Obs n K} {cfg : VizConfig} {hl : ObjectType} {fig : Figure}
    (h : plotObservation o cfg hl = .ok fig) :
    ∃ mask boxes road cur lights c, getControlMask o.metadata hl = .ok mask ∧
      plotTrajectory o.trajectory mask (some ((K : Int) - 1)) cfg.showAgentId = .ok boxes ∧
      plotRoadgraphPoints (some o.roadgraph) = .ok road ∧ npIndex K ((K : Int) - 1) = .ok cur ∧
      plotTrafficLights o.trafficLights cur = .ok lights ∧
      viewCenter cfg o.metadata (fun i => ((o.trajectory i cur).x, (o.trajectory i cur).y)) = .ok c ∧
      fig = { marks := boxes ++ road ++ lights, axis := viewAxis cfg c } := by
  unfold plotObservation at h
  simp only [bind_eq_ok] at h
  obtain ⟨mask, h1, boxes, h2, road, h3, cur, h4, lights, h5, c, h6, h7⟩ := h
  exact ⟨mask, boxes, road, cur, lights, c, h1, h2, h3, h4, h5, h6, (Except.ok.inj h7).symm⟩

/-- In the picture of an observation the map points are the valid points of the shown types and the lights are the lights valid
at the last step of the window. -/
theorem C100_observation_picture {K : Nat} {o : Obs n K} {cfg : VizConfig} {hl : ObjectType} {fig : Figure} {t : Fin K}
    (ht : (t : Nat) + 1 = K) (h : plotObservation o cfg hl = .ok fig) (p : ℝ × ℝ) (c : Rgb) :
    (Draw.roadPoint p c ∈ fig.marks ↔ ∃ q ∈ o.roadgraph, q.valid = true ∧ p = (q.x, q.y) ∧ mapLegend q.type = some c) ∧
    (Draw.light p c ∈ fig.marks ↔
      ∃ l ∈ o.trafficLights, (l t).valid = true ∧ p = ((l t).x, (l t).y) ∧ lightLegend (l t).state = some c) := by
  obtain ⟨mask, boxes, road, cur, lights, v, -, hb, hr, hcur, hli, -, rfl⟩ := plotObs_ok h
  have : cur = t := by
    have ht' : (K : Int) - 1 = ((t : Nat) : Int) := by omega
    rw [ht', npIndex_nat] at hcur; exact (Except.ok.inj hcur).symm
  subst this
  exact scene_marks hb hr hli p c

/-- The SDC's own OBJECT-frame observation is drawn with the view around the origin, and the SDC's rectangle there, with heading 0,
is the blue box. -/
theorem C104_ego_view [NeZero T] {s : SimState ℝ n T} {K topk : Nat} {k : Fin n} {o : Obs n K}
    (hk : ∀ j, (s.objectMetadata j).isSdc = true ↔ j = k) (hK0 : 0 < K) (hK : (K : Int) ≤ s.timestep + 1) (hT : s.timestep < T)
    (ho : observationFromState s K topk .OBJECT k = .ok o) {cfg : VizConfig} {fig : Figure}
    (h : plotObservation o cfg .SDC = .ok fig) :
    fig.axis = (-cfg.backX, cfg.frontX, -cfg.backY, cfg.frontY) ∧
    ((s.currentSim k).valid = true →
      Draw.outline (rectPolygon 0 0 (s.currentSim k).length (s.currentSim k).width 0) blue ∈ fig.marks) := by
  obtain ⟨mask, boxes, road, cur, lights, c, hm, hb, -, hcur, -, hc, rfl⟩ := plotObs_ok h
  let u : Fin K := ⟨K - 1, by omega⟩
  have hu : ((u : Nat) : Int) = (K : Int) - 1 := by simp only [u]; omega
  have : cur = u := by
    rw [← hu, npIndex_nat] at hcur; exact (Except.ok.inj hcur).symm
  subst this
  obtain ⟨hx, hy, hyaw, hv⟩ := C80_observer_at_origin hK hT ho u (by simp only [u]; omega)
  obtain ⟨g, hg, hs⟩ := C80_object_frame ho
  obtain ⟨hKT, -, -, -, htr, -, hmd, -⟩ := obs_global_ok hg
  have hmeta : o.metadata = s.objectMetadata := by rw [hs.objectInfo, hmd]
  obtain ⟨τ, hτ⟩ : ∃ τ : Fin T, (τ : Int) = s.timestep := ⟨⟨s.timestep.toNat, by omega⟩, by simp; omega⟩
  have hcs : s.currentSim k = s.simTrajectory k τ := dynIndex_of_eq _ hτ
  have hgi : g.trajectory k u = s.currentSim k := by
    rw [htr, hcs]
    exact dynSlice_window _ hKT hK (by omega) u τ (by omega)
  have hp := hs.objects k u
  rw [hgi] at hp
  constructor
  · have hcfg : cfg.centerAgentIdx = -1 := by
      by_contra hne
      simp [viewCenter, hne] at hc
    rw [viewCenter_sdc cfg hcfg (fun j => by rw [hmeta]; exact hk j)] at hc
    have := Except.ok.inj hc
    subst this
    simp [viewAxis, hx, hy]
  · intro hval
    rw [← hu] at hb
    obtain ⟨boxes', hb', hout, -⟩ := C98_picture o.trajectory mask u cfg.showAgentId
    rw [hb] at hb'
    have := Except.ok.inj hb'
    subst this
    refine List.mem_append_left _ (List.mem_append_left _ ((hout _ _).2 (Or.inl ⟨k, u, le_refl _, ?_, ?_, ?_⟩)))
    · rw [hv, hval]
    · simp [pictured, hx, hy, hyaw, hp.other.2.1, hp.other.2.2.1]
    · have hmk : mask k = true := by
        simp only [getControlMask] at hm
        have := Except.ok.inj hm
        subst this
        simp only [hmeta, hk]
      rw [hmk]; rfl

/-! ### C103: metrics on the picture of a Brax time step -/

/-- C103, full expectation: two different valid metrics are written at two different places. -/
def C103_full : Prop :=
  ∀ (n T : Nat) (s : SimState ℝ n T) (metrics : List (String × MetricResult)) (cfg : VizConfig) (fig : Figure),
    plotBraxTimestep s metrics false cfg = .ok fig → ∀ p q a b x y, Draw.metric p a x ∈ fig.marks → Draw.metric q b y ∈ fig.marks →
      a ≠ b → p ≠ q

theorem plotBrax_ok {s : SimState ℝ n T} {metrics : List (String × MetricResult)} {useLog : Bool} {cfg : VizConfig} {fig : Figure}
    (h : plotBraxTimestep s metrics useLog cfg = .ok fig) :
    ∃ boxes road cur lights paths c,
      plotTrajectory (if useLog then s.logTrajectory else s.simTrajectory) (fun i => (s.objectMetadata i).isSdc) (some s.timestep)
        cfg.showAgentId = .ok boxes ∧
      plotRoadgraphPoints s.roadgraphPoints = .ok road ∧ npIndex T s.timestep = .ok cur ∧
      plotTrafficLights s.logTrafficLight cur = .ok lights ∧ plotPathPoints s.sdcPaths = .ok paths ∧
      viewCenter cfg s.objectMetadata (fun i => (((if useLog then s.logTrajectory else s.simTrajectory) i cur).x,
        ((if useLog then s.logTrajectory else s.simTrajectory) i cur).y)) = .ok c ∧
      fig = { marks := boxes ++ road ++ lights ++ paths ++ (metrics.filter fun m => m.2.valid).map fun m =>
                Draw.metric (c.1 - cfg.backX, c.2 - cfg.backY + 10) m.1 m.2.value, axis := viewAxis cfg c } := by
  unfold plotBraxTimestep at h
  simp only [bind_eq_ok] at h
  obtain ⟨boxes, h2, road, h3, cur, h4, lights, h5, paths, h6, c, h7, h8⟩ := h
  exact ⟨boxes, road, cur, lights, paths, c, h2, h3, h4, h5, h6, h7, (Except.ok.inj h8).symm⟩

theorem mapM_ok_flatten {β γ : Type} (f : β → Except Err (List γ)) : ∀ (xs : List β) (ys : List (List γ)), xs.mapM f = .ok ys →
    ∀ m, m ∈ ys.flatten ↔ ∃ x ∈ xs, ∃ y, f x = .ok y ∧ m ∈ y := by
  intro xs
  induction xs with
  | nil => intro ys h m; simp [pure, Except.pure] at h; subst h; simp
  | cons a l ih =>
    intro ys h m
    rw [List.mapM_cons, bind_eq_ok] at h
    obtain ⟨b, hb, h⟩ := h
    rw [bind_eq_ok] at h
    obtain ⟨bs, hbs, h⟩ := h
    have := Except.ok.inj h
    subst this
    rw [List.flatten_cons, List.mem_append, ih bs hbs m]
    constructor
    · rintro (hm | ⟨x, hx, y, hy, hm⟩)
      · exact ⟨a, List.mem_cons_self, b, hb, hm⟩
      · exact ⟨x, List.mem_cons_of_mem _ hx, y, hy, hm⟩
    · rintro ⟨x, hx, y, hy, hm⟩
      rcases List.mem_cons.1 hx with rfl | hx
      · rw [hb] at hy
        have := Except.ok.inj hy
        subst this
        exact Or.inl hm
      · exact Or.inr ⟨x, hx, y, hy, hm⟩

/-- Which path points are drawn: the valid points of the paths whose first point is valid; cyan on the route, green off it. -/
theorem C103_paths {ps : List (SdcPath ℝ)} {marks : List Draw} (h : plotPathPoints (some ps) = .ok marks) (m : Draw) :
    m ∈ marks ↔ ∃ path ∈ ps, ∃ first rest, path.points = first :: rest ∧ first.valid = true ∧
      ∃ q ∈ path.points, q.valid = true ∧ m = Draw.pathPoint (q.x, q.y) path.onRoute := by
  simp only [plotPathPoints, bind_eq_ok] at h
  obtain ⟨ys, hys, h⟩ := h
  have := Except.ok.inj h
  subst this
  rw [mapM_ok_flatten _ _ _ hys]
  constructor
  · rintro ⟨path, hp, y, hy, hm⟩
    refine ⟨path, hp, ?_⟩
    cases hpts : path.points with
    | nil => rw [hpts] at hy; simp at hy
    | cons first rest =>
      rw [hpts] at hy
      simp only at hy
      split at hy
      · rename_i hv
        have := Except.ok.inj hy
        subst this
        simp only [List.mem_map, List.mem_filter] at hm
        obtain ⟨q, ⟨hq, hqv⟩, rfl⟩ := hm
        exact ⟨first, rest, rfl, hv, q, hq, hqv, rfl⟩
      · have := Except.ok.inj hy
        subst this
        simp at hm
  · rintro ⟨path, hp, first, rest, hpts, hv, q, hq, hqv, rfl⟩
    refine ⟨path, hp, (path.points.filter fun p => p.valid).map fun p => Draw.pathPoint (p.x, p.y) path.onRoute, ?_, ?_⟩
    · simp only [hpts, hv, if_true]
    · exact List.mem_map.2 ⟨q, List.mem_filter.2 ⟨hq, hqv⟩, rfl⟩

/-- The metrics written on the picture: every valid one, and all of them at the same place. -/
theorem C103_texts {s : SimState ℝ n T} {metrics : List (String × MetricResult)} {useLog : Bool} {cfg : VizConfig} {fig : Figure}
    (h : plotBraxTimestep s metrics useLog cfg = .ok fig) :
    ∃ place, ∀ p a x, Draw.metric p a x ∈ fig.marks ↔ p = place ∧ ∃ m, (a, m) ∈ metrics ∧ m.valid = true ∧ x = m.value := by
  obtain ⟨boxes, road, cur, lights, paths, c, hb, hr, hcur, hli, hpa, -, rfl⟩ := plotBrax_ok h
  have hts : npIndex T s.timestep = .ok cur := hcur
  have nb : ∀ p a x, ¬ Draw.metric p a x ∈ boxes := by
    intro p a x hm
    unfold plotTrajectory at hb
    simp only at hb
    split at hb
    · simp at hb
    split at hb
    · simp at hb
    · split at hb
      · simp at hb
      · rename_i boxes' hbb
        have := Except.ok.inj hb
        subst this
        rcases List.mem_append.1 hm with hm | hm
        · cases cfg.showAgentId <;> simp [plotLabels] at hm
        · unfold plotBoundingBoxes at hbb
          simp only at hbb
          split at hbb
          · simp at hbb
          · have := Except.ok.inj hbb
            subst this
            simp only [List.mem_append] at hm
            rcases hm with ((hm | hm) | hm) | hm <;> simp [plotNumpyBoundingBoxes] at hm
  have nr : ∀ p a x, ¬ Draw.metric p a x ∈ road := fun p a x hm => by
    obtain ⟨p, c, h⟩ := road_only hr _ hm; cases h
  have nl : ∀ p a x, ¬ Draw.metric p a x ∈ lights := fun p a x hm => by
    obtain ⟨p, c, h⟩ := lights_only _ _ hli _ hm; cases h
  have np : ∀ p a x, ¬ Draw.metric p a x ∈ paths := fun p a x hm => by
    cases hsp : s.sdcPaths with
    | none => rw [hsp] at hpa; simp [plotPathPoints] at hpa
    | some ps =>
      rw [hsp] at hpa
      obtain ⟨_, _, _, _, _, _, _, _, _, h⟩ := (C103_paths hpa _).1 hm
      cases h
  refine ⟨(c.1 - cfg.backX, c.2 - cfg.backY + 10), fun p a x => ?_⟩
  simp only [List.mem_append, nb, nr, nl, np, false_or, List.mem_map, List.mem_filter, Draw.metric.injEq, Prod.exists]
  constructor
  · rintro ⟨a', m, ⟨hm, hv⟩, rfl, rfl, rfl⟩; exact ⟨rfl, m, hm, hv, rfl⟩
  · rintro ⟨rfl, m, hm, hv, rfl⟩; exact ⟨a, m, ⟨hm, hv⟩, rfl, rfl, rfl⟩

/-- A drawable single-agent time step: two parked cars, an empty map and no paths. -/
def exTs : SimState ℝ 2 1 := { exPair with roadgraphPoints := some [], sdcPaths := some [] }

theorem exTs_drawn (metrics : List (String × MetricResult)) : ∃ fig, plotBraxTimestep exTs metrics = .ok fig := by
  obtain ⟨boxes, hb, -⟩ := C98_picture exTs.simTrajectory (fun i => (exTs.objectMetadata i).isSdc) 0 true
  refine ⟨{ marks := boxes ++ [] ++ [] ++ [] ++ (metrics.filter fun m => m.2.valid).map fun m =>
              Draw.metric (((exTs.simTrajectory 0 0).x : ℝ) - 75, (exTs.simTrajectory 0 0).y - 75 + 10) m.1 m.2.value
            axis := viewAxis {} ((exTs.simTrajectory 0 0).x, (exTs.simTrajectory 0 0).y) }, ?_⟩
  · unfold plotBraxTimestep
    simp only [bind_eq_ok]
    refine ⟨boxes, hb, [], ?_, 0, npIndex_nat (T := 1) 0, [], rfl, [], rfl, _, viewCenter_sdc (k := 0) {} rfl ?_ _, rfl⟩
    · simp [plotRoadgraphPoints, exTs, npUnique]
    · intro j; simp [exTs, exPair]

theorem C103_violated : ¬ C103_full := by
  intro h
  obtain ⟨fig, hf⟩ := exTs_drawn [("overlap", ⟨1, true⟩), ("offroad", ⟨0, true⟩)]
  obtain ⟨place, hp⟩ := C103_texts hf
  exact h 2 1 exTs _ {} fig hf place place "overlap" "offroad" 1 0
    ((hp _ _ _).2 ⟨rfl, ⟨1, true⟩, by simp, rfl, rfl⟩) ((hp _ _ _).2 ⟨rfl, ⟨0, true⟩, by simp, rfl, rfl⟩) (by decide) rfl

/-- What holds: when at most one metric is valid, nothing is written over it. Missing: two or more valid metrics, see
`C103_violated`. -/
theorem C103_single_partial {s : SimState ℝ n T} {metrics : List (String × MetricResult)} {useLog : Bool} {cfg : VizConfig}
    {fig : Figure} (h : plotBraxTimestep s metrics useLog cfg = .ok fig)
    (h1 : ∀ m ∈ metrics, ∀ m' ∈ metrics, m.2.valid = true → m'.2.valid = true → m.1 = m'.1)
    (p q : ℝ × ℝ) (a b : String) (x y : ℝ) (ha : Draw.metric p a x ∈ fig.marks) (hb : Draw.metric q b y ∈ fig.marks) : a = b := by
  obtain ⟨place, hp⟩ := C103_texts h
  obtain ⟨-, m, hm, hv, -⟩ := (hp _ _ _).1 ha
  obtain ⟨-, m', hm', hv', -⟩ := (hp _ _ _).1 hb
  exact h1 _ hm _ hm' hv hv'

/-! ### Concrete pictures -/

/-- The state of two touching cars is drawn, around the SDC. -/
example : ∃ fig, plotSimulatorState exTs false {} .SDC = .ok fig ∧ fig.axis = (0 - 75, 0 + 75, 0 - 75, 0 + 75) := by
  obtain ⟨fig, hf, ha⟩ := C101_default_center_partial (s := exTs) (k := 0) (by intro j; simp [exTs, exPair]) (t := 0) rfl rfl
    (by simp [exTs, exPair]) false {} rfl (hl := .SDC) (by simp)
  refine ⟨fig, hf, ?_⟩
  rw [ha]
  simp [exTs, exPair, parked]

/-- Both are drawn in red: they are 3 m apart and 4 m long. -/
example : ∃ fig, plotSimulatorState exTs false {} .SDC = .ok fig ∧ Draw.outline (rectPolygon 0 0 4 2 0) red ∈ fig.marks := by
  obtain ⟨fig, hf, -⟩ := C101_default_center_partial (s := exTs) (k := 0) (by intro j; simp [exTs, exPair]) (t := 0) rfl rfl
    (by simp [exTs, exPair]) false {} rfl (hl := .SDC) (by simp)
  refine ⟨fig, hf, (C99_red_is_overlap (t := 0) rfl hf _).2 ⟨0, ?_, ?_, ?_⟩⟩
  · rw [(C27_overlap_metric exTs (t := 0) rfl 0).2.2]; rfl
  · rw [(C27_overlap_metric exTs (t := 0) rfl 0).1]
    refine ⟨1, by decide, rfl, (1.5, 0), ⟨1.5, 0, ?_, ?_, ?_⟩, ⟨-1.5, 0, ?_, ?_, ?_⟩⟩ <;>
      norm_num [exTs, exPair, parked, pointAt, heading, leftOf, abs_of_nonneg, abs_lt]
  · simp [exTs, exPair, parked]

/-- A stop sign is shown in red, a lane line is not shown, an invalid point is not shown. -/
example : plotRoadgraphPoints (some [⟨1, 2, 0, 0, 0, 0, 17, 5, true⟩, ⟨3, 4, 0, 0, 0, 0, 6, 5, true⟩, ⟨5, 6, 0, 0, 0, 0, 1, 5, false⟩]) =
    .ok [.roadPoint (1, 2) red] := by
  have h : npUnique [17, 6] = [6, 17] := by simp [npUnique, List.mergeSort, List.merge, List.MergeSort.Internal.splitInTwo]
  simp only [plotRoadgraphPoints, List.filter_cons, if_true, Bool.false_eq_true, if_false, List.filter_nil, List.map_cons, List.map_nil, h]
  simp [roadGraphShown, roadGraphColor, red]

/-- A green light, and a light in a state that is not known. -/
example : plotTrafficLights (T := 1) [fun _ => ⟨1, 2, 0, 6, 5, true⟩, fun _ => ⟨9, 9, 0, 3, 5, false⟩] 0 = .ok [.light (1, 2) (0, 1, 0)] ∧
    ¬ ∃ m, plotTrafficLights (T := 1) [fun _ => ⟨1, 2, 0, 9, 5, true⟩] 0 = .ok m := by
  refine ⟨rfl, fun h => ?_⟩
  have := (C100_lights_accepted _ _).1 h _ List.mem_cons_self rfl
  simp at this

/-- The picture of a state with a green light at (1, 2) shows it. -/
example : ∃ fig, plotSimulatorState { exTs with logTrafficLight := [fun _ => ⟨1, 2, 0, 6, 5, true⟩] } false {} .SDC = .ok fig ∧
    Draw.light (1, 2) (0, 1, 0) ∈ fig.marks := by
  obtain ⟨fig, hf, -⟩ := C101_default_center_partial (s := { exTs with logTrafficLight := [fun _ => ⟨1, 2, 0, 6, 5, true⟩] }) (k := 0)
    (by intro j; simp [exTs, exPair]) (t := 0) rfl rfl (by simp) false {} rfl (hl := .SDC) (by simp)
  exact ⟨fig, hf, ((C100_state_picture (t := 0) rfl rfl hf _ _).2).2 ⟨_, List.mem_cons_self, rfl, rfl, rfl⟩⟩

/-- An ego view: car 0 of the town scenario, drawn from its own observation. -/
example : ∃ o fig, observationFromState townScen 2 1 .OBJECT 0 = .ok o ∧ plotObservation o {} .SDC = .ok fig := by
  obtain ⟨o, ho⟩ := town_obs .OBJECT 0
  refine ⟨o, ?_⟩
  obtain ⟨g, hg, hs⟩ := C80_object_frame ho
  obtain ⟨hKT, -, -, -, -, -, hmd, htl, -⟩ := obs_global_ok hg
  have hmeta : o.metadata = townScen.objectMetadata := by rw [hs.objectInfo, hmd]
  obtain ⟨lights, hlig⟩ : ∃ lights, plotTrafficLights o.trafficLights 1 = .ok lights := by
    rw [C100_lights_accepted]
    intro l hl _
    have hf := hs.lights
    rw [htl] at hf
    simp only [townScen, List.map_cons, List.map_nil] at hf
    obtain ⟨b, l', h1, h2, heq⟩ := List.forall₂_cons_left_iff.1 hf
    rw [List.forall₂_nil_left_iff] at h2
    subst h2
    rw [heq] at hl
    obtain rfl := List.mem_singleton.1 hl
    rw [(h1 1).other.2.1]
    have : startIdx 3 2 (1 - (2 : Nat) + 1) = 0 := by decide
    simp only [dynSlice, this]
    constructor <;> simp
  obtain ⟨boxes, hb, -⟩ := C98_picture o.trajectory (fun i => (o.metadata i).isSdc) 1 true
  obtain ⟨road, hr, -⟩ := C100_road o.roadgraph
  refine ⟨{ marks := boxes ++ road ++ lights, axis := viewAxis {} ((o.trajectory 0 1).x, (o.trajectory 0 1).y) }, ho, ?_⟩
  unfold plotObservation
  simp only [bind_eq_ok]
  refine ⟨_, rfl, boxes, hb, road, hr, 1, npIndex_nat (T := 2) 1, lights, hlig, _, viewCenter_sdc (k := 0) {} rfl ?_ _, rfl⟩
  intro j; rw [hmeta]; simp [townScen, carScen]

end Waymax
